import Verif.Lemmas.SymbolOrder
/-! Strict and lenient reading; loading with two symbol orders. -/
namespace Verif
open Spec

/-- `a` is `b`, except that it may have stopped because of unhandled content -/
def Stricter {α} (a b : Py α) : Prop := a = .error .unhandledContent ∨ a = b

namespace Stricter
theorem refl {α} (a : Py α) : Stricter a a := .inr rfl
theorem bind {α β} {a b : Py α} {f g : α → Py β} (h : Stricter a b) (hf : ∀ x, Stricter (f x) (g x)) :
    Stricter (a >>= f) (b >>= g) := by
  rcases h with h | h
  · subst h; exact .inl rfl
  · subst h
    cases a with
    | error e => exact .inr rfl
    | ok x => exact hf x
theorem ite {α} {c : Bool} {a b a' b' : Py α} (h : Stricter a a') (h' : Stricter b b') :
    Stricter (if c then a else b) (if c then a' else b') := by cases c <;> assumption
theorem unhandled : Stricter (unhandledContent true) (unhandledContent false) := .inl rfl
end Stricter

theorem strict_name (t : Tag) : Stricter (handleName true t) (handleName false t) := by
  unfold handleName
  dsimp only
  split
  · exact .refl _
  · refine .bind (.refl _) fun _ => .bind (.refl _) fun _ => .bind (.ite .unhandled (.refl _)) fun _ => .refl _

theorem strict_prefix (q : List Str → List Str) (t : Tag) : Stricter (handlePrefix true q t) (handlePrefix false q t) := by
  unfold handlePrefix
  dsimp only
  split
  · exact .refl _
  · refine .bind (.refl _) fun _ => ?_
    split
    · exact .refl _
    · exact .bind (.refl _) fun _ => .bind (.ite .unhandled (.refl _)) fun _ => .refl _

theorem strict_aliases : ∀ l, Stricter (handleAliases true l) (handleAliases false l)
  | [] => .refl _
  | a :: l => by
    unfold handleAliases
    split
    · exact .bind (strict_name a) fun _ => .bind (strict_aliases l) fun _ => .refl _
    · split
      · exact .bind (.refl _) fun _ => .bind (strict_aliases l) fun _ => .refl _
      · split
        · exact strict_aliases l
        · exact .bind .unhandled fun _ => strict_aliases l

theorem strict_reference (t : Tag) : Stricter (handleReference true t) (handleReference false t) := by
  unfold handleReference
  dsimp only
  refine .bind ?_ fun _ => .bind ?_ fun _ => .refl _
  · split
    · exact .refl _
    · exact .bind (strict_name _) fun _ => .refl _
  · split
    · exact .refl _
    · exact .bind (.refl _) fun _ => strict_aliases _

theorem strict_unit (t : Tag) : Stricter (handleUnit true t) (handleUnit false t) := by
  unfold handleUnit
  refine .bind (strict_reference t) fun x => ?_
  obtain ⟨ref, tag⟩ := x
  dsimp only
  split
  · exact .bind (.refl _) fun _ => .bind (.ite .unhandled (.refl _)) fun _ => .refl _
  · refine .bind (.refl _) fun y => ?_
    obtain ⟨dl, tag⟩ := y
    dsimp only
    split
    · exact .refl _
    · exact .bind (.refl _) fun _ => .bind (.ite .unhandled (.refl _)) fun _ => .refl _

theorem strict_addPrefixes (q : List Str → List Str) : ∀ ts s, Stricter (addPrefixes true q ts s) (addPrefixes false q ts s)
  | [], _ => .refl _
  | t :: ts, s => by
    unfold addPrefixes
    exact .bind (strict_prefix q t) fun _ => strict_addPrefixes q ts _

theorem strict_addUnits : ∀ ts s, Stricter (addUnits true ts s) (addUnits false ts s)
  | [], _ => .refl _
  | t :: ts, s => by
    unfold addUnits
    exact .bind (strict_unit t) fun _ => .bind (.refl _) fun _ => strict_addUnits ts _

theorem strict_system (q : List Str → List Str) (t : Tag) : Stricter (parseSystem true q t) (parseSystem false q t) := by
  unfold parseSystem
  dsimp only
  exact .bind (strict_addPrefixes q _ _) fun _ => .bind (strict_addUnits _ _) fun _ =>
    .bind (.ite .unhandled (.refl _)) fun _ => .refl _

/-! ## two symbol orders -/

/-- the texts of the `symbol` children -/
def symbolTexts (t : Tag) : List Str := (t.children.filter fun c => decide (c.name = c!"symbol")).map Tag.text

theorem filter_popFirst {t : Tag} {n m : Str} (h : n ≠ m) :
    (t.popFirst n).2.children.filter (fun c => decide (c.name = m)) = t.children.filter (fun c => decide (c.name = m)) := by
  rcases Tag.popFirst_cases t n with ⟨e, _⟩ | ⟨before, c, after, hc, _, hn, e⟩
  · rw [e]
  · rw [e, hc]
    have : c.name ≠ m := by rw [hn]; exact h
    simp [Tag.children, this]

theorem symbolSet_nodup (l : List Str) : (symbolSet l).Nodup := by
  exact setUnion_nodup (a := []) l List.nodup_nil

theorem mem_symbolSet {y : Str} {l : List Str} : y ∈ symbolSet l ↔ y ∈ l := by
  have := mem_setUnion (y := y) (a := []) (b := l)
  unfold setUnion at this
  unfold symbolSet
  rw [this]; simp

theorem handlePrefix_order (strict : Bool) (q : List Str → List Str) (t : Tag) :
    (∃ e, ∀ q, handlePrefix strict q t = .error e) ∨
    ∃ nm v, ∀ q, handlePrefix strict q t = .ok ⟨nm, v, q (symbolSet (symbolTexts t))⟩ := by
  unfold handlePrefix
  dsimp only
  rw [Tag.popIter_eq]
  simp only
  have hs : ((t.popFirst c!"name").2.popFirst c!"value").2.children.filter (fun c => decide (c.name = c!"symbol"))
      = t.children.filter (fun c => decide (c.name = c!"symbol")) := by
    rw [filter_popFirst (by decide), filter_popFirst (by decide)]
  rw [hs]
  generalize (t.popFirst c!"name").1 = o1
  generalize ((t.popFirst c!"name").2.popFirst c!"value").1 = o2
  cases o1 with
  | none => exact .inl ⟨_, fun _ => rfl⟩
  | some nm =>
    simp only
    cases pyAssert nm.children.isEmpty with
    | error e => exact .inl ⟨e, fun _ => rfl⟩
    | ok _ =>
      cases o2 with
      | none => exact .inl ⟨_, fun _ => rfl⟩
      | some v =>
        simp only [bind, Except.bind]
        cases pyAssert v.children.isEmpty with
        | error e => exact .inl ⟨e, fun _ => rfl⟩
        | ok _ =>
          simp only
          generalize hg : (if (_ || _) = true then unhandledContent strict else Except.ok ()) = g
          cases g with
          | error e => exact .inl ⟨e, fun _ => rfl⟩
          | ok _ => exact .inr ⟨nm.text, v.text, fun _ => rfl⟩

theorem prefixes_order (strict : Bool) (q1 q2 : List Str → List Str) (h1 : ∀ l, (q1 l).Perm l) (h2 : ∀ l, (q2 l).Perm l) :
    ∀ (ts : List Tag), (∀ t ∈ ts, PrefixFree (symbolTexts t)) → ∀ {s1 s2 : System}, PrefixesSame s1 s2 →
    (∃ e, addPrefixes strict q1 ts s1 = .error e ∧ addPrefixes strict q2 ts s2 = .error e) ∨
    ∃ s1' s2', addPrefixes strict q1 ts s1 = .ok s1' ∧ addPrefixes strict q2 ts s2 = .ok s2' ∧ PrefixesSame s1' s2'
  | [], _, s1, s2, h => .inr ⟨s1, s2, rfl, rfl, h⟩
  | t :: ts, hf, s1, s2, h => by
    unfold addPrefixes
    rcases handlePrefix_order strict q1 t with ⟨e, he⟩ | ⟨nm, v, he⟩
    · rw [he, he]; exact .inl ⟨e, rfl, rfl⟩
    · rw [he, he]
      refine prefixes_order strict q1 q2 h1 h2 ts (fun t ht => hf t (List.mem_cons_of_mem _ ht)) (h.addPrefix ?_ ?_ ?_)
      · exact ⟨rfl, rfl, (h1 _).trans (h2 _).symm⟩
      · exact (h1 _).symm.nodup (symbolSet_nodup _)
      · intro a ha b hb hab
        have ha := mem_symbolSet.1 ((h1 _).subset ha)
        have hb := mem_symbolSet.1 ((h1 _).subset hb)
        exact hf t (by simp) a ha b hb hab

theorem units_order (strict : Bool) : ∀ (ts : List Tag) {s1 s2 : System}, PrefixesSame s1 s2 →
    (∃ e, addUnits strict ts s1 = .error e ∧ addUnits strict ts s2 = .error e) ∨
    ∃ s1' s2', addUnits strict ts s1 = .ok s1' ∧ addUnits strict ts s2 = .ok s2' ∧ PrefixesSame s1' s2'
  | [], s1, s2, h => .inr ⟨s1, s2, rfl, rfl, h⟩
  | t :: ts, s1, s2, h => by
    unfold addUnits
    simp only [bind, Except.bind]
    cases handleUnit strict t with
    | error e => exact .inl ⟨e, rfl, rfl⟩
    | ok d =>
      simp only
      rcases h.add d with ⟨k, e1, e2⟩ | ⟨s1', s2', e1, e2, h'⟩
      · rw [e1, e2]; exact .inl ⟨k, rfl, rfl⟩
      · rw [e1, e2]; exact units_order strict ts h'

theorem system_order (strict : Bool) (q1 q2 : List Str → List Str) (h1 : ∀ l, (q1 l).Perm l) (h2 : ∀ l, (q2 l).Perm l)
    (t : Tag) (hf : ∀ p ∈ t.children, p.name = c!"prefix" → PrefixFree (symbolTexts p)) :
    (∃ e, parseSystem strict q1 t = .error e ∧ parseSystem strict q2 t = .error e) ∨
    ∃ s1 s2, parseSystem strict q1 t = .ok s1 ∧ parseSystem strict q2 t = .ok s2 ∧ PrefixesSame s1 s2 := by
  unfold parseSystem
  rw [Tag.popIter_eq]
  simp only [Tag.popIter_eq, bind, Except.bind]
  have h0 : PrefixesSame System.empty System.empty := ⟨rfl, rfl, rfl, rfl, rfl, .nil, fun _ => .nil⟩
  rcases prefixes_order strict q1 q2 h1 h2 (t.children.filter fun c => decide (c.name = c!"prefix"))
    (by intro p hp; rw [List.mem_filter] at hp; exact hf p hp.1 (by simpa using hp.2)) h0 with
    ⟨e, e1, e2⟩ | ⟨s1, s2, e1, e2, h⟩
  · rw [e1, e2]; exact .inl ⟨e, rfl, rfl⟩
  · rw [e1, e2]
    simp only
    generalize (Tag.mk _ _ _).children.filter _ = us
    rcases units_order strict us h with ⟨e, e1, e2⟩ | ⟨s1', s2', e1, e2, h'⟩
    · rw [e1, e2]; exact .inl ⟨e, rfl, rfl⟩
    · rw [e1, e2]
      simp only
      generalize (if _ = true then unhandledContent strict else Except.ok ()) = g
      cases g with
      | error e => exact .inl ⟨e, rfl, rfl⟩
      | ok _ => exact .inr ⟨s1', s2', rfl, rfl, h'⟩

end Verif
