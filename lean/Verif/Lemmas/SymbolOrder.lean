import Verif.Lemmas.Load
import Verif.Lemmas.Order
/-! The order of the symbols of a prefix: only the keys that start the string matter. -/
namespace Verif
open Spec

/-- same prefix up to the order of its symbols -/
def PreSame (p q : Prefix) : Prop := p.name = q.name ∧ p.value = q.value ∧ p.symbols.Perm q.symbols

/-- same keys in the same order with the same prefixes -/
inductive ListSame : List (Str × Prefix) → List (Str × Prefix) → Prop
  | nil : ListSame [] []
  | cons {k p q l m} : PreSame p q → ListSame l m → ListSame ((k, p) :: l) ((k, q) :: m)

theorem PreSame.refl (p : Prefix) : PreSame p p := ⟨rfl, rfl, .refl _⟩

theorem ListSame.set {l m : List (Str × Prefix)} (h : ListSame l m) (k : Str) {p q : Prefix} (hp : PreSame p q) :
    ListSame (Dict.set k p l) (Dict.set k q m) := by
  induction h with
  | nil => exact .cons hp .nil
  | @cons k' p' q' l m h1 h2 ih =>
    unfold Dict.set
    split
    · exact .cons hp h2
    · exact .cons h1 ih

theorem ListSame.append {l m l' m' : List (Str × Prefix)} (h : ListSame l m) (h' : ListSame l' m') :
    ListSame (l ++ l') (m ++ m') := by
  induction h with
  | nil => exact h'
  | cons h1 _ ih => exact .cons h1 ih

/-- keys that start `n` -/
def starting (n : Str) (l : List (Str × Prefix)) : List (Str × Prefix) := l.filter fun q => (dropPrefix q.1 n).isSome

theorem starting_set (n k : Str) (p : Prefix) (l : List (Str × Prefix)) :
    starting n (Dict.set k p l) = if (dropPrefix k n).isSome then Dict.set k p (starting n l) else starting n l := by
  induction l with
  | nil => by_cases h : (dropPrefix k n).isSome <;> simp [starting, Dict.set, h]
  | cons q l ih =>
    obtain ⟨k', p'⟩ := q
    rw [show Dict.set k p ((k', p') :: l) = if k' = k then (k', p) :: l else (k', p') :: Dict.set k p l from rfl]
    by_cases hk : k' = k
    · subst hk
      by_cases h : (dropPrefix k' n).isSome <;> simp [starting, Dict.set, h]
    · rw [if_neg hk]
      unfold starting at ih ⊢
      by_cases h' : (dropPrefix k' n).isSome
      · simp only [List.filter_cons, h', if_true, ih]
        by_cases h : (dropPrefix k n).isSome
        · simp [h, Dict.set, hk]
        · simp [h]
      · have h'' : (dropPrefix k' n).isSome = false := by simpa using h'
        rw [List.filter_cons, List.filter_cons]
        simp only [h'', Bool.false_eq_true, if_false]
        exact ih

theorem starting_fold (n : Str) (p : Prefix) : ∀ (ys : List Str) (l : List (Str × Prefix)),
    starting n (ys.foldl (fun d y => Dict.set y p d) l)
      = (ys.filter fun y => (dropPrefix y n).isSome).foldl (fun d y => Dict.set y p d) (starting n l)
  | [], _ => rfl
  | y :: ys, l => by
    rw [List.foldl_cons, starting_fold n p ys, starting_set, List.filter_cons]
    by_cases h : (dropPrefix y n).isSome <;> simp [h]

theorem firstSplit_starting (s : System) (n : Str) : ∀ l, firstSplit s n (starting n l) = firstSplit s n l
  | [] => rfl
  | (k, p) :: l => by
    unfold starting
    rw [List.filter_cons]
    cases h : dropPrefix k n with
    | none =>
      have ih := firstSplit_starting s n l
      unfold starting at ih
      simp [h, firstSplit, ih]
    | some r =>
      have ih := firstSplit_starting s n l
      unfold starting at ih
      simp [h, firstSplit, ih]

theorem starting_append (n : Str) (l m : List (Str × Prefix)) : starting n (l ++ m) = starting n l ++ starting n m :=
  List.filter_append ..

theorem firstSplit_same {s1 s2 : System} (hd : ∀ n, direct s1 n = direct s2 n) (n : Str) {l m : List (Str × Prefix)}
    (h : ListSame l m) :
    (firstSplit s1 n l = none ∧ firstSplit s2 n m = none) ∨
    ∃ p pre1 pre2 rest e, firstSplit s1 n l = some (p, pre1, rest, e) ∧ firstSplit s2 n m = some (p, pre2, rest, e) ∧
      PreSame pre1 pre2 := by
  induction h with
  | nil => exact .inl ⟨rfl, rfl⟩
  | @cons k p q l m h1 h2 ih =>
    unfold firstSplit
    cases dropPrefix k n with
    | none => exact ih
    | some rest =>
      simp only
      rw [hd]
      cases direct s2 rest with
      | none => exact ih
      | some e => exact .inr ⟨k, p, q, rest, e, rfl, rfl, h1⟩

/-- No symbol of the list is an initial segment of another one. -/
def PrefixFree (ys : List Str) : Prop := ∀ a ∈ ys, ∀ b ∈ ys, a <+: b → a = b

theorem starts_unique {a b n : Str} (ha : a <+: n) (hb : b <+: n) : a <+: b ∨ b <+: a := by
  rcases Nat.le_total a.length b.length with h | h
  · exact .inl (List.prefix_of_prefix_length_le ha hb h)
  · exact .inr (List.prefix_of_prefix_length_le hb ha h)

theorem isSome_dropPrefix {p n : Str} : (dropPrefix p n).isSome = true ↔ p <+: n := by
  cases h : dropPrefix p n with
  | none => simp [dropPrefix_eq_none.1 h]
  | some r => simp [dropPrefix_eq_some.1 h]

/-- at most one symbol starts `n`, so the order does not matter -/
theorem filter_starts_eq {n : Str} {xs ys : List Str} (hp : xs.Perm ys) (hn : xs.Nodup) (hf : PrefixFree xs) :
    (xs.filter fun y => (dropPrefix y n).isSome) = (ys.filter fun y => (dropPrefix y n).isSome) := by
  have hp' := hp.filter (fun y => (dropPrefix y n).isSome)
  have hn' := hn.filter (fun y => (dropPrefix y n).isSome)
  have huniq : ∀ a ∈ (xs.filter fun y => (dropPrefix y n).isSome), ∀ b ∈ (xs.filter fun y => (dropPrefix y n).isSome), a = b := by
    intro a ha b hb
    rw [List.mem_filter] at ha hb
    rcases starts_unique (isSome_dropPrefix.1 ha.2) (isSome_dropPrefix.1 hb.2) with h | h
    · exact hf a ha.1 b hb.1 h
    · exact (hf b hb.1 a ha.1 h).symm
  generalize (xs.filter fun y => (dropPrefix y n).isSome) = l at *
  match l, hn', huniq with
  | [], _, _ => exact (List.nil_perm.1 hp').symm
  | [a], _, _ => exact List.singleton_perm.1 hp'
  | a :: b :: l, hn', huniq =>
    exfalso
    have := huniq a (by simp) b (by simp)
    subst this
    simp at hn'

theorem ListSame.foldl_set {p q : Prefix} (hp : PreSame p q) : ∀ (ys : List Str) {l m : List (Str × Prefix)}, ListSame l m →
    ListSame (ys.foldl (fun d y => Dict.set y p d) l) (ys.foldl (fun d y => Dict.set y q d) m)
  | [], _, _, h => h
  | y :: ys, _, _, h => ListSame.foldl_set hp ys (h.set y hp)

/-- two lists of prefixes that differ in the order of symbols -/
inductive PresSame : List Prefix → List Prefix → Prop
  | nil : PresSame [] []
  | cons {p q ps qs} : PreSame p q → p.symbols.Nodup → PrefixFree p.symbols → PresSame ps qs → PresSame (p :: ps) (q :: qs)

/-- the two systems before any unit is added -/
structure PrefixesSame (s1 s2 : System) : Prop where
  names : s1.names = s2.names
  symbols : s1.symbols = s2.symbols
  aliasNames : s1.aliasNames = s2.aliasNames
  aliasSymbols : s1.aliasSymbols = s2.aliasSymbols
  heap : s1.heap = s2.heap
  prefixNames : ListSame s1.prefixNames s2.prefixNames
  prefixSymbols : ∀ n, ListSame (starting n s1.prefixSymbols) (starting n s2.prefixSymbols)

theorem PrefixesSame.addPrefix {s1 s2 : System} (h : PrefixesSame s1 s2) {p q : Prefix} (hp : PreSame p q)
    (hn : p.symbols.Nodup) (hf : PrefixFree p.symbols) : PrefixesSame (s1.addPrefix p) (s2.addPrefix q) := by
  obtain ⟨a, b, c, d, e, f, g⟩ := h
  refine ⟨a, b, c, d, e, ?_, ?_⟩
  · show ListSame (Dict.set p.name p _) (Dict.set q.name q _)
    rw [← hp.1]; exact f.set _ hp
  · intro n
    show ListSame (starting n (p.symbols.foldl _ _)) (starting n (q.symbols.foldl _ _))
    rw [starting_fold, starting_fold, ← filter_starts_eq hp.2.2 hn hf]
    exact ListSame.foldl_set hp _ (g n)

theorem PrefixesSame.foldl {ps qs : List Prefix} (hp : PresSame ps qs) : ∀ {s1 s2 : System}, PrefixesSame s1 s2 →
    PrefixesSame (ps.foldl System.addPrefix s1) (qs.foldl System.addPrefix s2) := by
  induction hp with
  | nil => intro s1 s2 h; exact h
  | cons hp hn hf _ ih => intro s1 s2 h; exact ih (h.addPrefix hp hn hf)

theorem Collides_congr {s1 s2 : System} (h : PrefixesSame s1 s2) (r : UnitReference) : Collides s1 r ↔ Collides s2 r := by
  unfold Collides; rw [h.names, h.symbols]

theorem PrefixesSame.add {s1 s2 : System} (h : PrefixesSame s1 s2) (d : UnitDecl) :
    (∃ k, d.add s1 = .error k ∧ d.add s2 = .error k) ∨
    ∃ s1' s2', d.add s1 = .ok s1' ∧ d.add s2 = .ok s2' ∧ PrefixesSame s1' s2' := by
  by_cases hc : Collides s1 (declRef d)
  · have hcol : ∀ r, s1.collision r = s2.collision r := by
      intro r; unfold System.collision; rw [h.names, h.symbols]
    left
    obtain ⟨k, hk⟩ := add_err d s1 hc
    refine ⟨_, hk, ?_⟩
    have hne : s1.collision (declRef d) ≠ none := fun h => collision_eq_none.1 h hc
    obtain ⟨k', hk'⟩ := Option.ne_none_iff_exists'.1 hne
    have hk2 := hcol (declRef d)
    rw [hk'] at hk2
    cases d with
    | lazy t r =>
      have e1 : ({ s1 with heap := s1.heap ++ [⟨t, r, none⟩] } : System).collision r = some k' := by
        unfold System.collision at hk' ⊢; exact hk'
      have e2 : ({ s2 with heap := s2.heap ++ [⟨t, r, none⟩] } : System).collision r = some k' := by
        unfold System.collision at hk2 ⊢; exact hk2.symm
      simp [UnitDecl.add, System.alloc, System.addUnit, System.namesOf, e1] at hk
      simp [UnitDecl.add, System.alloc, System.addUnit, System.namesOf, e2, hk]
    | basis b =>
      have e1 : s1.collision b.names = some k' := hk'
      have e2 : s2.collision b.names = some k' := hk2.symm
      simp [UnitDecl.add, System.addUnit, System.namesOf, e1] at hk
      simp [UnitDecl.add, System.addUnit, System.namesOf, e2, hk]
  · right
    refine ⟨_, _, add_ok' d s1 hc, add_ok' d s2 (fun h' => hc ((Collides_congr h _).2 h')), ?_⟩
    obtain ⟨a, b, c, d', e, f, g⟩ := h
    constructor <;> simp [System.register, a, b, c, d', e, f, g]

theorem PrefixesSame.addDecls : ∀ (ds : List UnitDecl) {s1 s2 : System}, PrefixesSame s1 s2 →
    (∃ k, Verif.addDecls ds s1 = .error k ∧ Verif.addDecls ds s2 = .error k) ∨
    ∃ s1' s2', Verif.addDecls ds s1 = .ok s1' ∧ Verif.addDecls ds s2 = .ok s2' ∧ PrefixesSame s1' s2'
  | [], s1, s2, h => .inr ⟨s1, s2, rfl, rfl, h⟩
  | d :: ds, s1, s2, h => by
    unfold Verif.addDecls
    rcases h.add d with ⟨k, h1, h2⟩ | ⟨s1', s2', h1, h2, h3⟩
    · rw [h1, h2]; exact .inl ⟨k, rfl, rfl⟩
    · rw [h1, h2]; exact PrefixesSame.addDecls ds h3

theorem PrefixesSame.direct {s1 s2 : System} (h : PrefixesSame s1 s2) (n : Str) : direct s1 n = direct s2 n := by
  unfold Spec.direct; rw [h.names, h.symbols, h.aliasNames, h.aliasSymbols]

theorem PrefixesSame.sysSame {s1 s2 : System} (h : PrefixesSame s1 s2) : SysSame s1 s2 := by
  refine ⟨h.heap, h.direct, fun n => ?_⟩
  have key : ListSame (starting n (s1.prefixNames ++ s1.prefixSymbols)) (starting n (s2.prefixNames ++ s2.prefixSymbols)) := by
    rw [starting_append, starting_append]
    refine ListSame.append ?_ (h.prefixSymbols n)
    have hpn := h.prefixNames
    generalize s1.prefixNames = l at hpn ⊢
    generalize s2.prefixNames = m at hpn ⊢
    induction hpn with
    | nil => exact .nil
    | @cons k p q l m h1 h2 ih =>
      unfold starting at *
      rw [List.filter_cons, List.filter_cons]
      split
      · exact .cons h1 ih
      · exact ih
  have := firstSplit_same h.direct n key
  rw [firstSplit_starting, firstSplit_starting] at this
  rcases this with h | ⟨p, p1, p2, r, e, h1, h2, h3⟩
  · exact .inl h
  · exact .inr ⟨p, p1, p2, r, e, h1, h2, h3⟩

end Verif
