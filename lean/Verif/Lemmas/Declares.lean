import Verif.Lemmas.Strict
/-! Reading tags: what `handleName`, `handlePrefix`, `handleUnit` return is what the tag says. -/
namespace Verif
open Spec

theorem plural_rule (w : Str) : Plural w (w ++ if endsWithSibilant w then c!"es" else c!"s") := by
  by_cases h : endsWithSibilant w = true
  · rw [if_pos h]
    obtain ⟨stem, h | h | h | h | h⟩ := (endsWithSibilant_iff w).1 h <;> rw [h] <;> exact .es _ _ (by simp)
  · rw [if_neg h]
    refine .s w ?_
    intro stem e he hw
    apply h
    rw [endsWithSibilant_iff]
    simp only [List.mem_cons, List.not_mem_nil, or_false] at he
    rcases he with rfl | rfl | rfl | rfl | rfl <;> exact ⟨stem, by simp [hw]⟩

/-- a word has one plural -/
theorem plural_unique {w p : Str} (h : Plural w p) : p = w ++ if endsWithSibilant w then c!"es" else c!"s" := by
  cases h with
  | es stem e he =>
    have : endsWithSibilant (stem ++ e) = true := by
      rw [endsWithSibilant_iff]
      simp only [List.mem_cons, List.not_mem_nil, or_false] at he
      rcases he with rfl | rfl | rfl | rfl | rfl <;> exact ⟨stem, by simp⟩
    rw [if_pos this]
  | s _ hw =>
    have : ¬ endsWithSibilant w = true := by
      intro h
      obtain ⟨stem, h | h | h | h | h⟩ := (endsWithSibilant_iff w).1 h <;> exact hw stem _ (by simp) h
    rw [if_neg this]

theorem isEmpty_eq {α} {l : List α} : l.isEmpty = true ↔ l = [] := List.isEmpty_iff

theorem pyAssert_ok {b : Bool} {u : Unit} : pyAssert b = .ok u ↔ b = true := by
  unfold pyAssert
  cases b <;> simp

theorem handleName_iff (t : Tag) (n : Name) : handleName false t = .ok n ↔ NameIs t n := by
  unfold NameIs firstNamed
  rw [handleName_eq]
  cases h1 : t.children.find? (fun c => decide (c.name = c!"singular")) with
  | none => simp
  | some sing =>
    cases h2 : t.children.find? (fun c => decide (c.name = c!"plural")) with
    | none =>
      cases h3 : t.children.find? (fun c => decide (c.name = c!"noplural")) with
      | none =>
        cases hc : sing.children with
        | nil =>
          simp only [hc, List.isEmpty_nil, pyAssert, if_true, bind, Except.bind, unhandledContent, Bool.false_eq_true, if_false, ite_self,
            Option.map_none]
          constructor
          · intro h
            cases h
            exact ⟨sing, rfl, hc, rfl, .inr (.inr ⟨trivial, trivial, _, plural_rule _, rfl⟩)⟩
          · rintro ⟨s, hs, _, e1, h | h | ⟨_, _, p, hp, e2⟩⟩
            · obtain ⟨_, h, _⟩ := h; cases h
            · obtain ⟨_, _, h, _⟩ := h; cases h
            · cases hs
              obtain ⟨a, b⟩ := n
              simp only at e1 e2
              rw [e1, e2, plural_unique hp]
        | cons x xs =>
          simp only [hc, List.isEmpty_cons, pyAssert, Bool.false_eq_true, if_false, bind, Except.bind]
          constructor
          · intro h; cases h
          · rintro ⟨s, hs, h, _⟩; cases hs; rw [hc] at h; cases h
      | some np =>
        cases hc : sing.children with
        | nil =>
          cases hd : np.children with
          | nil =>
            cases he : np.text with
            | nil =>
              simp only [hc, hd, he, List.isEmpty_nil, pyAssert, if_true, bind, Except.bind, unhandledContent, Bool.false_eq_true,
                if_false, ite_self, Option.map_none, Bool.and_self, Option.isNone_none]
              constructor
              · intro h
                cases h
                exact ⟨sing, rfl, hc, rfl, .inr (.inl ⟨np, trivial, rfl, hd, he, rfl⟩)⟩
              · rintro ⟨s, hs, _, e1, h | ⟨_, _, _, _, _, e2⟩ | h⟩
                · obtain ⟨_, h, _⟩ := h; cases h
                · cases hs
                  obtain ⟨a, b⟩ := n
                  simp only at e1 e2
                  rw [e1, e2]
                · obtain ⟨_, h, _⟩ := h; cases h
            | cons x xs =>
              simp only [hc, hd, he, List.isEmpty_nil, List.isEmpty_cons, pyAssert, if_true, bind, Except.bind, Bool.false_eq_true,
                if_false, Option.map_none, Bool.and_false, Option.isNone_none]
              constructor
              · intro h; cases h
              · rintro ⟨s, hs, _, e1, h | ⟨_, _, e, _, h, _⟩ | h⟩
                · obtain ⟨_, h, _⟩ := h; cases h
                · cases e; rw [he] at h; cases h
                · obtain ⟨_, h, _⟩ := h; cases h
          | cons x xs =>
            simp only [hc, hd, List.isEmpty_nil, List.isEmpty_cons, pyAssert, if_true, bind, Except.bind, Bool.false_eq_true,
              if_false, Option.map_none, Bool.false_and, Option.isNone_none]
            constructor
            · intro h; cases h
            · rintro ⟨s, hs, _, e1, h | ⟨_, _, e, h, _⟩ | h⟩
              · obtain ⟨_, h, _⟩ := h; cases h
              · cases e; rw [hd] at h; cases h
              · obtain ⟨_, h, _⟩ := h; cases h
        | cons x xs =>
          simp only [hc, List.isEmpty_cons, pyAssert, Bool.false_eq_true, if_false, bind, Except.bind]
          constructor
          · intro h; cases h
          · rintro ⟨s, hs, h, _⟩; cases hs; rw [hc] at h; cases h
    | some pl =>
      cases h3 : t.children.find? (fun c => decide (c.name = c!"noplural")) with
      | none =>
        cases hc : sing.children with
        | nil =>
          simp only [hc, List.isEmpty_nil, pyAssert, if_true, bind, Except.bind, unhandledContent, Bool.false_eq_true, if_false, ite_self,
            Option.map_some]
          constructor
          · intro h
            cases h
            exact ⟨sing, rfl, hc, rfl, .inl ⟨pl, rfl, trivial, rfl⟩⟩
          · rintro ⟨s, hs, _, e1, ⟨p, hp, _, e2⟩ | h | h⟩
            · cases hs; cases hp
              obtain ⟨a, b⟩ := n
              simp only at e1 e2
              rw [e1, e2]
            · obtain ⟨_, _, h, _⟩ := h; cases h
            · obtain ⟨h, _⟩ := h; cases h
        | cons x xs =>
          simp only [hc, List.isEmpty_cons, pyAssert, Bool.false_eq_true, if_false, bind, Except.bind]
          constructor
          · intro h; cases h
          · rintro ⟨s, hs, h, _⟩; cases hs; rw [hc] at h; cases h
      | some np =>
        have : ∀ b, pyAssert b = .ok () ∨ pyAssert b = .error .assertionError := by intro b; cases b <;> simp [pyAssert]
        constructor
        · intro h
          exfalso
          revert h
          simp only [bind, Except.bind, Option.map_some, Option.isNone_some]
          rcases this sing.children.isEmpty with h | h <;> rw [h] <;> simp [pyAssert]
        · rintro ⟨s, hs, _, e1, ⟨p, hp, h, e2⟩ | h | h⟩
          · cases h
          · obtain ⟨_, h, _⟩ := h; cases h
          · obtain ⟨h, _⟩ := h; cases h

theorem handlePrefix_iff (order : List Str → List Str) (t : Tag) (p : Prefix) :
    handlePrefix false order t = .ok p ↔ PrefixIs order t p := by
  unfold PrefixIs
  have f1 : (t.popFirst c!"name").1 = firstNamed t c!"name" := Tag.popFirst_fst t _
  have f2 : ((t.popFirst c!"name").2.popFirst c!"value").1 = firstNamed t c!"value" := by
    rw [Tag.popFirst_fst, Tag.find?_popFirst (by decide)]; rfl
  have hs : ((t.popFirst c!"name").2.popFirst c!"value").2.children.filter (fun c => decide (c.name = c!"symbol"))
      = allNamed t c!"symbol" := by
    rw [filter_popFirst (by decide), filter_popFirst (by decide)]; rfl
  unfold handlePrefix
  dsimp only
  rw [Tag.popIter_eq]
  simp only
  rw [hs, f1, f2]
  cases firstNamed t c!"name" with
  | none => simp
  | some nm =>
    simp only [bind, Except.bind]
    cases hn : nm.children with
    | cons x xs =>
      simp only [List.isEmpty_cons, pyAssert, Bool.false_eq_true, if_false]
      constructor
      · intro h; cases h
      · rintro ⟨_, _, h, h', _⟩; cases h; rw [hn] at h'; cases h'
    | nil =>
      cases firstNamed t c!"value" with
      | none => simp [pyAssert]
      | some v =>
        cases hv : v.children with
        | cons x xs =>
          simp only [hv, List.isEmpty_cons, List.isEmpty_nil, pyAssert, Bool.false_eq_true, if_false, if_true]
          constructor
          · intro h; cases h
          · rintro ⟨_, _, _, _, h, h', _⟩; cases h; rw [hv] at h'; cases h'
        | nil =>
          simp only [hv, List.isEmpty_nil, pyAssert, if_true, unhandledContent, Bool.false_eq_true, if_false, ite_self]
          constructor
          · intro h; cases h
            exact ⟨nm, v, rfl, hn, rfl, hv, rfl, rfl, rfl⟩
          · rintro ⟨_, _, e1, _, e2, _, h1, h2, h3⟩
            cases e1; cases e2
            obtain ⟨a, b, c⟩ := p
            simp only at h1 h2 h3
            rw [h1, h2, h3]

theorem handleAliases_iff : ∀ (l : List Tag) (ns : List Name) (ss : List Str),
    handleAliases false l = .ok (ns, ss) ↔
      Each NameIs (l.filter fun c => decide (c.name = c!"name")) ns ∧
      ss = (l.filter fun c => decide (c.name = c!"symbol")).map Tag.text ∧
      ∀ c ∈ l.filter (fun c => decide (c.name = c!"symbol")), c.text ≠ [] ∧ c.children = []
  | [], ns, ss => by
    unfold handleAliases
    constructor
    · intro h; cases h; exact ⟨.nil, rfl, by simp⟩
    · rintro ⟨h1, h2, _⟩; cases h1; rw [h2]; rfl
  | a :: l, ns, ss => by
    have ih := handleAliases_iff l
    unfold handleAliases
    by_cases hn : a.name = c!"name"
    · have hs : ¬ a.name = c!"symbol" := by rw [hn]; decide
      simp only [hn, if_true, bind, Except.bind, List.filter_cons, hs, decide_true, decide_false, Bool.false_eq_true, if_false]
      cases h1 : handleName false a with
      | error e =>
        constructor
        · intro h; cases h
        · rintro ⟨h2, _⟩
          cases h2 with
          | cons h3 _ => rw [(handleName_iff a _).2 h3] at h1; cases h1
      | ok n =>
        simp only
        cases h2 : handleAliases false l with
        | error e =>
          constructor
          · intro h; cases h
          · rintro ⟨h3, h4⟩
            cases h3 with
            | cons _ h5 => rw [(ih _ _).2 ⟨h5, h4⟩] at h2; cases h2
        | ok r =>
          obtain ⟨ns', ss'⟩ := r
          simp only
          have := (ih ns' ss').1 h2
          constructor
          · intro h; cases h
            exact ⟨.cons ((handleName_iff a n).1 h1) this.1, this.2⟩
          · rintro ⟨h3, h4, h5⟩
            cases h3 with
            | cons h6 h7 =>
              have e1 := (handleName_iff a _).2 h6
              rw [h1] at e1; cases e1
              have e2 := (ih _ _).2 ⟨h7, h4, h5⟩
              rw [h2] at e2; cases e2; rfl
    · simp only [hn, if_false, List.filter_cons, decide_false, Bool.false_eq_true]
      by_cases hs : a.name = c!"symbol"
      · simp only [hs, if_true, bind, Except.bind, decide_true]
        by_cases ha : a.text ≠ [] ∧ a.children = []
        · have hb : (!a.text.isEmpty && a.children.isEmpty) = true := by
            rw [ha.2]
            cases ht : a.text with
            | nil => exact absurd ht ha.1
            | cons x xs => rfl
          rw [hb]
          simp only [pyAssert, if_true]
          cases h2 : handleAliases false l with
          | error e =>
            constructor
            · intro h; cases h
            · rintro ⟨h3, h4, h5⟩
              rw [(ih ns _).2 ⟨h3, rfl, fun c hc => h5 c (List.mem_cons_of_mem _ hc)⟩] at h2; cases h2
          | ok r =>
            obtain ⟨ns', ss'⟩ := r
            simp only
            have := (ih ns' ss').1 h2
            constructor
            · intro h; cases h
              refine ⟨this.1, by rw [this.2.1]; rfl, ?_⟩
              intro c hc
              rcases List.mem_cons.1 hc with rfl | hc
              · exact ha
              · exact this.2.2 c hc
            · rintro ⟨h3, h4, h5⟩
              have e2 := (ih ns _).2 ⟨h3, rfl, fun c hc => h5 c (List.mem_cons_of_mem _ hc)⟩
              rw [h2] at e2; cases e2; rw [h4]; rfl
        · have hb : (!a.text.isEmpty && a.children.isEmpty) = false := by
            cases hx : (!a.text.isEmpty && a.children.isEmpty) with
            | false => rfl
            | true =>
              rw [Bool.and_eq_true] at hx
              refine absurd ⟨?_, isEmpty_eq.1 hx.2⟩ ha
              intro h; rw [h] at hx; cases hx.1
          rw [hb]
          simp only [pyAssert, Bool.false_eq_true, if_false]
          constructor
          · intro h; cases h
          · rintro ⟨_, _, h5⟩; exact absurd (h5 a (List.mem_cons_self ..)) ha
      · simp only [hs, if_false, decide_false, Bool.false_eq_true]
        split
        · exact ih ns ss
        · simp only [unhandledContent, Bool.false_eq_true, if_false, bind, Except.bind]
          exact ih ns ss

theorem filter_popIter {t : Tag} {n m : Str} (h : n ≠ m) :
    (t.popIter n).2.children.filter (fun c => decide (c.name = m)) = t.children.filter (fun c => decide (c.name = m)) := by
  rw [Tag.popIter_eq]
  simp only [Tag.children, List.filter_filter]
  apply List.filter_congr
  intro c _
  by_cases hc : c.name = m
  · have : c.name ≠ n := by rw [hc]; exact fun e => h e.symm
    simp [hc, this] ; rw [hc] at this; exact this
  · simp [hc]

theorem find?_popIter {t : Tag} {n m : Str} (h : n ≠ m) :
    (t.popIter n).2.children.find? (fun c => decide (c.name = m)) = t.children.find? (fun c => decide (c.name = m)) := by
  rw [← List.head?_filter, ← List.head?_filter, filter_popIter h]

theorem handleReference_tag (t : Tag) (r : UnitReference) (t' : Tag) (h : handleReference false t = .ok (r, t')) :
    ∀ m, m ≠ c!"name" → m ≠ c!"symbol" → m ≠ c!"aliases" → m ≠ c!"comment" →
      m ≠ c!"definition" → firstNamed t' m = firstNamed t m := by
  have f4 : ∀ m, m ≠ c!"name" → m ≠ c!"symbol" → m ≠ c!"aliases" → m ≠ c!"comment" → m ≠ c!"definition" →
      firstNamed (((((t.popFirst c!"name").2.popIter c!"symbol").2.popFirst c!"aliases").2.popFirst c!"comment").2.popFirst
        c!"definition").2 m = firstNamed t m := by
    intro m h1 h2 h3 h4 h5
    unfold firstNamed
    rw [Tag.find?_popFirst (Ne.symm h5), Tag.find?_popFirst (Ne.symm h4), Tag.find?_popFirst (Ne.symm h3),
      find?_popIter (Ne.symm h2), Tag.find?_popFirst (Ne.symm h1)]
  have e : t' = (((((t.popFirst c!"name").2.popIter c!"symbol").2.popFirst c!"aliases").2.popFirst c!"comment").2.popFirst
        c!"definition").2 := by
    unfold handleReference at h
    simp only [bind, Except.bind] at h
    split at h
    · cases h
    · split at h
      · cases h
      · cases h; rfl
  rw [e]; exact f4

theorem handleReference_iff (t : Tag) (r : UnitReference) :
    (∃ t', handleReference false t = .ok (r, t') ∧ ∀ m, m ≠ c!"name" → m ≠ c!"symbol" → m ≠ c!"aliases" → m ≠ c!"comment" →
      m ≠ c!"definition" → firstNamed t' m = firstNamed t m) ↔ RefIs t r := by
  have f1 : (t.popFirst c!"name").1 = firstNamed t c!"name" := Tag.popFirst_fst t _
  have f2 : ((t.popFirst c!"name").2.popIter c!"symbol").1 = allNamed t c!"symbol" := by
    rw [Tag.popIter_eq]; exact filter_popFirst (by decide)
  have f3 : (((t.popFirst c!"name").2.popIter c!"symbol").2.popFirst c!"aliases").1 = firstNamed t c!"aliases" := by
    rw [Tag.popFirst_fst, find?_popIter (by decide), Tag.find?_popFirst (by decide)]; rfl
  have f4 : ∀ m, m ≠ c!"name" → m ≠ c!"symbol" → m ≠ c!"aliases" → m ≠ c!"comment" → m ≠ c!"definition" →
      firstNamed (((((t.popFirst c!"name").2.popIter c!"symbol").2.popFirst c!"aliases").2.popFirst c!"comment").2.popFirst
        c!"definition").2 m = firstNamed t m := by
    intro m h1 h2 h3 h4 h5
    unfold firstNamed
    rw [Tag.find?_popFirst (Ne.symm h5), Tag.find?_popFirst (Ne.symm h4), Tag.find?_popFirst (Ne.symm h3),
      find?_popIter (Ne.symm h2), Tag.find?_popFirst (Ne.symm h1)]
  revert f4
  unfold handleReference RefIs
  dsimp only
  rw [f1, f2, f3]
  generalize (((((t.popFirst c!"name").2.popIter c!"symbol").2.popFirst c!"aliases").2.popFirst c!"comment").2.popFirst
        c!"definition").2 = t'
  intro f4
  constructor
  · rintro ⟨t'', h, -⟩
    simp only [bind, Except.bind] at h
    revert h
    cases h1 : firstNamed t c!"name" with
    | none =>
      simp only
      cases h2 : firstNamed t c!"aliases" with
      | none =>
        intro h; cases h
        exact ⟨.inl ⟨trivial, rfl⟩, rfl, .inl ⟨rfl, rfl, rfl⟩⟩
      | some a =>
        simp only
        cases ha : a.text with
        | cons x xs => intro h; cases h
        | nil =>
          simp only [pyAssert, List.isEmpty_nil, if_true]
          cases h3 : handleAliases false a.children with
          | error e => intro h; cases h
          | ok q =>
            intro h; cases h
            obtain ⟨g1, g2, g3⟩ := (handleAliases_iff _ _ _).1 h3
            exact ⟨.inl ⟨trivial, rfl⟩, rfl, .inr ⟨a, rfl, ha, g1, g2, g3⟩⟩
    | some nt =>
      simp only
      cases h0 : handleName false nt with
      | error e => intro h; cases h
      | ok n =>
        simp only
        have hn := (handleName_iff nt n).1 h0
        cases h2 : firstNamed t c!"aliases" with
        | none =>
          intro h; cases h
          exact ⟨.inr ⟨nt, n, rfl, hn, rfl⟩, rfl, .inl ⟨rfl, rfl, rfl⟩⟩
        | some a =>
          simp only
          cases ha : a.text with
          | cons x xs => intro h; cases h
          | nil =>
            simp only [pyAssert, List.isEmpty_nil, if_true]
            cases h3 : handleAliases false a.children with
            | error e => intro h; cases h
            | ok q =>
              intro h; cases h
              obtain ⟨g1, g2, g3⟩ := (handleAliases_iff _ _ _).1 h3
              exact ⟨.inr ⟨nt, n, rfl, hn, rfl⟩, rfl, .inr ⟨a, rfl, ha, g1, g2, g3⟩⟩
  · obtain ⟨rn, rs, ran, ras⟩ := r
    simp only
    rintro ⟨h1, h2, h3⟩
    refine ⟨t', ?_, f4⟩
    simp only [bind, Except.bind]
    subst h2
    rcases h1 with ⟨h1, e1⟩ | ⟨nt, n, h1, hn, e1⟩
    · rw [h1, e1]
      rcases h3 with ⟨h3, e2, e3⟩ | ⟨a, h3, ha, g1, g2, g3⟩
      · rw [h3, e2, e3]
      · rw [h3]
        simp only [ha, pyAssert, List.isEmpty_nil, if_true]
        rw [(handleAliases_iff a.children ran ras).2 ⟨g1, g2, g3⟩]
    · rw [h1, e1]
      simp only
      rw [(handleName_iff nt n).2 hn]
      rcases h3 with ⟨h3, e2, e3⟩ | ⟨a, h3, ha, g1, g2, g3⟩
      · rw [h3, e2, e3]
      · rw [h3]
        simp only [ha, pyAssert, List.isEmpty_nil, if_true]
        rw [(handleAliases_iff a.children ran ras).2 ⟨g1, g2, g3⟩]

theorem mkBasis_iff (r : UnitReference) (d tm : Bool) (b : Basis) : mkBasis r d tm = .ok b ↔
    ∃ n, r.name = some n ∧ b.names = r ∧ b.dimensionless = d ∧ b.isTime = tm ∧
      (b.ref = n.singular ∧ n.singular ≠ [] ∨ n.singular = [] ∧ ∃ rest, r.symbols = b.ref :: rest) := by
  unfold mkBasis
  cases hn : r.name with
  | none => simp
  | some n =>
    simp only
    obtain ⟨br, bd, bt, bn⟩ := b
    by_cases h : n.singular = []
    · rw [if_neg (by simp [h])]
      cases hs : r.symbols with
      | nil => 
        constructor
        · intro h; cases h
        · rintro ⟨n', e, _, _, _, ⟨_, h'⟩ | ⟨_, _, h'⟩⟩
          · cases e; exact absurd h h'
          · cases h'
      | cons y ys =>
        constructor
        · intro h'; cases h'
          exact ⟨n, rfl, rfl, rfl, rfl, .inr ⟨h, ys, rfl⟩⟩
        · rintro ⟨n', e, e1, e2, e3, ⟨_, h'⟩ | ⟨_, _, h'⟩⟩
          · cases e; exact absurd h h'
          · cases h'; cases e1; cases e2; cases e3; rfl
    · rw [if_pos h]
      constructor
      · intro h'; cases h'
        exact ⟨n, rfl, rfl, rfl, rfl, .inl ⟨rfl, h⟩⟩
      · rintro ⟨n', e, e1, e2, e3, ⟨h', _⟩ | ⟨h', _⟩⟩
        · cases e; simp only at e1 e2 e3 h'; rw [e1, e2, e3, h']
        · cases e; exact absurd h' h

theorem handleUnit_iff (t : Tag) (d : UnitDecl) : handleUnit false t = .ok d ↔ UnitIs t d := by
  have key : ∀ r t', handleReference false t = .ok (r, t') → RefIs t r ∧
      ∀ m, m ≠ c!"name" → m ≠ c!"symbol" → m ≠ c!"aliases" → m ≠ c!"comment" → m ≠ c!"definition" →
        firstNamed t' m = firstNamed t m := by
    intro r t' h
    have := handleReference_tag t r t' h
    exact ⟨(handleReference_iff t r).1 ⟨t', h, this⟩, this⟩
  have dml : (c!"dimensionless" : Str) ≠ c!"def" := by decide
  have dbs : (c!"base" : Str) ≠ c!"def" := by decide
  have dbd : (c!"base" : Str) ≠ c!"dimensionless" := by decide
  constructor
  · intro h
    unfold handleUnit at h
    simp only [bind, Except.bind] at h
    cases h1 : handleReference false t with
    | error e => rw [h1] at h; cases h
    | ok q =>
      obtain ⟨r, t'⟩ := q
      rw [h1] at h
      simp only at h
      obtain ⟨hr, ht⟩ := key r t' h1
      have f1 : (t'.popFirst c!"def").1 = firstNamed t c!"def" := by
        rw [Tag.popFirst_fst]; exact ht _ (by decide) (by decide) (by decide) (by decide) (by decide)
      have f2 : ((t'.popFirst c!"def").2.popFirst c!"dimensionless").1 = firstNamed t c!"dimensionless" := by
        rw [Tag.popFirst_fst, Tag.find?_popFirst dml.symm]
        exact ht _ (by decide) (by decide) (by decide) (by decide) (by decide)
      have f3 : ((t'.popFirst c!"def").2.popFirst c!"dimensionless").2.children.find? (fun c => decide (c.name = c!"base"))
          = firstNamed t c!"base" := by
        rw [Tag.find?_popFirst dbd.symm, Tag.find?_popFirst dbs.symm]
        exact ht _ (by decide) (by decide) (by decide) (by decide) (by decide)
      rw [f1] at h
      cases hd : firstNamed t c!"def" with
      | some df =>
        rw [hd] at h
        simp only [unhandledContent, Bool.false_eq_true, if_false, ite_self] at h
        cases hc : df.children with
        | cons x xs => rw [hc] at h; cases h
        | nil =>
          rw [hc] at h
          cases h
          exact .inl ⟨df, r, hd, hc, hr, rfl⟩
      | none =>
        rw [hd] at h
        simp only [unhandledContent, Bool.false_eq_true, if_false, ite_self] at h
        rw [f2, Tag.popFirst_fst, f3] at h
        refine .inr ⟨hd, ?_⟩
        cases hm : firstNamed t c!"dimensionless" with
        | some x =>
          rw [hm] at h
          simp only at h
          cases hn : r.name with
          | none => rw [hn] at h; cases h
          | some n =>
            rw [hn] at h
            simp only at h
            cases hb : mkBasis r true (decide (n.singular = c!"second")) with
            | error e => rw [hb] at h; cases h
            | ok b =>
              rw [hb] at h
              cases h
              obtain ⟨n', e0, e1, e2, e3, e4⟩ := (mkBasis_iff _ _ _ _).1 hb
              rw [hn] at e0; cases e0
              subst e1
              exact ⟨b, n, hr, hn, e4, .inl ⟨e2, x, rfl⟩, by rw [e3]; simp, rfl⟩
        | none =>
          rw [hm] at h
          simp only at h
          cases hbs : firstNamed t c!"base" with
          | none => rw [hbs] at h; cases h
          | some x =>
            rw [hbs] at h
            simp only at h
            cases hx : pyAssert (x.text.isEmpty && x.children.isEmpty) with
            | error e => rw [hx] at h; cases h
            | ok _ =>
              rw [hx] at h
              simp only at h
              have hx' := pyAssert_ok.1 hx
              rw [Bool.and_eq_true, isEmpty_eq, isEmpty_eq] at hx'
              cases hn : r.name with
              | none => rw [hn] at h; cases h
              | some n =>
                rw [hn] at h
                simp only at h
                cases hb : mkBasis r false (decide (n.singular = c!"second")) with
                | error e => rw [hb] at h; cases h
                | ok b =>
                  rw [hb] at h
                  cases h
                  obtain ⟨n', e0, e1, e2, e3, e4⟩ := (mkBasis_iff _ _ _ _).1 hb
                  rw [hn] at e0; cases e0
                  subst e1
                  exact ⟨b, n, hr, hn, e4, .inr ⟨e2, rfl, x, rfl, hx'.1, hx'.2⟩, by rw [e3]; simp, rfl⟩
  · intro h
    have hr : ∃ r, RefIs t r ∧ ((∃ df, firstNamed t c!"def" = some df ∧ df.children = [] ∧ d = .lazy df.text r) ∨
        (firstNamed t c!"def" = none ∧ ∃ (b : Basis) (n : Name), b.names = r ∧ r.name = some n ∧
          (b.ref = n.singular ∧ n.singular ≠ [] ∨ n.singular = [] ∧ ∃ rest, r.symbols = b.ref :: rest) ∧
          (b.dimensionless = true ∧ (∃ x, firstNamed t c!"dimensionless" = some x) ∨
            b.dimensionless = false ∧ firstNamed t c!"dimensionless" = none ∧
              ∃ x, firstNamed t c!"base" = some x ∧ x.text = [] ∧ x.children = []) ∧
          (b.isTime = true ↔ n.singular = c!"second") ∧ d = .basis b)) := by
      rcases h with ⟨df, r, a1, a2, a3, a4⟩ | ⟨a1, b, n, a2, a3, a4, a5, a6, a7⟩
      · exact ⟨r, a3, .inl ⟨df, a1, a2, a4⟩⟩
      · exact ⟨b.names, a2, .inr ⟨a1, b, n, rfl, a3, a4, a5, a6, a7⟩⟩
    obtain ⟨r, hr, h⟩ := hr
    obtain ⟨t', h1, ht⟩ := (handleReference_iff t r).2 hr
    have f1 : (t'.popFirst c!"def").1 = firstNamed t c!"def" := by
      rw [Tag.popFirst_fst]; exact ht _ (by decide) (by decide) (by decide) (by decide) (by decide)
    have f2 : ((t'.popFirst c!"def").2.popFirst c!"dimensionless").1 = firstNamed t c!"dimensionless" := by
      rw [Tag.popFirst_fst, Tag.find?_popFirst dml.symm]
      exact ht _ (by decide) (by decide) (by decide) (by decide) (by decide)
    have f3 : ((t'.popFirst c!"def").2.popFirst c!"dimensionless").2.children.find? (fun c => decide (c.name = c!"base"))
        = firstNamed t c!"base" := by
      rw [Tag.find?_popFirst dbd.symm, Tag.find?_popFirst dbs.symm]
      exact ht _ (by decide) (by decide) (by decide) (by decide) (by decide)
    unfold handleUnit
    simp only [bind, Except.bind]
    rw [h1]
    simp only [unhandledContent, Bool.false_eq_true, if_false, ite_self]
    rw [f1, f2, Tag.popFirst_fst, f3]
    rcases h with ⟨df, a1, a2, a3⟩ | ⟨a1, b, n, a2, a3, a4, a5, a6, a7⟩
    · rw [a1, a3]
      simp [pyAssert, a2]
    · rw [a1]
      simp only
      have hb : ∀ dm, b.dimensionless = dm → mkBasis r dm (decide (n.singular = c!"second")) = .ok b := by
        intro dm hdm
        refine (mkBasis_iff _ _ _ _).2 ⟨n, a3, a2, hdm, ?_, a4⟩
        by_cases hx : n.singular = c!"second"
        · rw [a6.2 hx, decide_eq_true hx]
        · rw [decide_eq_false hx]
          cases hy : b.isTime with
          | false => rfl
          | true => exact absurd (a6.1 hy) hx
      rcases a5 with ⟨e1, x, e2⟩ | ⟨e1, e2, x, e3, e4, e5⟩
      · rw [e2]
        simp only
        rw [a3]
        simp only
        rw [hb true e1, a7]
      · rw [e2, e3]
        simp only
        rw [e4, e5]
        simp only [pyAssert, List.isEmpty_nil, Bool.and_self, if_true]
        rw [a3]
        simp only
        rw [hb false e1, a7]

theorem each_iff_mapM {α β : Type} {R : α → β → Prop} {f : α → Py β} (hf : ∀ a b, f a = .ok b ↔ R a b) :
    ∀ (l : List α) (m : List β), l.mapM f = .ok m ↔ Each R l m
  | [], m => by
    rw [List.mapM_nil]
    constructor
    · intro h; cases h; exact .nil
    · intro h; cases h; rfl
  | a :: l, m => by
    rw [List.mapM_cons]
    simp only [bind, Except.bind]
    constructor
    · intro h
      cases ha : f a with
      | error e => rw [ha] at h; cases h
      | ok b =>
        rw [ha] at h
        simp only at h
        cases hl : l.mapM f with
        | error e => rw [hl] at h; cases h
        | ok m' =>
          rw [hl] at h
          cases h
          exact .cons ((hf a b).1 ha) ((each_iff_mapM hf l m').1 hl)
    · intro h
      cases h with
      | cons h1 h2 => rw [(hf _ _).2 h1, (each_iff_mapM hf _ _).2 h2]; rfl

theorem reads_iff (order : List Str → List Str) (t : Tag) (ps : List Prefix) (ds : List UnitDecl) :
    DeclReads false order t ps ds ↔ Declares order t ps ds := by
  unfold DeclReads Declares
  rw [each_iff_mapM (handlePrefix_iff order), each_iff_mapM handleUnit_iff]
  rfl

/-! ## elements and documents -/

theorem dropWhile_all : ∀ (l : Str), '}' ∉ l → l.dropWhile (· ≠ '}') = []
  | [], _ => rfl
  | c :: l, h => by
    have hc : c ≠ '}' := fun e => h (by simp [e])
    rw [List.dropWhile_cons]
    simp only [decide_eq_true hc, if_true, ne_eq]
    exact dropWhile_all l (fun hm => h (List.mem_cons_of_mem _ hm))

theorem dropWhile_upto : ∀ (u l : Str), '}' ∉ u → (u ++ '}' :: l).dropWhile (· ≠ '}') = '}' :: l
  | [], l, _ => rfl
  | c :: u, l, h => by
    have hc : c ≠ '}' := fun e => h (by simp [e])
    rw [List.cons_append, List.dropWhile_cons]
    simp only [decide_eq_true hc, if_true, ne_eq]
    exact dropWhile_upto u l (fun hm => h (List.mem_cons_of_mem _ hm))

/-- a tag has a `}` or not -/
theorem split_brace : ∀ (tag : Str), '}' ∉ tag ∨ ∃ u l, '}' ∉ u ∧ tag = u ++ '}' :: l
  | [] => .inl (by simp)
  | c :: tag => by
    by_cases hc : c = '}'
    · exact .inr ⟨[], tag, by simp, by rw [hc]; rfl⟩
    · rcases split_brace tag with h | ⟨u, l, h, e⟩
      · exact .inl (by simp; exact ⟨fun h => hc h.symm, h⟩)
      · exact .inr ⟨c :: u, l, by simp; exact ⟨fun h => hc h.symm, h⟩, by rw [e]; rfl⟩

theorem localName_iff (tag l : Str) : localName tag = l ↔ LocalName tag l := by
  unfold localName
  rcases split_brace tag with h | ⟨u, r, hu, rfl⟩
  · rw [if_neg h]
    constructor
    · rintro rfl; exact .plain _ h
    · intro hl
      cases hl with
      | plain _ _ => rfl
      | namespaced uri l hu => exact absurd (by simp) h
  · rw [if_pos (by simp), dropWhile_upto u r hu]
    constructor
    · intro h; simp only [List.drop_succ_cons, List.drop_zero] at h; subst h; exact .namespaced u r hu
    · intro hl
      generalize ht : u ++ '}' :: r = tag at hl
      cases hl with
      | plain _ hh => exact absurd (by rw [← ht]; simp) hh
      | namespaced uri l' hu' =>
        have := congrArg (fun s => (s.dropWhile (· ≠ '}')).drop 1) ht
        simp only [dropWhile_upto u r hu, dropWhile_upto uri l hu'] at this
        exact this

mutual
theorem fromElement_iff : ∀ (e : Elem) (t : Tag), Tag.fromElement e = .ok t ↔ ReadAs e t
  | .comment, t => by
    rw [Tag.fromElement]
    constructor
    · intro h; cases h
    · intro h; cases h
  | .node tag text cs, t => by
    have ih := fromElements_iff cs
    rw [Tag.fromElement]
    simp only [bind, Except.bind]
    constructor
    · intro h
      cases hc : Tag.fromElements cs with
      | error e => rw [hc] at h; cases h
      | ok ts =>
        rw [hc] at h
        cases h
        have := (ih ts).1 hc
        rcases split_brace tag with hb | ⟨u, l, hu, rfl⟩
        · rw [dropWhile_all tag hb]; exact .plain hb this
        · rw [dropWhile_upto u l hu]; exact .namespaced hu this
    · intro h
      cases h with
      | plain hb hr => rw [(ih _).2 hr, dropWhile_all tag hb]; rfl
      | namespaced hu hr => rw [(ih _).2 hr, dropWhile_upto _ _ hu]; rfl
theorem fromElements_iff : ∀ (es : List Elem) (ts : List Tag), Tag.fromElements es = .ok ts ↔ ReadAll es ts
  | [], ts => by
    rw [Tag.fromElements]
    constructor
    · intro h; cases h; exact .nil
    · intro h; cases h; rfl
  | e :: es, ts => by
    have ih := fromElements_iff es
    have ihe := fromElement_iff e
    rw [Tag.fromElements]
    simp only [bind, Except.bind]
    constructor
    · intro h
      cases hc : Tag.fromElement e with
      | error e => rw [hc] at h; cases h
      | ok t =>
        rw [hc] at h
        simp only at h
        cases hc' : Tag.fromElements es with
        | error e => rw [hc'] at h; cases h
        | ok ts' =>
          rw [hc'] at h
          cases h
          exact .cons ((ihe t).1 hc) ((ih ts').1 hc')
    · intro h
      cases h with
      | cons h1 h2 => rw [(ihe _).2 h1, (ih _).2 h2]
end

/-- the element reached in a list of siblings -/
def atList? (es : List Elem) : List Nat → Option Elem
  | [] => none
  | i :: path => match es[i]? with
    | some c => at? c path
    | none => none

theorem at?_node (tag : Str) (text : Option Str) (cs : List Elem) (i : Nat) (path : List Nat) :
    at? (.node tag text cs) (i :: path) = atList? cs (i :: path) := by
  rw [at?, atList?]
  cases cs[i]? <;> rfl

/-- `e` is an element called `unit-system` -/
def CalledUnitSystem (e : Elem) : Prop := ∃ tag text cs, e = .node tag text cs ∧ LocalName tag c!"unit-system"

mutual
/-- the `unit-system` elements, each with the path leading to it -/
theorem unitSystems_paths : ∀ (doc : Elem), ∃ ps : List (List Nat), ps.Nodup ∧ ps.map (at? doc) = doc.unitSystems.map some ∧
    ∀ p, p ∈ ps ↔ ∃ e, at? doc p = some e ∧ CalledUnitSystem e
  | .comment => by
    refine ⟨[], .nil, by rw [Elem.unitSystems]; rfl, ?_⟩
    intro p
    constructor
    · intro h; cases h
    · rintro ⟨e, h, tag, text, cs, rfl, _⟩
      cases p with
      | nil => rw [at?] at h; cases h
      | cons i p => rw [at?] at h; cases h
  | .node tag text cs => by
    obtain ⟨ps, h1, h2, h3⟩ := unitSystemsList_paths cs
    have hne : [] ∉ ps := by intro h; obtain ⟨e, h, _⟩ := (h3 _).1 h; cases h
    have heq : ∀ p ∈ ps, at? (.node tag text cs) p = atList? cs p := by
      intro p hp
      cases p with
      | nil => exact absurd hp hne
      | cons i p => exact at?_node ..
    by_cases hl : localName tag = c!"unit-system"
    · refine ⟨[] :: ps, List.nodup_cons.2 ⟨hne, h1⟩, ?_, ?_⟩
      · rw [Elem.unitSystems]
        simp only [hl, if_true, List.map_cons]
        rw [at?, List.map_congr_left heq, h2]
      · intro p
        cases p with
        | nil =>
          simp only [List.mem_cons, true_or, true_iff]
          exact ⟨_, by rw [at?], tag, text, cs, rfl, (localName_iff _ _).1 hl⟩
        | cons i p =>
          rw [at?_node]
          simp only [List.mem_cons, List.cons_ne_nil, false_or]
          exact h3 _
    · refine ⟨ps, h1, ?_, ?_⟩
      · rw [Elem.unitSystems]
        simp only [hl, if_false]
        rw [List.map_congr_left heq, h2]
      · intro p
        cases p with
        | nil =>
          constructor
          · intro h; exact absurd h hne
          · rintro ⟨e, h, tag', _, _, rfl, hn⟩
            rw [at?] at h; cases h
            exact absurd ((localName_iff _ _).2 hn) hl
        | cons i p => rw [at?_node]; exact h3 _
theorem unitSystemsList_paths : ∀ (es : List Elem), ∃ ps : List (List Nat), ps.Nodup ∧
    ps.map (atList? es) = (unitSystemsList es).map some ∧ ∀ p, p ∈ ps ↔ ∃ e, atList? es p = some e ∧ CalledUnitSystem e
  | [] => by
    refine ⟨[], .nil, by rw [unitSystemsList]; rfl, ?_⟩
    intro p
    constructor
    · intro h; cases h
    · rintro ⟨e, h, _⟩
      cases p with
      | nil => cases h
      | cons i p => simp [atList?] at h
  | e :: es => by
    obtain ⟨ps, h1, h2, h3⟩ := unitSystems_paths e
    obtain ⟨qs, k1, k2, k3⟩ := unitSystemsList_paths es
    let up : List Nat → List Nat := fun p => match p with | [] => [] | i :: p => (i + 1) :: p
    have hup : ∀ i p, up (i :: p) = (i + 1) :: p := fun _ _ => rfl
    have hq : ∀ q ∈ qs, ∃ i p, q = i :: p := by
      intro q hq
      cases q with
      | nil => obtain ⟨e, h, _⟩ := (k3 _).1 hq; cases h
      | cons i p => exact ⟨i, p, rfl⟩
    refine ⟨ps.map (List.cons 0) ++ qs.map up, ?_, ?_, ?_⟩
    · rw [List.nodup_append]
      refine ⟨?_, ?_, ?_⟩
      · unfold List.Nodup at h1 ⊢
        rw [List.pairwise_map]
        exact h1.imp (fun h e => h (List.cons.inj e).2)
      · unfold List.Nodup at k1 ⊢
        rw [List.pairwise_map]
        refine k1.imp_of_mem ?_
        intro a b ha hb hne e
        obtain ⟨i, p, rfl⟩ := hq a ha
        obtain ⟨j, q, rfl⟩ := hq b hb
        rw [hup, hup] at e
        simp only [List.cons.injEq] at e
        exact hne (by rw [show i = j by omega, e.2])
      · intro a ha b hb e
        obtain ⟨p, _, rfl⟩ := List.mem_map.1 ha
        obtain ⟨q, hq', rfl⟩ := List.mem_map.1 hb
        obtain ⟨j, q, rfl⟩ := hq q hq'
        rw [hup] at e
        simp at e
    · rw [unitSystemsList, List.map_append, List.map_append, List.map_map, List.map_map, ← h2, ← k2]
      congr 1
      apply List.map_congr_left
      intro q hq'
      obtain ⟨i, p, rfl⟩ := hq q hq'
      simp [hup, atList?]
    · intro p
      rw [List.mem_append, List.mem_map, List.mem_map]
      cases p with
      | nil =>
        constructor
        · rintro (⟨a, _, h⟩ | ⟨a, ha, h⟩)
          · cases h
          · obtain ⟨i, p, rfl⟩ := hq a ha; rw [hup] at h; cases h
        · rintro ⟨e, h, _⟩; cases h
      | cons i p =>
        cases i with
        | zero =>
          have : atList? (e :: es) (0 :: p) = at? e p := by simp [atList?]
          rw [this, ← h3]
          constructor
          · rintro (⟨a, ha, h⟩ | ⟨a, ha, h⟩)
            · simp only [List.cons.injEq, true_and] at h; rw [← h]; exact ha
            · obtain ⟨i, p, rfl⟩ := hq a ha; rw [hup] at h; simp at h
          · intro h; exact .inl ⟨p, h, rfl⟩
        | succ i =>
          have : atList? (e :: es) ((i + 1) :: p) = atList? es (i :: p) := by simp [atList?]
          rw [this, ← k3]
          constructor
          · rintro (⟨a, ha, h⟩ | ⟨a, ha, h⟩)
            · simp at h
            · obtain ⟨j, q, rfl⟩ := hq a ha
              rw [hup] at h
              simp only [List.cons.injEq] at h
              rw [show i = j by omega, ← h.2]; exact ha
          · intro h; exact .inr ⟨_, h, rfl⟩
end

theorem addPrefixes_ok (order : List Str → List Str) : ∀ (ts : List Tag) (s s' : System),
    addPrefixes false order ts s = .ok s' → ∃ ps, ts.mapM (handlePrefix false order) = .ok ps
  | [], _, _, _ => ⟨[], rfl⟩
  | t :: ts, s, s', h => by
    unfold addPrefixes at h
    simp only [bind, Except.bind] at h
    cases h1 : handlePrefix false order t with
    | error e => rw [h1] at h; cases h
    | ok p =>
      rw [h1] at h
      obtain ⟨ps, hps⟩ := addPrefixes_ok order ts _ _ h
      exact ⟨p :: ps, by rw [List.mapM_cons, h1, hps]; rfl⟩

theorem addUnits_ok : ∀ (ts : List Tag) (s s' : System),
    addUnits false ts s = .ok s' → ∃ ds, ts.mapM (handleUnit false) = .ok ds
  | [], _, _, _ => ⟨[], rfl⟩
  | t :: ts, s, s', h => by
    unfold addUnits at h
    simp only [bind, Except.bind] at h
    cases h1 : handleUnit false t with
    | error e => rw [h1] at h; cases h
    | ok d =>
      rw [h1] at h
      simp only at h
      cases h2 : d.add s with
      | error e => rw [h2] at h; cases h
      | ok s2 =>
        rw [h2] at h
        obtain ⟨ds, hds⟩ := addUnits_ok ts _ _ h
        exact ⟨d :: ds, by rw [List.mapM_cons, h1, hds]; rfl⟩

/-- only documents all of whose elements say something are read -/
theorem parseSystem_declares (order : List Str → List Str) (t : Tag) (s : System) (h : parseSystem false order t = .ok s) :
    ∃ ps ds, Declares order t ps ds := by
  unfold parseSystem at h
  rw [Tag.popIter_eq] at h
  simp only [Tag.popIter_eq, bind, Except.bind] at h
  have e : (Tag.mk t.name (t.children.filter (fun c => decide (c.name ≠ c!"prefix"))) t.text).children.filter
      (fun c => decide (c.name = c!"unit")) = t.children.filter (fun c => decide (c.name = c!"unit")) := by
    simp only [Tag.children, List.filter_filter]
    apply List.filter_congr
    intro c _
    by_cases hc : c.name = c!"unit" <;> simp [hc]
  rw [e] at h
  cases h1 : addPrefixes false order (t.children.filter fun c => decide (c.name = c!"prefix")) System.empty with
  | error e => rw [h1] at h; cases h
  | ok s1 =>
    rw [h1] at h
    simp only at h
    obtain ⟨ps, hps⟩ := addPrefixes_ok order _ _ _ h1
    cases h2 : addUnits false (t.children.filter fun c => decide (c.name = c!"unit")) s1 with
    | error e => rw [h2] at h; cases h
    | ok s2 =>
      obtain ⟨ds, hds⟩ := addUnits_ok _ _ _ h2
      exact ⟨ps, ds, (reads_iff order t ps ds).1 ⟨hps, hds⟩⟩

/-! ## tables of prefixes -/

theorem Dict.set_fresh {ν : Type} {k : Str} {v : ν} : ∀ {d : Dict Str ν}, k ∉ d.map Prod.fst → Dict.set k v d = d ++ [(k, v)]
  | [], _ => rfl
  | (k', v') :: d, h => by
    have h1 : k' ≠ k := fun e => h (by simp [e])
    rw [Dict.set, if_neg h1, Dict.set_fresh (fun hm => h (by simp only [List.map_cons, List.mem_cons]; exact .inr hm))]
    rfl

theorem setSymbols_fresh (p : Prefix) : ∀ (ys : List Str) (d : Dict Str Prefix), ys.Nodup → (∀ y ∈ ys, y ∉ d.map Prod.fst) →
    ys.foldl (fun d sym => Dict.set sym p d) d = d ++ ys.map (fun y => (y, p))
  | [], d, _, _ => by simp
  | y :: ys, d, h, hd => by
    rw [List.foldl_cons, Dict.set_fresh (hd y (by simp)), setSymbols_fresh p ys _ (List.nodup_cons.1 h).2]
    · simp
    · intro z hz
      rw [List.map_append, List.mem_append]
      rintro (hm | hm)
      · exact hd z (by simp [hz]) hm
      · simp at hm; subst hm; exact (List.nodup_cons.1 h).1 hz

theorem foldl_addPrefix_tables : ∀ (ps : List Prefix) (s : System),
    (s.prefixNames.map Prod.fst ++ ps.map Prefix.name).Nodup →
    (s.prefixSymbols.map Prod.fst ++ ps.flatMap Prefix.symbols).Nodup →
    (ps.foldl System.addPrefix s).prefixNames = s.prefixNames ++ ps.map (fun p => (p.name, p)) ∧
    (ps.foldl System.addPrefix s).prefixSymbols = s.prefixSymbols ++ ps.flatMap (fun p => p.symbols.map fun y => (y, p))
  | [], s, _, _ => by simp
  | p :: ps, s, h1, h2 => by
    rw [List.foldl_cons]
    have a1 : p.name ∉ s.prefixNames.map Prod.fst := by
      intro h
      exact (List.nodup_append.1 h1).2.2 _ h _ (by simp) rfl
    have e1 : (s.addPrefix p).prefixNames = s.prefixNames ++ [(p.name, p)] := Dict.set_fresh a1
    have b2 : p.symbols.Nodup := by
      have := (List.nodup_append.1 h2).2.1
      rw [List.flatMap_cons] at this
      exact (List.nodup_append.1 this).1
    have e2 : (s.addPrefix p).prefixSymbols = s.prefixSymbols ++ p.symbols.map (fun y => (y, p)) := by
      refine setSymbols_fresh p _ _ b2 ?_
      intro y hy hm
      exact (List.nodup_append.1 h2).2.2 _ hm y (by simp [hy]) rfl
    obtain ⟨r1, r2⟩ := foldl_addPrefix_tables ps (s.addPrefix p)
      (by rw [e1, List.map_append, List.append_assoc]; exact h1)
      (by
        rw [e2, List.map_append, List.append_assoc, List.map_map]
        rw [List.flatMap_cons] at h2
        have : p.symbols.map (Prod.fst ∘ fun y => (y, p)) = p.symbols := by
          rw [show (Prod.fst ∘ fun y : Str => (y, p)) = id from rfl, List.map_id]
        rw [this]; exact h2)
    rw [r1, r2, e1, e2]
    simp

/-- adding units does not touch the prefixes -/
theorem addDecls_prefixes : ∀ (ds : List UnitDecl) (s s' : System), addDecls ds s = .ok s' →
    s'.prefixNames = s.prefixNames ∧ s'.prefixSymbols = s.prefixSymbols
  | [], s, s', h => by unfold addDecls at h; cases h; exact ⟨rfl, rfl⟩
  | d :: ds, s, s', h => by
    unfold addDecls at h
    simp only [bind, Except.bind] at h
    by_cases hc : Collides s (declRef d)
    · obtain ⟨k, hk⟩ := add_err d s hc
      rw [hk] at h; cases h
    · rw [add_ok d s hc] at h
      obtain ⟨e1, e2⟩ := addDecls_prefixes ds _ _ h
      exact ⟨e1, e2⟩

mutual
/-- Reading an element can fail in one way only. -/
theorem fromElement_error : ∀ (e : Elem) (err : PyErr), Tag.fromElement e = .error err → err = .attributeError
  | .comment, err, h => by rw [Tag.fromElement] at h; exact (Except.error.inj h).symm
  | .node tag text cs, err, h => by
    rw [Tag.fromElement] at h
    simp only [bind, Except.bind] at h
    cases hc : Tag.fromElements cs with
    | error e' => rw [hc] at h; cases h; exact fromElements_error cs _ hc
    | ok ts => rw [hc] at h; cases h
theorem fromElements_error : ∀ (es : List Elem) (err : PyErr), Tag.fromElements es = .error err → err = .attributeError
  | [], err, h => by rw [Tag.fromElements] at h; cases h
  | e :: es, err, h => by
    rw [Tag.fromElements] at h
    simp only [bind, Except.bind] at h
    cases hc : Tag.fromElement e with
    | error e' => rw [hc] at h; cases h; exact fromElement_error e _ hc
    | ok t =>
      rw [hc] at h
      cases hs : Tag.fromElements es with
      | error e' => rw [hs] at h; cases h; exact fromElements_error es _ hs
      | ok ts => rw [hs] at h; cases h
end

theorem readAll_get {es : List Elem} {ts : List Tag} (h : ReadAll es ts) :
    ∀ (i : Nat) (c : Elem), es[i]? = some c → ∃ t, ReadAs c t := by
  match h with
  | .nil => intro i c hc; simp at hc
  | .cons h1 h2 =>
    intro i c hc
    cases i with
    | zero => simp at hc; subst hc; exact ⟨_, h1⟩
    | succ i => simp at hc; exact readAll_get h2 i c hc

/-- An element with a comment anywhere in it cannot be read. -/
theorem comment_unreadable : ∀ (path : List Nat) (e : Elem), at? e path = some .comment → ∀ t, ¬ ReadAs e t
  | [], e, h, t, ht => by simp [at?] at h; subst h; cases ht
  | i :: path, .comment, h, t, ht => by cases ht
  | i :: path, .node tag text cs, h, t, ht => by
    simp only [at?] at h
    cases hc : cs[i]? with
    | none => rw [hc] at h; cases h
    | some c =>
      rw [hc] at h
      have hx : ∃ t, ReadAs c t := by
        cases ht with
        | plain _ h2 => exact readAll_get h2 i c hc
        | namespaced _ h2 => exact readAll_get h2 i c hc
      obtain ⟨t', ht'⟩ := hx
      exact comment_unreadable path c h t' ht'

end Verif
