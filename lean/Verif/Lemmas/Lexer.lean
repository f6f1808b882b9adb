import Verif.Spec.Lexer
/-!
# The lexer implements maximal munch
-/

namespace Verif

theorem inRanges_iff {c : Char} {rs : List (Char × Char)} :
    inRanges c rs = true ↔ ∃ lo hi, (lo, hi) ∈ rs ∧ lo.toNat ≤ c.toNat ∧ c.toNat ≤ hi.toNat := by
  unfold inRanges
  rw [List.any_eq_true]
  constructor
  · rintro ⟨⟨lo, hi⟩, h1, h2⟩
    simp only [Bool.and_eq_true, Nat.ble_eq] at h2
    exact ⟨lo, hi, h1, h2⟩
  · rintro ⟨lo, hi, h1, h2⟩
    exact ⟨(lo, hi), h1, by simp only [Bool.and_eq_true, Nat.ble_eq]; exact h2⟩

theorem matches_void {s : Str} : ¬ Matches .void s := fun h => by cases h

theorem matches_eps {s : Str} : Matches .eps s ↔ s = [] := by
  constructor
  · intro h; cases h; rfl
  · rintro rfl; exact .eps

theorem matches_cls {rs : List (Char × Char)} {s : Str} : Matches (.cls rs) s ↔ ∃ c, s = [c] ∧ inRanges c rs = true := by
  constructor
  · intro h; cases h with
    | cls lo hi h1 h2 h3 => exact ⟨_, rfl, inRanges_iff.2 ⟨lo, hi, h1, h2, h3⟩⟩
  · rintro ⟨c, rfl, h⟩
    obtain ⟨lo, hi, h1, h2, h3⟩ := inRanges_iff.1 h
    exact .cls lo hi h1 h2 h3

theorem matches_seq {a b : Re} {s : Str} : Matches (.seq a b) s ↔ ∃ x y, s = x ++ y ∧ Matches a x ∧ Matches b y := by
  constructor
  · intro h; cases h with
    | seq h1 h2 => exact ⟨_, _, rfl, h1, h2⟩
  · rintro ⟨x, y, rfl, h1, h2⟩; exact .seq h1 h2

theorem matches_alt {a b : Re} {s : Str} : Matches (.alt a b) s ↔ Matches a s ∨ Matches b s := by
  constructor
  · intro h; cases h with
    | altL h => exact Or.inl h
    | altR h => exact Or.inr h
  · rintro (h | h)
    · exact .altL h
    · exact .altR h

/-- a non-empty match of a star starts with a non-empty match of the body -/
theorem star_cons {a : Re} {c : Char} {s : Str} (h : Matches (.star a) (c :: s)) :
    ∃ x y, s = x ++ y ∧ Matches a (c :: x) ∧ Matches (.star a) y := by
  generalize hr : Re.star a = r at h
  generalize ht : c :: s = t at h
  induction h generalizing c s with
  | starNil => cases ht
  | starCons h1 h2 ih1 ih2 =>
    cases hr
    rename_i x y
    cases x with
    | nil => exact ih2 rfl ht
    | cons d x =>
      simp only [List.cons_append, List.cons.injEq] at ht
      obtain ⟨rfl, rfl⟩ := ht
      exact ⟨x, y, rfl, h1, h2⟩
  | _ => cases hr

theorem nullable_iff (r : Re) : r.nullable = true ↔ Matches r [] := by
  induction r with
  | void => simp only [Re.nullable]; exact ⟨(fun h => by cases h), fun h => (matches_void h).elim⟩
  | eps => simp only [Re.nullable, matches_eps]
  | cls rs =>
    simp only [Re.nullable, matches_cls]
    constructor
    · intro h; cases h
    · rintro ⟨c, h, _⟩; cases h
  | seq a b ha hb =>
    simp only [Re.nullable, Bool.and_eq_true, ha, hb, matches_seq]
    constructor
    · rintro ⟨h1, h2⟩; exact ⟨[], [], rfl, h1, h2⟩
    · rintro ⟨x, y, h, h1, h2⟩
      obtain ⟨rfl, rfl⟩ := List.append_eq_nil_iff.1 h.symm
      exact ⟨h1, h2⟩
  | alt a b ha hb => simp only [Re.nullable, Bool.or_eq_true, ha, hb, matches_alt]
  | star a ha => simp only [Re.nullable, true_iff]; exact .starNil

theorem matches_mkSeq {a b : Re} {s : Str} : Matches (Re.mkSeq a b) s ↔ Matches (.seq a b) s := by
  cases a <;> try exact Iff.rfl
  · rw [Re.mkSeq, matches_seq]
    exact ⟨fun h => (matches_void h).elim, fun ⟨x, y, _, h, _⟩ => (matches_void h).elim⟩
  · rw [Re.mkSeq, matches_seq]
    constructor
    · intro h; exact ⟨[], s, rfl, .eps, h⟩
    · rintro ⟨x, y, rfl, h, h2⟩; rw [matches_eps] at h; subst h; exact h2

theorem matches_mkAlt {a b : Re} {s : Str} : Matches (Re.mkAlt a b) s ↔ Matches (.alt a b) s := by
  rw [matches_alt]
  unfold Re.mkAlt
  split
  · exact ⟨Or.inr, fun h => h.elim (fun h => (matches_void h).elim) id⟩
  · exact ⟨Or.inl, fun h => h.elim id (fun h => (matches_void h).elim)⟩
  · exact matches_alt

theorem deriv_iff (c : Char) (r : Re) : ∀ s, Matches (r.deriv c) s ↔ Matches r (c :: s) := by
  induction r with
  | void => intro s; exact ⟨fun h => (matches_void h).elim, fun h => (matches_void h).elim⟩
  | eps => intro s; rw [matches_eps]; exact ⟨fun h => (matches_void h).elim, fun h => by cases h⟩
  | cls rs =>
    intro s
    rw [Re.deriv, matches_cls]
    split
    · rename_i h
      rw [matches_eps]
      constructor
      · rintro rfl; exact ⟨c, rfl, h⟩
      · rintro ⟨d, h', _⟩; cases h'; rfl
    · rename_i h
      constructor
      · intro h; exact (matches_void h).elim
      · rintro ⟨d, h1, h2⟩; cases h1; exact absurd h2 h
  | alt a b ha hb => intro s; rw [Re.deriv, matches_mkAlt, matches_alt, matches_alt, ha, hb]
  | star a ha =>
    intro s
    rw [Re.deriv, matches_mkSeq, matches_seq]
    constructor
    · rintro ⟨x, y, rfl, h1, h2⟩
      rw [ha] at h1
      exact Matches.starCons (s := c :: x) h1 h2
    · intro h
      obtain ⟨x, y, rfl, h1, h2⟩ := star_cons h
      exact ⟨x, y, rfl, (ha x).2 h1, h2⟩
  | seq a b ha hb =>
    intro s
    have key : Matches (Re.mkSeq (a.deriv c) b) s ↔ ∃ x y, s = x ++ y ∧ Matches a (c :: x) ∧ Matches b y := by
      rw [matches_mkSeq, matches_seq]
      constructor
      · rintro ⟨x, y, h, h1, h2⟩; exact ⟨x, y, h, (ha x).1 h1, h2⟩
      · rintro ⟨x, y, h, h1, h2⟩; exact ⟨x, y, h, (ha x).2 h1, h2⟩
    rw [Re.deriv, matches_seq]
    have full : (∃ x y, c :: s = x ++ y ∧ Matches a x ∧ Matches b y) ↔
        (∃ x y, s = x ++ y ∧ Matches a (c :: x) ∧ Matches b y) ∨ (Matches a [] ∧ Matches b (c :: s)) := by
      constructor
      · rintro ⟨x, y, h, h1, h2⟩
        cases x with
        | nil => rw [List.nil_append] at h; subst h; exact Or.inr ⟨h1, h2⟩
        | cons d x =>
          simp only [List.cons_append, List.cons.injEq] at h
          obtain ⟨rfl, rfl⟩ := h
          exact Or.inl ⟨x, y, rfl, h1, h2⟩
      · rintro (⟨x, y, rfl, h1, h2⟩ | ⟨h1, h2⟩)
        · exact ⟨c :: x, y, rfl, h1, h2⟩
        · exact ⟨[], c :: s, rfl, h1, h2⟩
    rw [full]
    split
    · rename_i hn
      rw [matches_mkAlt, matches_alt, key, hb]
      rw [nullable_iff] at hn
      exact or_congr_right ⟨fun h => ⟨hn, h⟩, fun h => h.2⟩
    · rename_i hn
      rw [nullable_iff] at hn
      rw [key]
      exact ⟨Or.inl, fun h => h.elim id fun h => absurd h.1 hn⟩

theorem longest_cons (r : Re) (c : Char) (s : Str) : r.longest (c :: s) =
    match (r.deriv c).longest s with
    | some n => some (n + 1)
    | none => if r.nullable then some 0 else none := by
  cases r with
  | void =>
    have : ∀ s, Re.longest .void s = none := by intro s; cases s <;> rfl
    change none = _
    rw [show Re.deriv c .void = .void from rfl, this]; rfl
  | _ => rfl

theorem longest_none (r : Re) (s : Str) : r.longest s = none ↔ ∀ j, j ≤ s.length → ¬ Matches r (s.take j) := by
  induction s generalizing r with
  | nil =>
    simp only [Re.longest, List.take_nil]
    have := nullable_iff r
    split
    · rename_i h
      exact ⟨(fun h => by cases h), fun h' => absurd (this.1 h) (h' 0 (Nat.le_refl _))⟩
    · rename_i h
      exact ⟨fun _ j _ hm => h (this.2 hm), fun _ => rfl⟩
  | cons c s ih =>
    rw [longest_cons]
    have hn := nullable_iff r
    cases hl : (r.deriv c).longest s with
    | some n =>
      refine ⟨(fun h => by cases h), fun h => ?_⟩
      have : (r.deriv c).longest s = none := (ih _).2 fun j hj hm =>
        h (j + 1) (by simpa using hj) ((deriv_iff c r _).1 hm)
      rw [this] at hl; cases hl
    | none =>
      have h0 := (ih _).1 hl
      simp only
      constructor
      · intro h j hj hm
        cases j with
        | zero => rw [hn.2 hm] at h; cases h
        | succ j => exact h0 j (by simpa using hj) ((deriv_iff c r _).2 hm)
      · intro h
        rw [if_neg]
        intro hnn; exact h 0 (Nat.zero_le _) (hn.1 hnn)

theorem longest_some (r : Re) (s : Str) (n : Nat) (h : r.longest s = some n) :
    n ≤ s.length ∧ Matches r (s.take n) ∧ ∀ j, j ≤ s.length → Matches r (s.take j) → j ≤ n := by
  induction s generalizing r n with
  | nil =>
    simp only [Re.longest] at h
    split at h
    · rename_i hn
      cases h
      exact ⟨Nat.le_refl _, (nullable_iff r).1 hn, fun j hj _ => hj⟩
    · cases h
  | cons c s ih =>
    rw [longest_cons] at h
    cases hl : (r.deriv c).longest s with
    | some m =>
      rw [hl] at h; cases h
      obtain ⟨h1, h2, h3⟩ := ih _ _ hl
      refine ⟨by simpa using h1, (deriv_iff c r _).1 h2, fun j hj hm => ?_⟩
      cases j with
      | zero => omega
      | succ j => exact Nat.succ_le_succ (h3 j (by simpa using hj) ((deriv_iff c r _).2 hm))
    | none =>
      rw [hl] at h
      simp only at h
      split at h
      · rename_i hn
        cases h
        refine ⟨Nat.zero_le _, (nullable_iff r).1 hn, fun j hj hm => ?_⟩
        cases j with
        | zero => omega
        | succ j => exact absurd ((deriv_iff c r _).2 hm) ((longest_none _ _).1 hl j (by simpa using hj))
      · cases h

/-- the best match: some rule, longest, first -/
theorem bestMatch_some (s : Str) (rules : List (Kind × Re × Option Mode)) : ∀ {k n mo}, bestMatch s rules = some (k, n, mo) →
    ∃ (i : Nat) (r : Re), rules[i]? = some (k, r, mo) ∧ n ≤ s.length ∧ Matches r (s.take n) ∧
      (∀ k' r' mo', (k', r', mo') ∈ rules → ∀ j, j ≤ s.length → Matches r' (s.take j) → j ≤ n) ∧
      (∀ i' : Nat, i' < i → ∀ k' r' mo', rules[i']? = some (k', r', mo') → ¬ Matches r' (s.take n)) := by
  induction rules with
  | nil => intro k n mo h; cases h
  | cons q rules ih =>
    obtain ⟨k0, r0, m0⟩ := q
    intro k n mo h
    rw [bestMatch] at h
    cases hl : r0.longest s with
    | none =>
      rw [hl] at h
      have hno := (longest_none _ _).1 hl
      simp only at h
      obtain ⟨i, r, h1, h2, h3, h4, h5⟩ := ih h
      refine ⟨i + 1, r, by simpa using h1, h2, h3, ?_, ?_⟩
      · intro k' r' mo' hm j hj hmj
        rcases List.mem_cons.1 hm with hm | hm
        · cases hm; exact absurd hmj (hno j hj)
        · exact h4 k' r' mo' hm j hj hmj
      · intro i' hi' k' r' mo' hi hmn
        cases i' with
        | zero => simp only [List.getElem?_cons_zero, Option.some.injEq] at hi; cases hi; exact hno n h2 hmn
        | succ i' => exact h5 i' (by omega) k' r' mo' (by simpa using hi) hmn
    | some n0 =>
      obtain ⟨a1, a2, a3⟩ := longest_some _ _ _ hl
      rw [hl] at h
      cases hb : bestMatch s rules with
      | none =>
        rw [hb] at h; cases h
        refine ⟨0, r0, rfl, a1, a2, ?_, fun i' hi' => absurd hi' (Nat.not_lt_zero _)⟩
        intro k' r' mo' hm j hj hmj
        rcases List.mem_cons.1 hm with hm | hm
        · cases hm; exact a3 j hj hmj
        · exfalso
          have : ∀ rules : List (Kind × Re × Option Mode), bestMatch s rules = none → ∀ k' r' mo', (k', r', mo') ∈ rules →
              r'.longest s = none := by
            intro rules
            induction rules with
            | nil => intro _ _ _ _ h; cases h
            | cons q rs ih' =>
              obtain ⟨k1, r1, m1⟩ := q
              intro hb k' r' mo' hm
              rw [bestMatch] at hb
              cases hl1 : r1.longest s with
              | none =>
                rw [hl1] at hb
                rcases List.mem_cons.1 hm with hm | hm
                · cases hm; exact hl1
                · exact ih' hb k' r' mo' hm
              | some n1 =>
                rw [hl1] at hb
                cases hb1 : bestMatch s rs with
                | none => rw [hb1] at hb; cases hb
                | some b =>
                  obtain ⟨kb, nb, mb⟩ := b
                  rw [hb1] at hb
                  simp only at hb
                  split at hb <;> cases hb
          exact (longest_none _ _).1 (this rules hb k' r' mo' hm) j hj hmj
      | some b =>
        obtain ⟨kb, nb, mb⟩ := b
        obtain ⟨i, r, h1, h2, h3, h4, h5⟩ := ih hb
        rw [hb] at h
        simp only at h
        split at h
        · rename_i hle
          cases h
          refine ⟨0, r0, rfl, a1, a2, ?_, fun i' hi' => absurd hi' (Nat.not_lt_zero _)⟩
          intro k' r' mo' hm j hj hmj
          rcases List.mem_cons.1 hm with hm | hm
          · cases hm; exact a3 j hj hmj
          · exact Nat.le_trans (h4 k' r' mo' hm j hj hmj) hle
        · rename_i hle
          cases h
          refine ⟨i + 1, r, by simpa using h1, h2, h3, ?_, ?_⟩
          · intro k' r' mo' hm j hj hmj
            rcases List.mem_cons.1 hm with hm | hm
            · cases hm; exact Nat.le_trans (a3 j hj hmj) (by omega)
            · exact h4 k' r' mo' hm j hj hmj
          · intro i' hi' k' r' mo' hi hmn
            cases i' with
            | zero =>
              simp only [List.getElem?_cons_zero, Option.some.injEq] at hi; cases hi
              have := a3 _ h2 hmn
              omega
            | succ i' => exact h5 i' (by omega) k' r' mo' (by simpa using hi) hmn

theorem bestMatch_none {s : Str} {rules : List (Kind × Re × Option Mode)} (hb : bestMatch s rules = none) :
    ∀ k' r' mo', (k', r', mo') ∈ rules → r'.longest s = none := by
  induction rules with
  | nil => intro _ _ _ h; cases h
  | cons q rs ih' =>
    obtain ⟨k1, r1, m1⟩ := q
    intro k' r' mo' hm
    rw [bestMatch] at hb
    cases hl1 : r1.longest s with
    | none =>
      rw [hl1] at hb
      rcases List.mem_cons.1 hm with hm | hm
      · cases hm; exact hl1
      · exact ih' hb k' r' mo' hm
    | some n1 =>
      rw [hl1] at hb
      cases hb1 : bestMatch s rs with
      | none => rw [hb1] at hb; cases hb
      | some b =>
        obtain ⟨kb, nb, mb⟩ := b
        rw [hb1] at hb
        simp only at hb
        split at hb <;> cases hb

/-- every mode has a rule matching any single character -/
theorem any_char (m : Mode) (c : Char) : ∃ k r mo, (k, r, mo) ∈ m.rules ∧ Matches r [c] := by
  have hm : Matches Rule.ERRORCHARACTER [c] := by
    refine .cls (Char.ofNat 0) (Char.ofNat 0x10FFFF) (by simp) (by simp) ?_
    have hv : c.toNat ≤ 0x10FFFF := by
      have h := c.valid
      change c.val.toNat ≤ _
      rcases h with h | h
      · exact Nat.le_trans (Nat.le_of_lt h) (by decide)
      · exact Nat.le_of_lt_succ h.2
    exact hv
  have hd : (Kind.ERRORCHARACTER, Rule.ERRORCHARACTER, (none : Option Mode)) ∈ defaultRules := by
    unfold defaultRules; simp
  cases m with
  | DEFAULT_MODE => exact ⟨_, _, _, hd, hm⟩
  | SHIFT_MODE =>
    refine ⟨.ERRORCHARACTER, Rule.ERRORCHARACTER, none, ?_, hm⟩
    change _ ∈ shiftRules
    unfold shiftRules
    exact List.mem_append_right _ (List.mem_map.2 ⟨_, hd, rfl⟩)
  | ID_SEEN =>
    refine ⟨.ERRORCHARACTER, Rule.ERRORCHARACTER, some .DEFAULT_MODE, ?_, hm⟩
    change _ ∈ idSeenRules
    unfold idSeenRules
    exact List.mem_append_right _ (List.mem_map.2 ⟨_, List.mem_filter.2 ⟨hd, by decide⟩, rfl⟩)

/-- what one step of the lexer does on a non-empty text -/
theorem bestMatch_next (m : Mode) (c : Char) (s : Str) :
    ∃ k n mo, bestMatch (c :: s) m.rules = some (k, n, mo) ∧ NextToken m (c :: s) k n (mo.getD m) := by
  obtain ⟨k0, r0, mo0, hr, hm⟩ := any_char m c
  cases hb : bestMatch (c :: s) m.rules with
  | none =>
    have := (longest_none _ _).1 (bestMatch_none hb k0 r0 mo0 hr) 1 (by simp)
    exact absurd (by simpa using hm) this
  | some b =>
    obtain ⟨k, n, mo⟩ := b
    obtain ⟨i, r, h1, h2, h3, h4, h5⟩ := bestMatch_some _ _ hb
    refine ⟨k, n, mo, rfl, i, r, mo, h1, rfl, ?_, h2, h3, h4, h5⟩
    exact h4 k0 r0 mo0 hr 1 (by simp) (by simpa using hm)

theorem nextToken_unique {m : Mode} {s : Str} {k k' : Kind} {n n' : Nat} {m1 m2 : Mode} (h : NextToken m s k n m1)
    (h' : NextToken m s k' n' m2) : k = k' ∧ n = n' ∧ m1 = m2 := by
  obtain ⟨i, r, mo, a1, a2, a3, a4, a5, a6, a7⟩ := h
  obtain ⟨i', r', mo', b1, b2, b3, b4, b5, b6, b7⟩ := h'
  have hn : n = n' := Nat.le_antisymm
    (b6 _ _ _ (List.mem_of_getElem? a1) n a4 a5) (a6 _ _ _ (List.mem_of_getElem? b1) n' b4 b5)
  subst hn
  have hi : i = i' := by
    rcases Nat.lt_trichotomy i i' with h | h | h
    · exact absurd a5 (b7 i h _ _ _ a1)
    · exact h
    · exact absurd b5 (a7 i' h _ _ _ b1)
  subst hi
  rw [a1] at b1; cases b1
  exact ⟨rfl, rfl, a2.trans b2.symm⟩

theorem lexFrom_tokenises : ∀ (fuel : Nat) (m : Mode) (s : Str), s.length ≤ fuel → Tokenises m s (lexFrom fuel m s) := by
  intro fuel
  induction fuel with
  | zero =>
    intro m s h
    have : s = [] := List.length_eq_zero_iff.1 (Nat.le_zero.1 h)
    subst this; exact .nil m
  | succ fuel ih =>
    intro m s h
    cases s with
    | nil => exact .nil m
    | cons c s =>
      obtain ⟨k, n, mo, h1, h2⟩ := bestMatch_next m c s
      rw [lexFrom, h1]
      · refine .cons h2 (ih _ _ ?_)
        obtain ⟨i, r, mo', a1, a2, a3, _⟩ := h2
        rw [List.length_drop]
        simp only [List.length_cons] at h ⊢
        omega
      · simp

theorem tokenises_unique {m : Mode} {s : Str} {ts ts' : List Token} (h : Tokenises m s ts) (h' : Tokenises m s ts') :
    ts = ts' := by
  induction h generalizing ts' with
  | nil m =>
    cases h' with
    | nil => rfl
    | cons hn _ =>
      obtain ⟨i, r, mo, a1, a2, a3, a4, _⟩ := hn
      simp at a4; omega
  | cons hn ht ih =>
    cases h' with
    | nil =>
      obtain ⟨i, r, mo, a1, a2, a3, a4, _⟩ := hn
      simp at a4; omega
    | cons hn' ht' =>
      obtain ⟨rfl, rfl, rfl⟩ := nextToken_unique hn hn'
      rw [ih ht']

theorem tokenises_lossless {m : Mode} {s : Str} {ts : List Token} (h : Tokenises m s ts) :
    (ts.map Token.text).flatten = s ∧ ∀ t ∈ ts, t.text ≠ [] := by
  induction h with
  | nil m => exact ⟨rfl, by simp⟩
  | cons hn ht ih =>
    rename_i m m' s k n ts
    obtain ⟨i, r, mo, a1, a2, a3, a4, _⟩ := hn
    constructor
    · simp only [List.map_cons, List.flatten_cons, ih.1, List.take_append_drop]
    · intro t ht
      rcases List.mem_cons.1 ht with rfl | ht
      · intro h
        have := congrArg List.length h
        simp [List.length_take] at this
        rcases this with h | h
        · omega
        · subst h; simp at a4; omega
      · exact ih.2 t ht

theorem lex_iff (s : Str) (ts : List Token) : lex s = ts ↔ Tokenises .DEFAULT_MODE s ts := by
  have h := lexFrom_tokenises s.length .DEFAULT_MODE s (Nat.le_refl _)
  constructor
  · rintro rfl; exact h
  · intro h'; exact tokenises_unique h h'

/-! ## Stripping -/

theorem lstrip_append {w s : Str} (h : ∀ c ∈ w, isPySpace c = true) : lstrip (w ++ s) = lstrip s := by
  unfold lstrip
  induction w with
  | nil => rfl
  | cons c w ih =>
    rw [List.cons_append, List.dropWhile_cons, if_pos (h c (List.mem_cons_self ..))]
    exact ih fun c hc => h c (List.mem_cons_of_mem _ hc)

/-- removing blanks on the left of `s ++ w` -/
theorem lstrip_append_right {s w : Str} : lstrip (s ++ w) = (if lstrip s = [] then lstrip w else lstrip s ++ w) := by
  unfold lstrip
  induction s with
  | nil => simp
  | cons c s ih =>
    rw [List.cons_append, List.dropWhile_cons, List.dropWhile_cons]
    split
    · exact ih
    · simp

theorem lstrip_blank {w : Str} (h : ∀ c ∈ w, isPySpace c = true) : lstrip w = [] := by
  have := lstrip_append (s := []) h
  rw [List.append_nil] at this
  rw [this]; rfl

theorem strip_blanks {w w' s : Str} (h : ∀ c ∈ w, isPySpace c = true) (h' : ∀ c ∈ w', isPySpace c = true) :
    strip (w ++ s ++ w') = strip s := by
  unfold strip
  rw [List.append_assoc, lstrip_append h, lstrip_append_right]
  split
  · rename_i h0
    rw [h0, lstrip_blank h']
  · rw [List.reverse_append, lstrip_append (s := (lstrip s).reverse) (w := w'.reverse)]
    intro c hc; exact h' c (List.mem_reverse.1 hc)

end Verif
