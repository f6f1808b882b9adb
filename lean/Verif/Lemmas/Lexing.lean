import Verif.Lemmas.Numbers
/-!
# Lexing piece by piece

Static checks on regular expressions (which characters they mention, which they can start with) that tell where a token
ends.
-/

namespace Verif

/-- two character classes have nothing in common -/
def disjointRanges (a b : List (Char × Char)) : Bool :=
  a.all fun p => b.all fun q => Nat.blt p.2.toNat q.1.toNat || Nat.blt q.2.toNat p.1.toNat

theorem disjointRanges_iff {a b : List (Char × Char)} (h : disjointRanges a b = true) {c : Char} (ha : inRanges c a = true) :
    inRanges c b = false := by
  cases hb : inRanges c b with
  | false => rfl
  | true =>
    exfalso
    obtain ⟨lo, hi, h1, h2, h3⟩ := inRanges_iff.1 ha
    obtain ⟨lo', hi', g1, g2, g3⟩ := inRanges_iff.1 hb
    unfold disjointRanges at h
    rw [List.all_eq_true] at h
    have := h _ h1
    rw [List.all_eq_true] at this
    have := this _ g1
    simp only [Bool.or_eq_true, Nat.blt_eq] at this
    omega

namespace Re

/-- does some class contain `c`? -/
def mentions (c : Char) : Re → Bool
  | .void => false
  | .eps => false
  | .cls rs => inRanges c rs
  | .seq a b => a.mentions c || b.mentions c
  | .alt a b => a.mentions c || b.mentions c
  | .star a => a.mentions c

/-- every match containing `c` is a single character -/
def shortFor (c : Char) : Re → Bool
  | .void => true
  | .eps => true
  | .cls _ => true
  | .seq a b => !(a.mentions c || b.mentions c)
  | .alt a b => a.shortFor c && b.shortFor c
  | .star a => !(a.mentions c)

/-- no match consists of characters of the class only -/
def dead (C : List (Char × Char)) : Re → Bool
  | .void => true
  | .eps => false
  | .cls rs => disjointRanges rs C
  | .seq a b => a.dead C || b.dead C
  | .alt a b => a.dead C && b.dead C
  | .star _ => false

/-- no non-empty match consists of characters of the class only -/
def deadNE (C : List (Char × Char)) : Re → Bool
  | .void => true
  | .eps => true
  | .cls rs => disjointRanges rs C
  | .seq a b => a.dead C || b.dead C || (a.deadNE C && b.deadNE C)
  | .alt a b => a.deadNE C && b.deadNE C
  | .star a => a.deadNE C

/-- characters a match can start with -/
def firsts : Re → List (Char × Char)
  | .void => []
  | .eps => []
  | .cls rs => rs
  | .seq a b => if a.nullable then a.firsts ++ b.firsts else a.firsts
  | .alt a b => a.firsts ++ b.firsts
  | .star a => a.firsts

/-- derivative by a string -/
def derivs : Str → Re → Re
  | [], r => r
  | c :: s, r => derivs s (r.deriv c)

end Re

theorem mentions_of_matches {r : Re} {s : Str} (h : Matches r s) {c : Char} (hc : c ∈ s) : r.mentions c = true := by
  induction h with
  | eps => cases hc
  | cls lo hi h1 h2 h3 =>
    cases List.mem_singleton.1 hc
    exact inRanges_iff.2 ⟨lo, hi, h1, h2, h3⟩
  | seq _ _ ih1 ih2 =>
    simp only [Re.mentions, Bool.or_eq_true]
    rcases List.mem_append.1 hc with hc | hc
    · exact Or.inl (ih1 hc)
    · exact Or.inr (ih2 hc)
  | altL _ ih => simp only [Re.mentions, Bool.or_eq_true]; exact Or.inl (ih hc)
  | altR _ ih => simp only [Re.mentions, Bool.or_eq_true]; exact Or.inr (ih hc)
  | starNil => cases hc
  | starCons _ _ ih1 ih2 =>
    rcases List.mem_append.1 hc with hc | hc
    · exact ih1 hc
    · exact ih2 hc

theorem shortFor_length {r : Re} {c : Char} (hr : r.shortFor c = true) {s : Str} (h : Matches r s) (hc : c ∈ s) : s.length ≤ 1 := by
  induction h with
  | eps => simp
  | cls => simp
  | seq h1 h2 _ _ =>
    have := mentions_of_matches (.seq h1 h2) hc
    simp only [Re.mentions] at this
    simp [Re.shortFor, this] at hr
  | altL _ ih => simp only [Re.shortFor, Bool.and_eq_true] at hr; exact ih hr.1 hc
  | altR _ ih => simp only [Re.shortFor, Bool.and_eq_true] at hr; exact ih hr.2 hc
  | starNil => cases hc
  | starCons h1 h2 _ _ =>
    have := mentions_of_matches (.starCons h1 h2) hc
    simp only [Re.mentions] at this
    simp [Re.shortFor, this] at hr

theorem dead_not_matches {C : List (Char × Char)} {r : Re} (hr : r.dead C = true) {s : Str} (h : Matches r s)
    (hs : ∀ c ∈ s, inRanges c C = true) : False := by
  induction h with
  | eps => cases hr
  | cls lo hi h1 h2 h3 =>
    have := disjointRanges_iff hr (inRanges_iff.2 ⟨lo, hi, h1, h2, h3⟩)
    rw [hs _ (List.mem_singleton.2 rfl)] at this; cases this
  | seq _ _ ih1 ih2 =>
    simp only [Re.dead, Bool.or_eq_true] at hr
    rcases hr with hr | hr
    · exact ih1 hr fun c hc => hs c (List.mem_append_left _ hc)
    · exact ih2 hr fun c hc => hs c (List.mem_append_right _ hc)
  | altL _ ih => simp only [Re.dead, Bool.and_eq_true] at hr; exact ih hr.1 hs
  | altR _ ih => simp only [Re.dead, Bool.and_eq_true] at hr; exact ih hr.2 hs
  | starNil => cases hr
  | starCons => cases hr

theorem deadNE_not_matches {C : List (Char × Char)} {r : Re} (hr : r.deadNE C = true) {s : Str} (h : Matches r s)
    (hs : ∀ c ∈ s, inRanges c C = true) : s = [] := by
  induction h with
  | eps => rfl
  | cls lo hi h1 h2 h3 =>
    have := disjointRanges_iff hr (inRanges_iff.2 ⟨lo, hi, h1, h2, h3⟩)
    rw [hs _ (List.mem_singleton.2 rfl)] at this; cases this
  | seq m1 m2 ih1 ih2 =>
    simp only [Re.deadNE, Bool.or_eq_true, Bool.and_eq_true] at hr
    have h1 : ∀ c ∈ _, inRanges c C = true := fun c hc => hs c (List.mem_append_left _ hc)
    have h2 : ∀ c ∈ _, inRanges c C = true := fun c hc => hs c (List.mem_append_right _ hc)
    rcases hr with (hr | hr) | hr
    · exact (dead_not_matches hr m1 h1).elim
    · exact (dead_not_matches hr m2 h2).elim
    · rw [ih1 hr.1 h1, ih2 hr.2 h2]; rfl
  | altL _ ih => simp only [Re.deadNE, Bool.and_eq_true] at hr; exact ih hr.1 hs
  | altR _ ih => simp only [Re.deadNE, Bool.and_eq_true] at hr; exact ih hr.2 hs
  | starNil => rfl
  | starCons _ _ ih1 ih2 =>
    rw [ih1 hr fun c hc => hs c (List.mem_append_left _ hc), ih2 hr fun c hc => hs c (List.mem_append_right _ hc)]; rfl

theorem inRanges_append {c : Char} {a b : List (Char × Char)} : inRanges c (a ++ b) = (inRanges c a || inRanges c b) := by
  unfold inRanges; rw [List.any_append]

theorem firsts_of_matches {r : Re} {s : Str} (h : Matches r s) : ∀ c t, s = c :: t → inRanges c r.firsts = true := by
  induction h with
  | eps => intro c t h; cases h
  | cls lo hi h1 h2 h3 => intro c t h; cases h; exact inRanges_iff.2 ⟨lo, hi, h1, h2, h3⟩
  | seq m1 m2 ih1 ih2 =>
    rename_i a b x y
    intro c t h
    cases x with
    | cons d x =>
      cases h
      have := ih1 _ _ rfl
      simp only [Re.firsts]
      split
      · rw [inRanges_append, this]; rfl
      · exact this
    | nil =>
      have hn : a.nullable = true := (nullable_iff a).2 m1
      simp only [Re.firsts, if_pos hn]
      rw [inRanges_append, ih2 c t h, Bool.or_true]
  | altL _ ih => intro c t h; simp only [Re.firsts]; rw [inRanges_append, ih c t h]; rfl
  | altR _ ih => intro c t h; simp only [Re.firsts]; rw [inRanges_append, ih c t h, Bool.or_true]
  | starNil => intro c t h; cases h
  | starCons m1 m2 ih1 ih2 =>
    rename_i a x y
    intro c t h
    cases x with
    | cons d x => cases h; exact ih1 _ _ rfl
    | nil => exact ih2 c t h

theorem derivs_iff (w : Str) : ∀ (r : Re) (s : Str), Matches (r.derivs w) s ↔ Matches r (w ++ s) := by
  induction w with
  | nil => intro r s; exact Iff.rfl
  | cons c w ih => intro r s; rw [Re.derivs, ih, deriv_iff]; rfl

/-! ## Tokens and what follows -/

/-- a token ends where no rule matches beyond it -/
theorem nextToken_extend {m m' : Mode} {w rest : Str} {k : Kind} (h : NextToken m w k w.length m')
    (hlong : ∀ q ∈ m.rules, ∀ x y, rest = x ++ y → x ≠ [] → ¬ Matches q.2.1 (w ++ x)) :
    NextToken m (w ++ rest) k w.length m' := by
  obtain ⟨i, r, mo, h1, h2, h3, h4, h5, h6, h7⟩ := h
  have htake : (w ++ rest).take w.length = w := by simp
  have htake' : w.take w.length = w := by simp
  rw [htake'] at h5 h7
  refine ⟨i, r, mo, h1, h2, h3, by simp, by rw [htake]; exact h5, ?_, ?_⟩
  · intro k' r' mo' hm j hj hmj
    by_cases hjw : j ≤ w.length
    · exact hjw
    · exfalso
      have : (w ++ rest).take j = w ++ rest.take (j - w.length) := by
        rw [List.take_append, List.take_of_length_le (by omega)]
      rw [this] at hmj
      refine hlong _ hm (rest.take (j - w.length)) (rest.drop (j - w.length)) (by simp) ?_ hmj
      intro h
      simp only [List.length_append] at hj
      have := congrArg List.length h
      simp only [List.length_take, List.length_nil] at this
      omega
  · intro i' hi' k' r' mo' hr'
    rw [htake]
    exact h7 i' hi' k' r' mo' hr'

theorem tokenises_cons {m m' : Mode} {w rest : Str} {k : Kind} {ts : List Token}
    (h : NextToken m (w ++ rest) k w.length m') (ht : Tokenises m' rest ts) : Tokenises m (w ++ rest) (⟨k, w⟩ :: ts) := by
  have := Tokenises.cons h (by simpa using ht)
  simpa using this

/-- a whole text is one token: some rule matches it and no earlier one does -/
theorem nextToken_whole {m : Mode} {w : Str} (hw : w ≠ []) {i : Nat} {k : Kind} {r : Re} {mo : Option Mode}
    (h1 : m.rules[i]? = some (k, r, mo)) (h2 : Matches r w)
    (h3 : ∀ i' : Nat, i' < i → ∀ k' r' mo', m.rules[i']? = some (k', r', mo') → ¬ Matches r' w) :
    NextToken m w k w.length (mo.getD m) := by
  refine ⟨i, r, mo, h1, rfl, List.length_pos_iff.2 hw, Nat.le_refl _, by simpa using h2, fun _ _ _ _ j hj _ => hj, ?_⟩
  intro i' hi' k' r' mo' h
  simpa using h3 i' hi' k' r' mo' h

theorem nextToken_of_best {m : Mode} {s : Str} {k : Kind} {n : Nat} {mo : Option Mode} (hs : s ≠ [])
    (h : bestMatch s m.rules = some (k, n, mo)) : NextToken m s k n (mo.getD m) := by
  cases s with
  | nil => exact absurd rfl hs
  | cons c s =>
    obtain ⟨k', n', mo', h1, h2⟩ := bestMatch_next m c s
    rw [h] at h1
    cases h1
    exact h2

/-- fixed tokens: the next character cannot continue any rule -/
theorem nextToken_fixed {m m' : Mode} {w : Str} {k : Kind} (hw : NextToken m w k w.length m') (H : List (Char × Char))
    (hH : m.rules.all (fun q => disjointRanges H (q.2.1.derivs w).firsts) = true)
    {rest : Str} (hrest : ∀ c t, rest = c :: t → inRanges c H = true) : NextToken m (w ++ rest) k w.length m' := by
  refine nextToken_extend hw ?_
  intro q hq x y hxy hx hm
  cases x with
  | nil => exact hx rfl
  | cons c x =>
    have h1 := hrest c (x ++ y) hxy
    rw [List.all_eq_true] at hH
    have h2 := hH q hq
    have h3 := firsts_of_matches ((derivs_iff _ _ _).2 hm) c x rfl
    rw [disjointRanges_iff h2 h1] at h3
    cases h3

/-- tokens of any length: the next character is only part of one-character rules -/
theorem nextToken_before {m m' : Mode} {w : Str} {k : Kind} (hw : NextToken m w k w.length m') (c : Char)
    (hc : m.rules.all (fun q => q.2.1.shortFor c) = true) {rest : Str} : NextToken m (w ++ c :: rest) k w.length m' := by
  refine nextToken_extend hw ?_
  intro q hq x y hxy hx hm
  cases x with
  | nil => exact hx rfl
  | cons d x =>
    cases hxy
    rw [List.all_eq_true] at hc
    have := shortFor_length (hc q hq) hm (by simp)
    obtain ⟨i, r, mo, h1, h2, h3, _⟩ := hw
    simp only [List.length_append, List.length_cons] at this
    omega

end Verif
