import Verif.Lemmas.DecStr
import Verif.Lemmas.ParserShift
import Verif.Spec.Print
/-!
# Printing and reading back
-/

namespace Verif
open Spec (Digits natValue Sign IntLiteral ExpPart DecLiteral IdentWord DateText Printable respell respellNum)

/-- what may follow a factor in a printed expression -/
def Follow (rest : Str) : Prop :=
  ∀ c t, rest = c :: t → c = '·' ∨ c = '/' ∨ c = '^' ∨ c = ')' ∨ (c = ' ' ∧ ∃ t', t = '@' :: t')

/-- characters a word can start with -/
def wordStarts : List (Char × Char) := ('0', '9') :: ('+', '+') :: ('-', '-') :: ('.', '.') :: Rule.idRanges

/-- everything but an opening bracket -/
def notOpen : List (Char × Char) := [(Char.ofNat 0, '\''), (')', Char.ofNat 0x10FFFF)]

theorem notOpen_iff {c : Char} (h : c ≠ '(') : inRanges c notOpen = true := by
  have h1 : c.toNat ≠ '('.toNat := fun h' => h (Char.toNat_inj.1 h')
  have h2 : c.toNat ≤ 0x10FFFF := by
    have := c.valid
    unfold UInt32.isValidChar Nat.isValidChar at this
    unfold Char.toNat
    omega
  have h3 : '('.toNat = 40 := rfl
  by_cases hc : c.toNat ≤ 39
  · exact inRanges_iff.2 ⟨_, _, List.mem_cons_self .., by have : (Char.ofNat 0).toNat = 0 := rfl; omega, hc⟩
  · exact inRanges_iff.2 ⟨_, _, List.mem_cons_of_mem _ (List.mem_cons_self ..), by have : ')'.toNat = 41 := rfl; omega,
      by have : (Char.ofNat 0x10FFFF).toNat = 0x10FFFF := rfl; omega⟩

/-- words end before a separator -/
theorem nextToken_follow {w rest : Str} {k : Kind} {m' : Mode} (hw : NextToken .DEFAULT_MODE w k w.length m')
    (hstart : ∀ c t, w = c :: t → inRanges c wordStarts = true) (hopen : '(' ∉ w) (hf : Follow rest) :
    NextToken .DEFAULT_MODE (w ++ rest) k w.length m' := by
  have hw0 : w ≠ [] := by
    rintro rfl
    obtain ⟨i, r, mo, _, _, h3, _⟩ := hw
    exact absurd h3 (by simp)
  obtain ⟨a, w', rfl⟩ := List.exists_cons_of_ne_nil hw0
  have ha := hstart a w' rfl
  refine nextToken_extend hw ?_
  intro q hq x y hxy hx hm
  cases x with
  | nil => exact hx rfl
  | cons c x =>
    have hshort : ∀ c, q.2.1.shortFor c = true → c ∈ (a :: w') ++ c :: x → Matches q.2.1 ((a :: w') ++ c :: x) → False := by
      intro c hs hmem hm
      have := shortFor_length hs hm hmem
      simp only [List.length_append, List.length_cons] at this
      omega
    have hfirst : disjointRanges wordStarts q.2.1.firsts = true → False := by
      intro hd
      have := firsts_of_matches hm a _ rfl
      rw [disjointRanges_iff hd ha] at this; cases this
    have all : ∀ {p : Re → Bool}, Mode.DEFAULT_MODE.rules.all (fun q => p q.2.1) = true → p q.2.1 = true := by
      intro p hp
      rw [List.all_eq_true] at hp
      exact hp q hq
    rcases hf c (x ++ y) hxy with rfl | rfl | rfl | rfl | ⟨rfl, t', ht'⟩
    · exact hshort _ (all (p := fun r => r.shortFor '·') (by decide +kernel)) (by simp) hm
    · have := all (p := fun r => r.shortFor '/' || disjointRanges wordStarts r.firsts) (by decide +kernel)
      simp only [Bool.or_eq_true] at this
      rcases this with h | h
      · exact hshort _ h (by simp) hm
      · exact hfirst h
    · exact hshort _ (all (p := fun r => r.shortFor '^') (by decide +kernel)) (by simp) hm
    · exact hshort _ (all (p := fun r => r.shortFor ')') (by decide +kernel)) (by simp) hm
    · have := all (p := fun r => r.shortFor ' ' || disjointRanges wordStarts r.firsts || decide (r = Rule.LOG)) (by decide +kernel)
      simp only [Bool.or_eq_true] at this
      rcases this with (h | h) | h
      · exact hshort _ h (by simp) hm
      · exact hfirst h
      · rw [of_decide_eq_true h] at hm
        cases x with
        | cons d x =>
          cases ht'
          have := mentions_of_matches hm (c := '@') (by simp)
          exact absurd this (by decide +kernel)
        | nil =>
          refine dead_not_matches (C := notOpen) (by decide +kernel) hm ?_
          intro c hc
          apply notOpen_iff
          rintro rfl
          rcases List.mem_append.1 hc with hc | hc
          · exact hopen hc
          · cases List.mem_singleton.1 hc

/-- fixed tokens that nothing extends -/
theorem nextToken_sign {m m' : Mode} {w : Str} {k : Kind} (hw : NextToken m w k w.length m')
    (hH : m.rules.all (fun q => decide ((q.2.1.derivs w).firsts = [])) = true) {rest : Str} :
    NextToken m (w ++ rest) k w.length m' := by
  refine nextToken_extend hw ?_
  intro q hq x y hxy hx hm
  cases x with
  | nil => exact hx rfl
  | cons c x =>
    rw [List.all_eq_true] at hH
    have h2 := of_decide_eq_true (hH q hq)
    have h3 := firsts_of_matches ((derivs_iff _ _ _).2 hm) c x rfl
    rw [h2] at h3
    cases h3

/-! ### Numbers -/

theorem intLiteral_word {s : Str} {v : Int} (h : IntLiteral s v) : ∃ k, (k = .INT ∨ k = .SIGNED_INT) ∧
    NextToken .DEFAULT_MODE s k s.length .DEFAULT_MODE ∧ NextToken .SHIFT_MODE s k s.length .SHIFT_MODE ∧
    (∀ c ∈ s, inRanges c signedDigits = true) ∧ s ≠ [] := by
  obtain ⟨sg, ds, kk, rfl, hs, h0, hd, rfl⟩ := h
  have hch : ∀ c ∈ ds, inRanges c signedDigits = true := by
    intro c hc
    obtain ⟨h1, h2⟩ := hd c hc
    exact inRanges_iff.2 ⟨'0', '9', by simp [signedDigits], h1, h2⟩
  cases hs with
  | none => exact ⟨.INT, Or.inl rfl, (word_int h0 hd).1, (word_int h0 hd).2, hch, h0⟩
  | plus =>
    refine ⟨.SIGNED_INT, Or.inr rfl, (word_signed (Or.inr rfl) h0 hd).1, (word_signed (Or.inr rfl) h0 hd).2, ?_, by simp⟩
    intro c hc
    rcases List.mem_cons.1 hc with rfl | hc
    · decide
    · exact hch c hc
  | minus =>
    refine ⟨.SIGNED_INT, Or.inr rfl, (word_signed (Or.inl rfl) h0 hd).1, (word_signed (Or.inl rfl) h0 hd).2, ?_, by simp⟩
    intro c hc
    rcases List.mem_cons.1 hc with rfl | hc
    · decide
    · exact hch c hc

theorem reads_intLiteral {s : Str} {v : Int} (h : IntLiteral s v) {k : Kind} (hk : k = .INT ∨ k = .SIGNED_INT) :
    Reads .integer [⟨k, s⟩] (.number (.int v) (some s)) := by
  refine .int hk ?_
  unfold intNode
  rw [parseInt_literal h]; rfl

/-- printed numbers -/
theorem number_word (v : Num) (hv : (∃ i, v = .int i) ∨ (∃ d, v = .dec d) ∨ ∃ s i, v = .str s ∧ IntLiteral s i) :
    ∃ k, NextToken .DEFAULT_MODE v.toStr k v.toStr.length .DEFAULT_MODE ∧
      NextToken .SHIFT_MODE v.toStr k v.toStr.length .SHIFT_MODE ∧
      (∀ c ∈ v.toStr, inRanges c (('.', '.') :: ('e', 'e') :: ('E', 'E') :: signedDigits) = true) ∧
      (∀ c t, v.toStr = c :: t → inRanges c (('.', '.') :: signedDigits) = true) ∧ v.toStr ≠ [] ∧
      Reads .number [⟨k, v.toStr⟩] (respellNum v) ∧
      ((∀ d, v ≠ .dec d) → Reads .integer [⟨k, v.toStr⟩] (respellNum v)) := by
  have hmono : ∀ {c : Char}, inRanges c signedDigits = true → inRanges c (('.', '.') :: ('e', 'e') :: ('E', 'E') :: signedDigits) = true ∧
      inRanges c (('.', '.') :: signedDigits) = true := by
    intro c h
    exact ⟨inRanges_mono (by decide +kernel) h, inRanges_mono (by decide +kernel) h⟩
  have hint : ∀ {i : Int}, IntLiteral v.toStr i → respellNum v = .number (.int i) (some v.toStr) → ∃ k, NextToken .DEFAULT_MODE v.toStr k v.toStr.length .DEFAULT_MODE ∧
      NextToken .SHIFT_MODE v.toStr k v.toStr.length .SHIFT_MODE ∧
      (∀ c ∈ v.toStr, inRanges c (('.', '.') :: ('e', 'e') :: ('E', 'E') :: signedDigits) = true) ∧
      (∀ c t, v.toStr = c :: t → inRanges c (('.', '.') :: signedDigits) = true) ∧ v.toStr ≠ [] ∧
      Reads .number [⟨k, v.toStr⟩] (respellNum v) ∧
      ((∀ d, v ≠ .dec d) → Reads .integer [⟨k, v.toStr⟩] (respellNum v)) := by
    intro i hi hr
    obtain ⟨k, hk, h1, h2, h3, h4⟩ := intLiteral_word hi
    rw [hr]
    exact ⟨k, h1, h2, fun c hc => (hmono (h3 c hc)).1, fun c t hc => (hmono (h3 c (by rw [hc]; simp))).2, h4,
      .numInt (reads_intLiteral hi hk), fun _ => reads_intLiteral hi hk⟩
  rcases hv with ⟨i, rfl⟩ | ⟨d, rfl⟩ | ⟨s, i, rfl, hs⟩
  · exact hint (intLiteral_intStr i) rfl
  · obtain ⟨h1, h2⟩ := decStr_token d
    by_cases h0 : d.exp = 0
    · exact hint (h1 h0) (by rw [respellNum, if_pos h0]; rfl)
    · have hm := h2 h0
      obtain ⟨h3, h4⟩ := word_float hm
      refine ⟨.FLOAT, h3, h4, fun c hc => float_chars hm hc, ?_, ?_, ?_, fun h => absurd rfl (h d)⟩
      · intro c t hc
        have := firsts_of_matches hm c t hc
        exact inRanges_mono (by decide +kernel) this
      · rintro h
        change d.str = [] at h
        rw [h] at hm
        exact absurd ((nullable_iff _).2 hm) (by decide)
      · refine .numFloat rfl ?_
        change floatNode d.str = _
        unfold floatNode
        rw [decParse_str, respellNum, if_neg h0]
  · refine hint (i := i) hs ?_
    rw [respellNum, parseInt_literal hs]; rfl

/-! ### Signs -/

theorem best_token {m m' : Mode} {w : Str} {k : Kind} {n : Nat} {mo : Option Mode} (hb : bestMatch w m.rules = some (k, n, mo))
    (hn : n = w.length) (hm : m' = mo.getD m) (hw : w ≠ []) : NextToken m w k w.length m' := by
  subst hn hm
  exact nextToken_of_best hw hb

theorem tok_mul {m : Mode} (hm : m ≠ .SHIFT_MODE) (rest : Str) : NextToken m (c!"·" ++ rest) .MULTIPLY 1 .DEFAULT_MODE := by
  cases m with
  | SHIFT_MODE => exact absurd rfl hm
  | DEFAULT_MODE =>
    exact nextToken_sign (w := c!"·") (best_token (n := 1) (mo := none) (by decide +kernel) rfl rfl (by simp)) (by decide +kernel)
  | ID_SEEN =>
    exact nextToken_sign (w := c!"·") (best_token (n := 1) (mo := some .DEFAULT_MODE) (by decide +kernel) rfl rfl (by simp)) (by decide +kernel)

theorem tok_raise {m : Mode} (hm : m ≠ .SHIFT_MODE) (rest : Str) : NextToken m (c!"^" ++ rest) .RAISE 1 .DEFAULT_MODE := by
  cases m with
  | SHIFT_MODE => exact absurd rfl hm
  | DEFAULT_MODE =>
    exact nextToken_sign (w := c!"^") (best_token (n := 1) (mo := none) (by decide +kernel) rfl rfl (by simp)) (by decide +kernel)
  | ID_SEEN =>
    exact nextToken_sign (w := c!"^") (best_token (n := 1) (mo := some .DEFAULT_MODE) (by decide +kernel) rfl rfl (by simp)) (by decide +kernel)

theorem tok_close (m : Mode) (rest : Str) : ∃ m', NextToken m (c!")" ++ rest) .CLOSE_PAREN 1 m' ∧ (m ≠ .SHIFT_MODE → m' = .DEFAULT_MODE) := by
  cases m with
  | SHIFT_MODE =>
    exact ⟨.SHIFT_MODE, nextToken_sign (w := c!")") (best_token (n := 1) (mo := none) (by decide +kernel) rfl rfl (by simp)) (by decide +kernel),
      fun h => absurd rfl h⟩
  | DEFAULT_MODE =>
    exact ⟨_, nextToken_sign (w := c!")") (best_token (n := 1) (mo := none) (by decide +kernel) rfl rfl (by simp)) (by decide +kernel), fun _ => rfl⟩
  | ID_SEEN =>
    exact ⟨_, nextToken_sign (w := c!")") (best_token (n := 1) (mo := some .DEFAULT_MODE) (by decide +kernel) rfl rfl (by simp)) (by decide +kernel), fun _ => rfl⟩

theorem tok_open (rest : Str) : NextToken .DEFAULT_MODE (c!"(" ++ rest) .OPEN_PAREN 1 .DEFAULT_MODE :=
  nextToken_sign (w := c!"(") (best_token (n := 1) (mo := none) (by decide +kernel) rfl rfl (by simp)) (by decide +kernel)

theorem tok_at (rest : Str) : NextToken .DEFAULT_MODE (c!"@" ++ rest) .SHIFT_OP 1 .SHIFT_MODE :=
  nextToken_sign (w := c!"@") (best_token (n := 1) (mo := some .SHIFT_MODE) (by decide +kernel) rfl rfl (by simp)) (by decide +kernel)

/-- what a printed expression starts with -/
def wordOrOpen : List (Char × Char) := ('(', '(') :: wordStarts

theorem tok_div {m : Mode} (hm : m ≠ .SHIFT_MODE) {rest : Str} (hr : ∀ c t, rest = c :: t → inRanges c wordOrOpen = true) :
    NextToken m (c!"/" ++ rest) .DIVIDE 1 .DEFAULT_MODE := by
  cases m with
  | SHIFT_MODE => exact absurd rfl hm
  | DEFAULT_MODE =>
    exact nextToken_fixed (w := c!"/") (best_token (n := 1) (mo := none) (by decide +kernel) rfl rfl (by simp)) wordOrOpen (by decide +kernel) hr
  | ID_SEEN =>
    exact nextToken_fixed (w := c!"/") (best_token (n := 1) (mo := some .DEFAULT_MODE) (by decide +kernel) rfl rfl (by simp)) wordOrOpen (by decide +kernel) hr

theorem tok_blank {m : Mode} (hm : m ≠ .SHIFT_MODE) (rest : Str) : NextToken m (c!" " ++ ('@' :: rest)) .WS 1 .DEFAULT_MODE := by
  have hr : ∀ c t, '@' :: rest = c :: t → inRanges c [('@', '@')] = true := by
    intro c t h; cases h; decide
  cases m with
  | SHIFT_MODE => exact absurd rfl hm
  | DEFAULT_MODE =>
    exact nextToken_fixed (w := c!" ") (best_token (n := 1) (mo := none) (by decide +kernel) rfl rfl (by simp)) [('@', '@')] (by decide +kernel) hr
  | ID_SEEN =>
    exact nextToken_fixed (w := c!" ") (best_token (n := 1) (mo := some .DEFAULT_MODE) (by decide +kernel) rfl rfl (by simp)) [('@', '@')] (by decide +kernel) hr

theorem tok_blank_shift {rest : Str} (hr : ∀ c t, rest = c :: t → inRanges c (('.', '.') :: signedDigits) = true) :
    NextToken .SHIFT_MODE (c!" " ++ rest) .WS 1 .SHIFT_MODE :=
  nextToken_fixed (w := c!" ") (best_token (n := 1) (mo := none) (by decide +kernel) rfl rfl (by simp)) (('.', '.') :: signedDigits) (by decide +kernel) hr

theorem tok_log {fn : Str} (hfn : fn ∈ [c!"log", c!"lg", c!"ln", c!"lb"]) {rest : Str}
    (hr : ∀ c t, rest = c :: t → inRanges c wordOrOpen = true) :
    NextToken .DEFAULT_MODE ((fn ++ c!"(re ") ++ rest) .LOG (fn ++ c!"(re ").length .DEFAULT_MODE ∧ logName (fn ++ c!"(re ") = fn := by
  simp only [List.mem_cons, List.not_mem_nil, or_false] at hfn
  rcases hfn with rfl | rfl | rfl | rfl
  · exact ⟨nextToken_fixed (best_token (n := 7) (mo := none) (by decide +kernel) rfl rfl (by simp)) wordOrOpen (by decide +kernel) hr,
      by decide +kernel⟩
  · exact ⟨nextToken_fixed (best_token (n := 6) (mo := none) (by decide +kernel) rfl rfl (by simp)) wordOrOpen (by decide +kernel) hr,
      by decide +kernel⟩
  · exact ⟨nextToken_fixed (best_token (n := 6) (mo := none) (by decide +kernel) rfl rfl (by simp)) wordOrOpen (by decide +kernel) hr,
      by decide +kernel⟩
  · exact ⟨nextToken_fixed (best_token (n := 6) (mo := none) (by decide +kernel) rfl rfl (by simp)) wordOrOpen (by decide +kernel) hr,
      by decide +kernel⟩

end Verif
