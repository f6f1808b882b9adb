import Verif.Lemmas.Lexing
/-!
# Whole words that are one token
-/

namespace Verif
open Spec (Digits natValue Sign IntLiteral ExpPart DecLiteral)

theorem rule_lt {m : Mode} {i i' : Nat} {q : Kind × Re × Option Mode} (h : i' < i) (hq : m.rules[i']? = some q) :
    q ∈ m.rules.take i := by
  refine List.mem_of_getElem? (i := i') ?_
  rw [List.getElem?_take, if_pos h]; exact hq

/-- no earlier rule matches, by a static check -/
theorem nextToken_check {m : Mode} {w : Str} (hw : w ≠ []) {i : Nat} {k : Kind} {r : Re} {mo : Option Mode}
    (h1 : m.rules[i]? = some (k, r, mo)) (h2 : Matches r w) {p : Re → Bool}
    (h3 : (m.rules.take i).all (fun q => p q.2.1) = true) (h4 : ∀ r', p r' = true → ¬ Matches r' w) :
    NextToken m w k w.length (mo.getD m) := by
  refine nextToken_whole hw h1 h2 ?_
  intro i' hi' k' r' mo' hr'
  rw [List.all_eq_true] at h3
  exact h4 r' (h3 _ (rule_lt hi' hr'))

/-- the words the lexer takes for a shift sign -/
def reservedWords : List Str := [c!"after", c!"from", c!"since", c!"ref"]

/-- identifiers -/
theorem word_id {w : Str} (hw : Matches Rule.ID w) (hr : w ∉ reservedWords) : NextToken .DEFAULT_MODE w .ID w.length .ID_SEEN := by
  obtain ⟨h0, h1⟩ := matches_plus_cls.1 hw
  refine nextToken_check (i := 15) (mo := some .ID_SEEN) h0 rfl hw
    (p := fun r => r.deadNE Rule.idRanges || decide (r = Rule.SHIFT_OP)) (by decide +kernel) ?_
  intro r' hp hm
  rw [Bool.or_eq_true] at hp
  rcases hp with hp | hp
  · exact h0 (deadNE_not_matches hp hm h1)
  · rw [of_decide_eq_true hp] at hm
    simp only [Rule.SHIFT_OP, Re.alts, matches_alt, matches_chr, matches_lit] at hm
    rcases hm with rfl | hm
    · exact absurd (h1 '@' (by simp)) (by decide)
    · apply hr
      simp only [reservedWords, List.mem_cons, List.not_mem_nil, or_false]
      exact hm

/-- digits -/
theorem word_int {w : Str} (h0 : w ≠ []) (hd : Digits w) :
    NextToken .DEFAULT_MODE w .INT w.length .DEFAULT_MODE ∧ NextToken .SHIFT_MODE w .INT w.length .SHIFT_MODE := by
  have hm : Matches Rule.INT w := matches_INT.2 ⟨h0, hd⟩
  have hd' : ∀ c ∈ w, inRanges c [('0', '9')] = true := fun c hc => inRanges_digit.2 (hd c hc)
  refine ⟨nextToken_check (i := 8) (mo := none) h0 rfl hm (p := fun r => r.deadNE [('0', '9')]) (by decide +kernel) ?_,
    nextToken_check (i := 16) (mo := none) h0 rfl hm (p := fun r => r.deadNE [('0', '9')]) (by decide +kernel) ?_⟩
  all_goals (intro r' hp hm'; exact h0 (deadNE_not_matches hp hm' hd'))

/-- signed digits -/
theorem word_signed {c : Char} {ds : Str} (hc : c = '-' ∨ c = '+') (h0 : ds ≠ []) (hd : Digits ds) :
    NextToken .DEFAULT_MODE (c :: ds) .SIGNED_INT (c :: ds).length .DEFAULT_MODE ∧
    NextToken .SHIFT_MODE (c :: ds) .SIGNED_INT (c :: ds).length .SHIFT_MODE := by
  have hm : Matches Rule.SIGNED_INT (c :: ds) := by
    refine matches_SIGNED_INT.2 ⟨[c], ds, rfl, ?_, h0, hd⟩
    rcases hc with rfl | rfl
    · exact Or.inl rfl
    · exact Or.inr rfl
  have hd' : ∀ c ∈ ds, inRanges c [('0', '9')] = true := fun c hc => inRanges_digit.2 (hd c hc)
  refine ⟨nextToken_check (i := 0) (mo := none) (by simp) rfl hm
      (p := fun r => (r.deriv c).deadNE [('0', '9')] ) rfl ?_,
    nextToken_check (i := 8) (mo := none) (by simp) rfl hm
      (p := fun r => (r.deriv c).deadNE [('0', '9')]) ?_ ?_⟩
  · intro r' hp hm'
    exact h0 (deadNE_not_matches hp ((deriv_iff _ _ _).2 hm') hd')
  · rcases hc with rfl | rfl <;> decide +kernel
  · intro r' hp hm'
    exact h0 (deadNE_not_matches hp ((deriv_iff _ _ _).2 hm') hd')

/-- a character class with the digits and signs -/
def signedDigits : List (Char × Char) := [('0', '9'), ('+', '+'), ('-', '-')]

/-- all the character classes of an expression -/
def Re.classes : Re → List (Char × Char)
  | .void => []
  | .eps => []
  | .cls rs => rs
  | .seq a b => a.classes ++ b.classes
  | .alt a b => a.classes ++ b.classes
  | .star a => a.classes

theorem mentions_classes (c : Char) (r : Re) : r.mentions c = inRanges c r.classes := by
  induction r with
  | void => rfl
  | eps => rfl
  | cls => rfl
  | seq a b h1 h2 => rw [Re.mentions, Re.classes, inRanges_append, h1, h2]
  | alt a b h1 h2 => rw [Re.mentions, Re.classes, inRanges_append, h1, h2]
  | star a h => exact h

theorem inRanges_mono {c : Char} {a b : List (Char × Char)} (h : ∀ p ∈ a, p ∈ b) (hc : inRanges c a = true) : inRanges c b = true := by
  obtain ⟨lo, hi, h1, h2⟩ := inRanges_iff.1 hc
  exact inRanges_iff.2 ⟨lo, hi, h _ h1, h2⟩

theorem float_chars {w : Str} (h : Matches Rule.FLOAT w) {c : Char} (hc : c ∈ w) :
    inRanges c (('.', '.') :: ('e', 'e') :: ('E', 'E') :: signedDigits) = true := by
  have := mentions_of_matches h hc
  rw [mentions_classes] at this
  exact inRanges_mono (by decide +kernel) this

/-- float literals contain a period or an exponent mark -/
theorem float_mark {w : Str} (h : Matches Rule.FLOAT w) : '.' ∈ w ∨ 'e' ∈ w ∨ 'E' ∈ w := by
  refine Classical.byContradiction fun hn => ?_
  have hn1 : '.' ∉ w := fun h => hn (Or.inl h)
  have hn2 : 'e' ∉ w := fun h => hn (Or.inr (Or.inl h))
  have hn3 : 'E' ∉ w := fun h => hn (Or.inr (Or.inr h))
  refine dead_not_matches (C := signedDigits) (by decide +kernel) h ?_
  intro c hc
  have := float_chars h hc
  rw [inRanges_iff] at this
  obtain ⟨lo, hi, h1, h2, h3⟩ := this
  simp only [List.mem_cons, Prod.mk.injEq] at h1
  rcases h1 with ⟨rfl, rfl⟩ | ⟨rfl, rfl⟩ | ⟨rfl, rfl⟩ | h1
  · exact absurd (by rw [← Char.toNat_inj.1 (Nat.le_antisymm h3 h2)]; exact hc) hn1
  · exact absurd (by rw [← Char.toNat_inj.1 (Nat.le_antisymm h3 h2)]; exact hc) hn2
  · exact absurd (by rw [← Char.toNat_inj.1 (Nat.le_antisymm h3 h2)]; exact hc) hn3
  · exact inRanges_iff.2 ⟨lo, hi, by simpa using h1, h2, h3⟩

/-- a rule that no float literal matches -/
def Re.notFloat (r : Re) : Bool :=
  (!(r.mentions '.') && !(r.mentions 'e') && !(r.mentions 'E')) || disjointRanges Rule.FLOAT.firsts r.firsts ||
    r.dead (('.', '.') :: ('e', 'e') :: ('E', 'E') :: signedDigits) || decide (r = Rule.PERIOD)

theorem notFloat {r : Re} (hr : r.notFloat = true) {w : Str} (h : Matches Rule.FLOAT w) : ¬ Matches r w := by
  intro hm
  unfold Re.notFloat at hr
  simp only [Bool.or_eq_true, Bool.and_eq_true, Bool.not_eq_true'] at hr
  rcases hr with ((⟨⟨h1, h2⟩, h3⟩ | hr) | hr) | hr
  · rcases float_mark h with hc | hc | hc
    · rw [mentions_of_matches hm hc] at h1; cases h1
    · rw [mentions_of_matches hm hc] at h2; cases h2
    · rw [mentions_of_matches hm hc] at h3; cases h3
  · cases w with
    | nil => exact absurd ((nullable_iff _).2 h) (by decide)
    | cons c w =>
      have h1 := firsts_of_matches h c w rfl
      have h2 := firsts_of_matches hm c w rfl
      rw [disjointRanges_iff hr h1] at h2; cases h2
  · exact dead_not_matches hr hm fun c hc => float_chars h hc
  · rw [of_decide_eq_true hr, Rule.PERIOD, matches_chr] at hm
    subst hm
    have := (nullable_iff _).2 ((derivs_iff ['.'] _ []).2 h)
    revert this
    decide +kernel

/-- float literals -/
theorem word_float {w : Str} (h : Matches Rule.FLOAT w) :
    NextToken .DEFAULT_MODE w .FLOAT w.length .DEFAULT_MODE ∧ NextToken .SHIFT_MODE w .FLOAT w.length .SHIFT_MODE := by
  have h0 : w ≠ [] := by
    rintro rfl
    exact absurd ((nullable_iff _).2 h) (by decide)
  exact ⟨nextToken_check (i := 10) (mo := none) h0 rfl h (p := Re.notFloat) (by decide +kernel) fun r' hp => notFloat hp h,
    nextToken_check (i := 18) (mo := none) h0 rfl h (p := Re.notFloat) (by decide +kernel) fun r' hp => notFloat hp h⟩

end Verif
