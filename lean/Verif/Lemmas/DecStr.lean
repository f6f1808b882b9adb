import Verif.Lemmas.Words
/-!
# Printed numbers
-/

namespace Verif
open Spec (Digits natValue Sign IntLiteral ExpPart DecLiteral)

theorem digits_append {a b : Str} : Digits (a ++ b) ↔ Digits a ∧ Digits b := by
  constructor
  · intro h
    exact ⟨fun c hc => h c (List.mem_append_left _ hc), fun c hc => h c (List.mem_append_right _ hc)⟩
  · rintro ⟨h1, h2⟩ c hc
    rcases List.mem_append.1 hc with hc | hc
    · exact h1 c hc
    · exact h2 c hc

theorem natStr_digits (n : Nat) : Digits (natStr n) := by
  intro c hc
  have := Nat.isDigit_of_mem_toDigits (by decide) (by decide) hc
  simp only [Char.isDigit, Bool.and_eq_true, decide_eq_true_eq] at this
  exact ⟨this.1, this.2⟩

theorem natStr_ne_nil (n : Nat) : natStr n ≠ [] := Nat.toDigits_ne_nil

theorem natValue_natStr (n : Nat) : natValue (natStr n) = n := by
  have := Nat.ofDigitChars_ten_toDigits (n := n)
  unfold natStr natValue
  unfold Nat.ofDigitChars at this
  exact this

theorem intLiteral_natStr (n : Nat) : IntLiteral (natStr n) n :=
  ⟨[], natStr n, 1, rfl, .none, natStr_ne_nil n, natStr_digits n, by rw [natValue_natStr]; simp⟩

theorem intLiteral_intStr (i : Int) : IntLiteral (intStr i) i := by
  cases i with
  | ofNat n => exact intLiteral_natStr n
  | negSucc n =>
    refine ⟨['-'], natStr (n + 1), -1, rfl, .minus, natStr_ne_nil _, natStr_digits _, ?_⟩
    rw [natValue_natStr, Int.negSucc_eq]; push_cast; ring

theorem intLiteral_signedStr (i : Int) : IntLiteral (signedStr i) i := by
  cases i with
  | ofNat n =>
    refine ⟨['+'], natStr n, 1, rfl, .plus, natStr_ne_nil _, natStr_digits _, ?_⟩
    rw [natValue_natStr]; simp
  | negSucc n =>
    refine ⟨['-'], natStr (n + 1), -1, rfl, .minus, natStr_ne_nil _, natStr_digits _, ?_⟩
    rw [natValue_natStr, Int.negSucc_eq]; push_cast; ring

theorem digits_zeros (k : Nat) : Digits (List.replicate k '0') := by
  intro c hc
  rw [(List.mem_replicate.1 hc).2]
  decide

theorem natValue_zeros (k : Nat) : natValue (List.replicate k '0') = 0 := by
  induction k with
  | zero => rfl
  | succ k ih =>
    have : List.replicate (k + 1) '0' = ['0'] ++ List.replicate k '0' := rfl
    rw [this, natValue_append, ih]
    simp [natValue]

/-- the shape of a printed decimal -/
theorem decStr_shape (d : Dec) : ∃ ip dot fp ex e, d.str = (if d.neg then ['-'] else []) ++ ip ++ dot ++ fp ++ ex ∧
    ip ≠ [] ∧ Digits ip ∧ Digits fp ∧ (dot = ['.'] ∨ (dot = [] ∧ fp = [])) ∧ ExpPart ex e ∧ natValue (ip ++ fp) = d.coeff ∧
    e - (fp.length : Int) = d.exp ∧ (d.exp = 0 → dot = [] ∧ ex = []) ∧ (d.exp ≠ 0 → dot = ['.'] ∨ ex ≠ []) := by
  obtain ⟨neg, coeff, exp⟩ := d
  have hlen : 0 < (natStr coeff).length := List.length_pos_iff.2 (natStr_ne_nil coeff)
  have hdig := natStr_digits coeff
  have hval := natValue_natStr coeff
  generalize hint : natStr coeff = int at *
  have hnil : Digits [] := fun c hc => by cases hc
  by_cases h0 : exp = 0
  · subst h0
    refine ⟨int, [], [], [], 0, ?_, List.length_pos_iff.1 hlen, hdig, hnil, Or.inr ⟨rfl, rfl⟩, Or.inl ⟨rfl, rfl⟩, by simpa using hval,
      rfl, fun _ => ⟨rfl, rfl⟩, fun h => absurd rfl h⟩
    unfold Dec.str
    simp only [hint]
    have h1 : (0 : Int) ≤ 0 ∧ (-6 : Int) < 0 + (int.length : Int) := by omega
    rw [if_pos h1, if_neg (show ¬ (0 + (int.length : Int) ≤ 0) by omega), if_pos (show (int.length : Int) ≤ 0 + (int.length : Int) by omega), if_pos rfl]
    simp
  · by_cases hA : exp ≤ 0 ∧ -6 < exp + (int.length : Int)
    · by_cases hB : exp + (int.length : Int) ≤ 0
      · refine ⟨['0'], ['.'], List.replicate (-(exp + (int.length : Int))).toNat '0' ++ int, [], 0, ?_, by simp, ?_, ?_, Or.inl rfl,
          Or.inl ⟨rfl, rfl⟩, ?_, ?_, fun h => absurd h h0, fun _ => Or.inl rfl⟩
        · unfold Dec.str
          simp only [hint]
          rw [if_pos hA, if_pos hB, if_pos rfl]
          simp
        · intro c hc; cases List.mem_singleton.1 hc; decide
        · exact digits_append.2 ⟨digits_zeros _, hdig⟩
        · rw [natValue_append, natValue_append, natValue_zeros, hval]
          simp [natValue]
        · simp only [List.length_append, List.length_replicate]
          omega
      · refine ⟨int.take (exp + (int.length : Int)).toNat, ['.'], int.drop (exp + (int.length : Int)).toNat, [], 0, ?_, ?_, ?_, ?_,
          Or.inl rfl, Or.inl ⟨rfl, rfl⟩, ?_, ?_, fun h => absurd h h0, fun _ => Or.inl rfl⟩
        · unfold Dec.str
          simp only [hint]
          rw [if_pos hA, if_neg hB, if_neg (show ¬ ((int.length : Int) ≤ exp + (int.length : Int)) by omega), if_pos rfl]
          simp
        · intro h
          have := congrArg List.length h
          simp only [List.length_take, List.length_nil] at this
          omega
        · exact fun c hc => hdig c (List.mem_of_mem_take hc)
        · exact fun c hc => hdig c (List.mem_of_mem_drop hc)
        · rw [List.take_append_drop]; exact hval
        · simp only [List.length_drop]
          omega
    · have hne : exp + (int.length : Int) ≠ 1 := by omega
      by_cases hB : (int.length : Int) ≤ 1
      · refine ⟨int, [], [], 'E' :: signedStr (exp + (int.length : Int) - 1), exp + (int.length : Int) - 1, ?_, List.length_pos_iff.1 hlen,
          hdig, hnil, Or.inr ⟨rfl, rfl⟩, Or.inr ⟨'E', _, rfl, Or.inr rfl, intLiteral_signedStr _⟩, by simpa using hval, ?_,
          fun h => absurd h h0, fun _ => Or.inr (by simp)⟩
        · unfold Dec.str
          simp only [hint]
          rw [if_neg hA, if_neg (show ¬ ((1 : Int) ≤ 0) by omega), if_pos hB, if_neg hne]
          have : (1 - (int.length : Int)).toNat = 0 := by omega
          rw [this]
          simp
        · simp only [List.length_nil]
          omega
      · refine ⟨int.take 1, ['.'], int.drop 1, 'E' :: signedStr (exp + (int.length : Int) - 1), exp + (int.length : Int) - 1, ?_, ?_,
          ?_, ?_, Or.inl rfl, Or.inr ⟨'E', _, rfl, Or.inr rfl, intLiteral_signedStr _⟩, ?_, ?_, fun h => absurd h h0, fun _ => Or.inl rfl⟩
        · unfold Dec.str
          simp only [hint]
          rw [if_neg hA, if_neg (show ¬ ((1 : Int) ≤ 0) by omega), if_neg hB, if_neg hne]
          simp
        · intro h
          have := congrArg List.length h
          simp only [List.length_take, List.length_nil] at this
          omega
        · exact fun c hc => hdig c (List.mem_of_mem_take hc)
        · exact fun c hc => hdig c (List.mem_of_mem_drop hc)
        · rw [List.take_append_drop]; exact hval
        · simp only [List.length_drop]
          omega

theorem sign_neg (b : Bool) : Sign (if b then ['-'] else []) (if b then -1 else 1) := by
  cases b
  · exact .none
  · exact .minus

/-- reading a printed decimal gives it back, digit for digit -/
theorem decParse_str (d : Dec) : Dec.parse d.str = .ok d := by
  obtain ⟨ip, dot, fp, ex, e, h1, h2, h3, h4, h5, h6, h7, h8, _⟩ := decStr_shape d
  rw [h1, decParse_literal (sign_neg d.neg) h3 h4 (by simp [h2]) h5 h6, h7, h8]
  obtain ⟨neg, coeff, exp⟩ := d
  cases neg <;> rfl

/-- literals of the right shape are float tokens -/
theorem float_of_shape {sg ip dot fp ex : Str} {k e : Int} (hs : Sign sg k) (hip : Digits ip) (hfp : Digits fp)
    (h0 : ip ≠ [] ∨ (sg = [] ∧ fp ≠ [])) (hdot : dot = ['.'] ∨ (dot = [] ∧ fp = [] ∧ ex ≠ [])) (hex : ExpPart ex e) :
    Matches Rule.FLOAT (sg ++ ip ++ dot ++ fp ++ ex) := by
  have hany : ip ≠ [] → Matches Rule.ANY_INT (sg ++ ip) := fun h => matches_ANY_INT.2 ⟨_, sg, ip, k, rfl, hs, h, hip, rfl⟩
  have hopt : Matches (Re.opt Rule.INT) fp := by
    rw [matches_opt]
    by_cases h : fp = []
    · exact Or.inl h
    · exact Or.inr (matches_INT.2 ⟨h, hfp⟩)
  have hexp : ex ≠ [] → Matches Rule.E_POWER ex := by
    intro hne
    rcases hex with ⟨h, _⟩ | ⟨c, t, h1, h2, h3⟩
    · exact absurd h hne
    · exact matches_E_POWER.2 ⟨c, t, e, h1, h2, h3⟩
  have hexo : Matches (Re.opt Rule.E_POWER) ex := by
    rw [matches_opt]
    by_cases h : ex = []
    · exact Or.inl h
    · exact Or.inr (hexp h)
  have hper : Matches Rule.PERIOD ['.'] := matches_chr.2 rfl
  unfold Rule.FLOAT
  rcases hdot with rfl | ⟨rfl, rfl, hne⟩
  · refine .altL (.seq ?_ hexo)
    by_cases hi : ip = []
    · subst hi
      rcases h0 with h0 | ⟨rfl, h0⟩
      · exact absurd rfl h0
      · refine .altR ?_
        have := Matches.seq (a := Re.opt Rule.ANY_INT) (matches_opt.2 (Or.inl rfl)) (Matches.seq hper (matches_INT.2 ⟨h0, hfp⟩))
        simpa [Re.seqs] using this
    · refine .altL ?_
      have := Matches.seq (hany hi) (Matches.seq hper hopt)
      simpa [Re.seqs] using this
  · refine .altR ?_
    have hi : ip ≠ [] := by
      rcases h0 with h0 | ⟨_, h0⟩
      · exact h0
      · exact absurd rfl h0
    have := Matches.seq (hany hi) (hexp hne)
    simpa using this

/-- printed decimals are one token: an integer if the exponent is zero, a float otherwise -/
theorem decStr_token (d : Dec) : (d.exp = 0 → IntLiteral d.str ((if d.neg then -1 else 1) * d.coeff)) ∧
    (d.exp ≠ 0 → Matches Rule.FLOAT d.str) := by
  obtain ⟨ip, dot, fp, ex, e, h1, h2, h3, h4, h5, h6, h7, h8, h9, h10⟩ := decStr_shape d
  constructor
  · intro h
    obtain ⟨rfl, rfl⟩ := h9 h
    have hfp : fp = [] := by
      rcases h5 with h | h
      · cases h
      · exact h.2
    subst hfp
    rw [List.append_nil] at h7
    refine ⟨_, ip, _, ?_, sign_neg d.neg, h2, h3, ?_⟩
    · rw [h1]; simp
    · rw [h7]
  · intro h
    rw [h1]
    refine float_of_shape (sign_neg d.neg) h3 h4 (Or.inl h2) ?_ h6
    rcases h5 with h5 | ⟨h5, h5'⟩
    · exact Or.inl h5
    · right
      refine ⟨h5, h5', ?_⟩
      rcases h10 h with h | h
      · rw [h5] at h; cases h
      · exact h

end Verif
