import Verif.Model.DateTime
import Verif.Lemmas.DecStr
import Mathlib.Tactic.NormNum
/-!
# C39, C40: dates and times
-/

namespace Verif
open Spec

/-! ## C39 -/

/-- **C39.** `DateTime` equality is an equivalence relation; it compares exactly the fields other than `raw_content`. -/
theorem C39_equality (a b c : DateTime) :
    a.eq a = true ∧ (a.eq b = b.eq a) ∧ (a.eq b = true → b.eq c = true → a.eq c = true) ∧
    (a.eq b = true ↔ { a with rawContent := none } = { b with rawContent := none }) := by
  have h : ∀ a b : DateTime, a.eq b = true ↔ { a with rawContent := none } = { b with rawContent := none } := by
    intro a b
    unfold DateTime.eq
    simp only [Bool.and_eq_true, decide_eq_true_eq, DateTime.mk.injEq, and_true, and_assoc]
  refine ⟨(h a a).2 rfl, ?_, fun h1 h2 => (h a c).2 (((h a b).1 h1).trans ((h b c).1 h2)), h a b⟩
  rw [Bool.eq_iff_iff, h a b, h b a]
  exact ⟨Eq.symm, Eq.symm⟩

/-- **C39**, hashing: equal `DateTime`s are hashed alike if also their raw contents agree. -/
theorem C39_hash_same_text (a b : DateTime) (h : a.eq b = true) (hr : a.rawContent = b.rawContent) : a.hashed = b.hashed := by
  have := (C39_equality a b a).2.2.2.1 h
  obtain ⟨y, m, d, t, z, r⟩ := a
  obtain ⟨y', m', d', t', z', r'⟩ := b
  simp only [DateTime.mk.injEq] at this
  simp only at hr
  simp [DateTime.hashed, this, hr]

/-- **C39**, hashing of `Time`s: equal ones by the same tuple, different ones by different tuples. -/
theorem C39_time_hash (a b : Time) : a.hashed = b.hashed ↔ a = b := by
  obtain ⟨h, m, s, u⟩ := a
  obtain ⟨h', m', s', u'⟩ := b
  simp [Time.hashed]

/-- **C39** refuted: equal `DateTime`s need not be hashed alike — for *every* date, writing it down differently gives an
equal object with a different hashed tuple. -/
theorem C39_hash_refuted (a : DateTime) : ∃ b, a.eq b = true ∧ a.hashed ≠ b.hashed := by
  refine ⟨{ a with rawContent := match a.rawContent with | none => some [] | some _ => none }, ?_, ?_⟩
  · rw [(C39_equality a _ a).2.2.2]
  · intro h
    have := (Prod.mk.inj (Prod.mk.inj (Prod.mk.inj (Prod.mk.inj (Prod.mk.inj h).2).2).2).2).2
    simp only at this
    cases hr : a.rawContent <;> rw [hr] at this <;> cases this

/-! ## C40 -/

theorem padInt_literal (w : Nat) (i : Int) : IntLiteral (padInt w i) i := by
  unfold padInt
  have hd : Digits (List.replicate (w - (if i < 0 then ['-'] else [] : Str).length - (natStr i.natAbs).length) '0' ++ natStr i.natAbs) :=
    digits_append.2 ⟨digits_zeros _, natStr_digits _⟩
  have hv : natValue (List.replicate (w - (if i < 0 then ['-'] else [] : Str).length - (natStr i.natAbs).length) '0' ++ natStr i.natAbs)
      = i.natAbs := by rw [natValue_append, natValue_zeros, natValue_natStr]; simp
  by_cases h : i < 0
  · simp only [if_pos h] at hd hv ⊢
    refine ⟨['-'], _, -1, ?_, ?_, ?_, hd, ?_⟩
    · simp
    · exact .minus
    · simp [natStr_ne_nil]
    · rw [hv]; omega
  · simp only [if_neg h] at hd hv ⊢
    refine ⟨[], _, 1, ?_, ?_, ?_, hd, ?_⟩
    · simp
    · exact .none
    · simp [natStr_ne_nil]
    · rw [hv]; omega

theorem padInt_inj {w : Nat} {i j : Int} (h : padInt w i = padInt w j) : i = j := by
  have h1 := parseInt_literal (padInt_literal w i)
  rw [h, parseInt_literal (padInt_literal w j)] at h1
  exact (Option.some.inj h1).symm

theorem padInt_chars (w : Nat) (i : Int) : ':' ∉ padInt w i ∧ '.' ∉ padInt w i := by
  obtain ⟨sg, ds, k, h, hs, _, hd, _⟩ := padInt_literal w i
  rw [h]
  have h1 : ':' ∉ ds ∧ '.' ∉ ds :=
    ⟨fun hm => absurd (hd _ hm) (by decide), fun hm => absurd (hd _ hm) (by decide)⟩
  cases hs <;> simp [h1]

theorem split_at {c : Char} : ∀ {a a' b b' : Str}, c ∉ a → c ∉ a' → a ++ c :: b = a' ++ c :: b' → a = a' ∧ b = b'
  | [], [], _, _, _, _, h => ⟨rfl, (List.cons.inj h).2⟩
  | [], x :: a', _, _, _, h2, h => absurd (List.cons.inj h).1 (fun e => h2 (by rw [e]; exact List.mem_cons_self ..))
  | x :: a, [], _, _, h1, _, h => absurd (List.cons.inj h).1 (fun e => h1 (by rw [← e]; exact List.mem_cons_self ..))
  | x :: a, y :: a', b, b', h1, h2, h => by
    obtain ⟨e1, e2⟩ := List.cons.inj h
    obtain ⟨e3, e4⟩ := split_at (fun hm => h1 (List.mem_cons_of_mem _ hm)) (fun hm => h2 (List.mem_cons_of_mem _ hm)) e2
    exact ⟨by rw [e1, e3], e4⟩

/-- what is printed after the hour -/
def Time.tail (t : Time) : Str :=
  padInt 2 t.minute ++ (if t.second ≠ 0 ∨ t.microseconds ≠ 0 then
    ':' :: (padInt 2 t.second ++ if t.microseconds ≠ 0 then '.' :: padInt 8 t.microseconds else []) else [])

theorem Time.str_eq (t : Time) : t.str = padInt 2 t.hour ++ ':' :: t.tail := by
  unfold Time.str Time.tail
  by_cases h2 : t.microseconds = 0
  · by_cases h1 : t.second = 0 <;> simp [h1, h2]
  · simp [h2]

theorem tail_split {a a' b b' : Str} {c : Char} (ha : c ∉ a) (ha' : c ∉ a') (p p' : Prop) [Decidable p] [Decidable p']
    (h : a ++ (if p then c :: b else []) = a' ++ (if p' then c :: b' else [])) :
    a = a' ∧ ((p ∧ p' ∧ b = b') ∨ (¬ p ∧ ¬ p')) := by
  by_cases hp : p <;> by_cases hp' : p'
  · rw [if_pos hp, if_pos hp'] at h
    obtain ⟨e1, e2⟩ := split_at ha ha' h
    exact ⟨e1, .inl ⟨hp, hp', e2⟩⟩
  · rw [if_pos hp, if_neg hp', List.append_nil] at h
    exact absurd (by rw [← h]; simp) ha'
  · rw [if_neg hp, if_pos hp', List.append_nil] at h
    exact absurd (by rw [h]; simp) ha
  · rw [if_neg hp, if_neg hp', List.append_nil, List.append_nil] at h
    exact ⟨h, .inr ⟨hp, hp'⟩⟩

/-- **C40.** The printed form of a time determines it, whatever integers its fields are. -/
theorem C40_time_str_injective (a b : Time) (h : a.str = b.str) : a = b := by
  rw [Time.str_eq, Time.str_eq] at h
  obtain ⟨h1, h2⟩ := split_at (padInt_chars 2 a.hour).1 (padInt_chars 2 b.hour).1 h
  unfold Time.tail at h2
  obtain ⟨h3, h4⟩ := tail_split (padInt_chars 2 a.minute).1 (padInt_chars 2 b.minute).1 _ _ h2
  have e1 := padInt_inj h1
  have e2 := padInt_inj h3
  obtain ⟨ha, ma, sa, ua⟩ := a
  obtain ⟨hb, mb, sb, ub⟩ := b
  simp only at *
  subst e1 e2
  rcases h4 with ⟨_, _, h5⟩ | ⟨h5, h6⟩
  · obtain ⟨h6, h7⟩ := tail_split (padInt_chars 2 sa).2 (padInt_chars 2 sb).2 _ _ h5
    have e3 := padInt_inj h6
    subst e3
    rcases h7 with ⟨_, _, h8⟩ | ⟨h8, h9⟩
    · rw [padInt_inj h8]
    · have : ua = 0 := Classical.byContradiction h8
      have : ub = 0 := Classical.byContradiction h9
      simp_all
  · have p1 : sa = 0 ∧ ua = 0 := by
      constructor <;> apply Classical.byContradiction <;> intro hh <;> exact h5 (by simp [hh])
    have p2 : sb = 0 ∧ ub = 0 := by
      constructor <;> apply Classical.byContradiction <;> intro hh <;> exact h6 (by simp [hh])
    rw [p1.1, p1.2, p2.1, p2.2]

/-- Non-vacuity: printed forms of different times. -/
example : Time.str ⟨9, 5, 0, 0⟩ = c!"09:05" ∧ Time.str ⟨9, 5, 7, 0⟩ = c!"09:05:07" ∧
    Time.str ⟨9, 5, 0, 42⟩ = c!"09:05:00.00000042" ∧ Time.str ⟨-9, 5, 0, 0⟩ = c!"-9:05" := by decide +kernel

theorem natStr_length {n k : Nat} (hk : 0 < k) (h : n < 10 ^ k) : (natStr n).length ≤ k := by
  unfold natStr
  exact (Nat.length_toDigits_le_iff (by decide) hk).2 h

/-- **C40** refuted: the printed fraction of a second is not the time's: for every time with microseconds (1 to 999999) the
text ends in a point and digits that denote one hundredth of them. -/
theorem C40_fraction_refuted (t : Time) (h0 : 0 < t.microseconds) (h1 : t.microseconds < 1000000) :
    ∃ before digits, t.str = before ++ '.' :: digits ∧ '.' ∉ before ∧ Digits digits ∧
      ((natValue digits : Rat) / 10 ^ digits.length) = (t.microseconds : Rat) / 1000000 / 100 := by
  refine ⟨padInt 2 t.hour ++ ':' :: (padInt 2 t.minute ++ ':' :: padInt 2 t.second), padInt 8 t.microseconds, ?_, ?_, ?_, ?_⟩
  · rw [Time.str_eq, Time.tail]
    have : t.microseconds ≠ 0 := by omega
    simp [this]
  · simp [padInt_chars]
  · unfold padInt
    rw [if_neg (by omega : ¬ t.microseconds < 0)]
    exact digits_append.2 ⟨digits_append.2 ⟨(by intro c hc; cases hc), digits_zeros _⟩, natStr_digits _⟩
  · obtain ⟨n, hn⟩ : ∃ n : Nat, t.microseconds = n := ⟨t.microseconds.toNat, by omega⟩
    have hlen : (padInt 8 t.microseconds).length = 8 := by
      unfold padInt
      rw [if_neg (by omega : ¬ t.microseconds < 0), hn]
      have := natStr_length (n := n) (k := 8) (by decide) (by omega)
      simp; omega
    have hv : natValue (padInt 8 t.microseconds) = n := by
      unfold padInt
      rw [if_neg (by omega : ¬ t.microseconds < 0), hn, natValue_append, natValue_append, natValue_zeros, Int.natAbs_natCast, natValue_natStr]
      simp [natValue]
    rw [hlen, hv, hn]
    show ((n : Rat) / 10 ^ 8) = ((n : Int) : Rat) / 1000000 / 100
    have e : ((n : Int) : Rat) = (n : Rat) := by simp
    have e1 : (10 : Rat) ^ 8 = 1000000 * 100 := by norm_num
    rw [e, e1, div_div]

/-- **C40** (the other direction): no text is read back: `parse_udunits_date` raises `NotImplementedError` for every text. -/
theorem C40_no_text_is_a_date (s : Str) : parseUdunitsDate s = .error .notImplemented := rfl

end Verif
