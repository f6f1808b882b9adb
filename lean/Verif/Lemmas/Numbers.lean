import Verif.Lemmas.Tokens
import Verif.Model.Parser
import Verif.Model.Sympy
import Verif.Spec.Numbers
import Mathlib.Tactic.Ring
import Mathlib.Tactic.FieldSimp
import Mathlib.Tactic.NormNum
import Mathlib.Algebra.Order.Field.Rat
/-!
# Number tokens denote the numbers they spell
-/

namespace Verif
open Spec (Digits natValue Sign IntLiteral ExpPart DecLiteral)

theorem digitVal_some {c : Char} (h : '0'.toNat ≤ c.toNat ∧ c.toNat ≤ '9'.toNat) :
    digitVal? c = some (c.toNat - '0'.toNat) := by
  unfold digitVal?; rw [if_pos h]

theorem digitsVal_foldl {s : Str} (h : Digits s) : ∀ acc, digitsVal? s acc =
    some (s.foldl (fun acc c => 10 * acc + (c.toNat - '0'.toNat)) acc) := by
  induction s with
  | nil => intro acc; rfl
  | cons c s ih =>
    intro acc
    rw [digitsVal?, digitVal_some (h c (List.mem_cons_self ..))]
    exact ih (fun d hd => h d (List.mem_cons_of_mem _ hd)) _

theorem parseNat_digits {s : Str} (h0 : s ≠ []) (h : Digits s) : parseNat? s = some (natValue s) := by
  unfold parseNat?
  rw [if_neg h0, digitsVal_foldl h]; rfl

theorem digits_head {c : Char} {s : Str} (h : Digits (c :: s)) : c ≠ '+' ∧ c ≠ '-' ∧ c ≠ '.' ∧ c ≠ 'e' ∧ c ≠ 'E' := by
  have := h c (List.mem_cons_self ..)
  refine ⟨?_, ?_, ?_, ?_, ?_⟩ <;> (rintro rfl; revert this; decide)

theorem parseInt_plain {s : Str} (h0 : s ≠ []) (h : Digits s) : parseInt? s = some (natValue s : Int) := by
  cases s with
  | nil => exact absurd rfl h0
  | cons c s =>
    obtain ⟨h1, h2, _⟩ := digits_head h
    have hp := parseNat_digits h0 h
    unfold parseInt?
    split
    · rename_i heq; cases heq; exact absurd rfl h1
    · rename_i heq; cases heq; exact absurd rfl h2
    · rw [hp]; rfl

theorem parseInt_literal {s : Str} {v : Int} (h : IntLiteral s v) : parseInt? s = some v := by
  obtain ⟨sg, ds, k, rfl, hs, h0, hd, rfl⟩ := h
  cases hs with
  | none => rw [List.nil_append, parseInt_plain h0 hd, one_mul]
  | plus =>
    change (parseNat? ds).map Int.ofNat = _
    rw [parseNat_digits h0 hd, one_mul]; rfl
  | minus =>
    simp [parseInt?, parseNat_digits h0 hd]

/-- the digits class -/
theorem inRanges_digit {c : Char} : inRanges c [('0', '9')] = true ↔ '0'.toNat ≤ c.toNat ∧ c.toNat ≤ '9'.toNat := by
  rw [inRanges_iff]
  constructor
  · rintro ⟨lo, hi, h, h1⟩
    cases List.mem_singleton.1 h; exact h1
  · intro h; exact ⟨_, _, List.mem_singleton.2 rfl, h⟩

theorem matches_INT {s : Str} : Matches Rule.INT s ↔ s ≠ [] ∧ Digits s := by
  unfold Rule.INT Re.range
  rw [matches_plus_cls]
  constructor
  · rintro ⟨h1, h2⟩; exact ⟨h1, fun c hc => inRanges_digit.1 (h2 c hc)⟩
  · rintro ⟨h1, h2⟩; exact ⟨h1, fun c hc => inRanges_digit.2 (h2 c hc)⟩

theorem matches_SIGNED_INT {s : Str} : Matches Rule.SIGNED_INT s ↔
    ∃ sg ds, s = sg ++ ds ∧ (sg = ['-'] ∨ sg = ['+']) ∧ ds ≠ [] ∧ Digits ds := by
  unfold Rule.SIGNED_INT
  rw [matches_seq]
  constructor
  · rintro ⟨x, y, rfl, h1, h2⟩
    rw [matches_alt] at h1
    exact ⟨x, y, rfl, h1.imp matches_chr.1 matches_chr.1, matches_INT.1 h2⟩
  · rintro ⟨x, y, rfl, h1, h2⟩
    refine ⟨x, y, rfl, ?_, matches_INT.2 h2⟩
    rw [matches_alt]
    exact h1.imp matches_chr.2 matches_chr.2

theorem matches_ANY_INT {s : Str} : Matches Rule.ANY_INT s ↔ ∃ v, IntLiteral s v := by
  unfold Rule.ANY_INT
  rw [matches_alt, matches_INT, matches_SIGNED_INT]
  constructor
  · rintro (⟨h1, h2⟩ | ⟨sg, ds, rfl, h1, h2, h3⟩)
    · exact ⟨_, [], s, 1, rfl, .none, h1, h2, rfl⟩
    · rcases h1 with rfl | rfl
      · exact ⟨_, _, _, _, rfl, .minus, h2, h3, rfl⟩
      · exact ⟨_, _, _, _, rfl, .plus, h2, h3, rfl⟩
  · rintro ⟨v, sg, ds, k, rfl, hs, h1, h2, _⟩
    cases hs with
    | none => exact Or.inl ⟨h1, h2⟩
    | plus => exact Or.inr ⟨_, _, rfl, Or.inr rfl, h1, h2⟩
    | minus => exact Or.inr ⟨_, _, rfl, Or.inl rfl, h1, h2⟩

theorem matches_E_POWER {s : Str} : Matches Rule.E_POWER s ↔ ∃ c t v, s = c :: t ∧ (c = 'e' ∨ c = 'E') ∧ IntLiteral t v := by
  unfold Rule.E_POWER
  rw [matches_seq]
  have hc : ∀ {x : Str}, Matches (Re.oneOf c!"Ee") x ↔ x = ['e'] ∨ x = ['E'] := by
    intro x
    unfold Re.oneOf
    rw [matches_cls]
    constructor
    · rintro ⟨c, rfl, h⟩
      obtain ⟨lo, hi, h1, h2, h3⟩ := inRanges_iff.1 h
      simp at h1
      rcases h1 with ⟨rfl, rfl⟩ | ⟨rfl, rfl⟩
      · right; rw [Char.toNat_inj.1 (Nat.le_antisymm h3 h2)]
      · left; rw [Char.toNat_inj.1 (Nat.le_antisymm h3 h2)]
    · rintro (rfl | rfl)
      · exact ⟨'e', rfl, by decide⟩
      · exact ⟨'E', rfl, by decide⟩
  constructor
  · rintro ⟨x, y, rfl, h1, h2⟩
    obtain ⟨v, hv⟩ := matches_ANY_INT.1 h2
    rcases hc.1 h1 with rfl | rfl
    · exact ⟨'e', y, v, rfl, Or.inl rfl, hv⟩
    · exact ⟨'E', y, v, rfl, Or.inr rfl, hv⟩
  · rintro ⟨c, t, v, rfl, h1, h2⟩
    refine ⟨[c], t, rfl, hc.2 ?_, matches_ANY_INT.2 ⟨v, h2⟩⟩
    rcases h1 with rfl | rfl
    · exact Or.inl rfl
    · exact Or.inr rfl

/-- the shape of float literals (no value) -/
theorem matches_FLOAT {s : Str} (h : Matches Rule.FLOAT s) :
    ∃ sg ip dot fp ex k e, s = sg ++ ip ++ dot ++ fp ++ ex ∧ Sign sg k ∧ Digits ip ∧ Digits fp ∧ ip ++ fp ≠ [] ∧
      (dot = ['.'] ∨ (dot = [] ∧ fp = [])) ∧ ExpPart ex e := by
  have hopt : ∀ {y : Str}, Matches (Re.opt Rule.E_POWER) y → ∃ e, ExpPart y e := by
    intro y h
    rcases matches_opt.1 h with rfl | h
    · exact ⟨0, Or.inl ⟨rfl, rfl⟩⟩
    · obtain ⟨c, t, v, h1, h2, h3⟩ := matches_E_POWER.1 h
      exact ⟨v, Or.inr ⟨c, t, h1, h2, h3⟩⟩
  have hnil : Digits [] := fun c hc => by cases hc
  unfold Rule.FLOAT at h
  rw [matches_alt] at h
  rcases h with h | h
  · rw [matches_seq] at h
    obtain ⟨x, y, rfl, h1, h2⟩ := h
    obtain ⟨e, he⟩ := hopt h2
    rw [matches_alt] at h1
    rcases h1 with h1 | h1
    · rw [Re.seqs, matches_seq] at h1
      obtain ⟨a, b, rfl, ha, hb⟩ := h1
      · rw [Re.seqs, matches_seq] at hb
        obtain ⟨d, f, rfl, hd, hf⟩ := hb
        · rw [Re.seqs, matches_opt] at hf
          rw [Rule.PERIOD, matches_chr] at hd
          subst hd
          obtain ⟨v, sg, ds, k, rfl, hs, hd0, hds, _⟩ := matches_ANY_INT.1 ha
          have hf' : Digits f := by
            rcases hf with rfl | hf
            · exact hnil
            · exact (matches_INT.1 hf).2
          exact ⟨sg, ds, ['.'], f, y, k, e, by simp, hs, hds, hf', by simp [hd0], Or.inl rfl, he⟩
        · simp
      · simp
    · rw [Re.seqs, matches_seq] at h1
      obtain ⟨a, b, rfl, ha, hb⟩ := h1
      · rw [Re.seqs, matches_seq] at hb
        obtain ⟨d, f, rfl, hd, hf⟩ := hb
        · rw [Re.seqs] at hf
          rw [Rule.PERIOD, matches_chr] at hd
          subst hd
          obtain ⟨hf0, hf⟩ := matches_INT.1 hf
          rcases matches_opt.1 ha with rfl | ha
          · exact ⟨[], [], ['.'], f, y, 1, e, by simp, .none, hnil, hf, by simp [hf0], Or.inl rfl, he⟩
          · obtain ⟨v, sg, ds, k, rfl, hs, hd0, hds, _⟩ := matches_ANY_INT.1 ha
            exact ⟨sg, ds, ['.'], f, y, k, e, by simp, hs, hds, hf, by simp [hf0], Or.inl rfl, he⟩
        · simp
      · simp
  · rw [matches_seq] at h
    obtain ⟨x, y, rfl, h1, h2⟩ := h
    obtain ⟨c, t, v', h3, h4, h5⟩ := matches_E_POWER.1 h2
    obtain ⟨v, sg, ds, k, rfl, hs, hd0, hds, _⟩ := matches_ANY_INT.1 h1
    exact ⟨sg, ds, [], [], y, k, v', by simp, hs, hds, hnil, by simp [hd0], Or.inr ⟨rfl, rfl⟩, Or.inr ⟨c, t, h3, h4, h5⟩⟩

theorem spanDigits_append {ds t : Str} (h : Digits ds) (ht : ∀ c s, t = c :: s → digitVal? c = none) :
    spanDigits (ds ++ t) = (ds, t) := by
  induction ds with
  | nil =>
    cases t with
    | nil => rfl
    | cons c s => rw [List.nil_append, spanDigits, ht c s rfl]
  | cons c ds ih =>
    rw [List.cons_append, spanDigits, digitVal_some (h c (List.mem_cons_self ..)),
      ih fun d hd => h d (List.mem_cons_of_mem _ hd)]

theorem takeSign_sign {sg s : Str} {k : Int} (h : Sign sg k) (hs : ∀ c t, s = c :: t → c ≠ '+' ∧ c ≠ '-') :
    takeSign (sg ++ s) = (decide (k = -1), s) ∧ (k = 1 ∨ k = -1) := by
  cases h with
  | none =>
    refine ⟨?_, Or.inl rfl⟩
    rw [List.nil_append]
    unfold takeSign
    split
    · exact absurd rfl (hs _ _ rfl).1
    · exact absurd rfl (hs _ _ rfl).2
    · rfl
  | plus => exact ⟨rfl, Or.inl rfl⟩
  | minus => exact ⟨rfl, Or.inr rfl⟩

/-- the decimal that a literal is parsed into -/
theorem decParse_literal {sg ip dot fp ex : Str} {k e : Int} (hs : Sign sg k) (hip : Digits ip) (hfp : Digits fp)
    (h0 : ip ++ fp ≠ []) (hdot : dot = ['.'] ∨ (dot = [] ∧ fp = [])) (hex : ExpPart ex e) :
    Dec.parse (sg ++ ip ++ dot ++ fp ++ ex) = .ok ⟨decide (k = -1), natValue (ip ++ fp), e - (fp.length : Int)⟩ := by
  have hexd : ∀ c s, ex = c :: s → digitVal? c = none ∧ c ≠ '.' ∧ (c = 'e' ∨ c = 'E') := by
    intro c s hc
    rcases hex with ⟨h, _⟩ | ⟨c', t, h, h1, _⟩
    · rw [h] at hc; cases hc
    · rw [h] at hc; cases hc
      rcases h1 with rfl | rfl <;> decide
  have htail : ∀ c s, dot ++ fp ++ ex = c :: s → digitVal? c = none := by
    intro c s hc
    rcases hdot with rfl | ⟨rfl, rfl⟩
    · cases hc; decide
    · exact (hexd c s hc).1
  have hsig : ∀ c t, ip ++ (dot ++ fp ++ ex) = c :: t → c ≠ '+' ∧ c ≠ '-' := by
    intro c t hc
    cases ip with
    | cons d ip =>
      cases hc
      have := digits_head hip
      exact ⟨this.1, this.2.1⟩
    | nil =>
      rcases hdot with rfl | ⟨rfl, rfl⟩
      · cases hc; decide
      · exact absurd rfl h0
  obtain ⟨hts, hk⟩ := takeSign_sign hs hsig
  have e1 : sg ++ ip ++ dot ++ fp ++ ex = sg ++ (ip ++ (dot ++ fp ++ ex)) := by simp
  have hdig : Digits (ip ++ fp) := by
    intro c hc
    rcases List.mem_append.1 hc with hc | hc
    · exact hip c hc
    · exact hfp c hc
  have hfpart : spanFraction (dot ++ fp ++ ex) = (fp, ex) := by
    rcases hdot with rfl | ⟨rfl, rfl⟩
    · exact spanDigits_append hfp fun c s h => (hexd c s h).1
    · rw [List.nil_append, List.nil_append]
      unfold spanFraction
      split
      · exact absurd rfl (hexd _ _ rfl).2.1
      · rfl
  rw [e1]
  unfold Dec.parse
  rw [hts]
  simp only
  rw [spanDigits_append hip htail]
  simp only
  rw [hfpart]
  simp only
  rw [if_neg h0, digitsVal_foldl hdig]
  simp only
  rcases hex with ⟨rfl, rfl⟩ | ⟨c, t, rfl, h1, h2⟩
  · rfl
  · simp only
    rw [if_pos h1, parseInt_literal h2]
    rfl

theorem natValue_append (a b : Str) : natValue (a ++ b) = natValue a * 10 ^ b.length + natValue b := by
  have key : ∀ (b : Str) (acc : Nat), b.foldl (fun acc c => 10 * acc + (c.toNat - '0'.toNat)) acc =
      acc * 10 ^ b.length + natValue b := by
    intro b
    induction b with
    | nil => intro acc; simp [natValue]
    | cons c b ih =>
      intro acc
      unfold natValue
      rw [List.foldl_cons, List.foldl_cons, ih, ih (10 * 0 + _)]
      rw [List.length_cons, pow_succ]; ring
  unfold natValue
  rw [List.foldl_append, key]; rfl

theorem decToRat (d : Dec) : d.toRat = (if d.neg then -1 else 1) * (d.coeff : Rat) * (10 : Rat) ^ d.exp := by
  obtain ⟨neg, coeff, exp⟩ := d
  unfold Dec.toRat
  cases exp with
  | ofNat k =>
    simp only [Int.ofNat_eq_natCast, zpow_natCast]
    cases neg <;> simp <;> ring
  | negSucc k =>
    simp only [zpow_negSucc]
    cases neg <;> simp [div_eq_mul_inv]

theorem decToRat_literal {ip fp : Str} {k e : Int} (hk : k = 1 ∨ k = -1) :
    Dec.toRat ⟨decide (k = -1), natValue (ip ++ fp), e - (fp.length : Int)⟩ =
      k * ((natValue ip + natValue fp / 10 ^ fp.length : Rat)) * (10 : Rat) ^ e := by
  rw [decToRat, natValue_append]
  simp only
  have h10 : (10 : Rat) ≠ 0 := by norm_num
  rw [zpow_sub₀ h10, zpow_natCast]
  have hp : (10 : Rat) ^ fp.length ≠ 0 := pow_ne_zero _ h10
  have hsgn : ((if (decide (k = -1)) = true then -1 else 1 : Rat)) = (k : Rat) := by
    rcases hk with rfl | rfl <;> simp
  rw [hsgn]
  push_cast
  field_simp

/-- integer tokens convert, to the integer they spell -/
theorem intNode_matches {s : Str} (h : Matches Rule.INT s ∨ Matches Rule.SIGNED_INT s) :
    ∃ v, IntLiteral s v ∧ intNode s = some (.number (.int v) (some s)) := by
  obtain ⟨v, hv⟩ := matches_ANY_INT.1 (matches_alt.2 h)
  exact ⟨v, hv, by unfold intNode; rw [parseInt_literal hv]; rfl⟩

/-- float tokens convert, to the rational they spell -/
theorem floatNode_matches {s : Str} (h : Matches Rule.FLOAT s) :
    ∃ d, DecLiteral s d.toRat ∧ floatNode s = some (.number (.dec d) (some s)) := by
  obtain ⟨sg, ip, dot, fp, ex, k, e, rfl, h1, h2, h3, h4, h5, h6⟩ := matches_FLOAT h
  refine ⟨_, ⟨sg, ip, dot, fp, ex, k, e, rfl, h1, h2, h3, h4, h5, h6, decToRat_literal ?_⟩, ?_⟩
  · cases h1
    · exact Or.inl rfl
    · exact Or.inl rfl
    · exact Or.inr rfl
  · unfold floatNode
    rw [decParse_literal h1 h2 h3 h4 h5 h6]

/-- number tokens of a text always convert -/
theorem lexed_int {m : Mode} {s : Str} {ts : List Token} (h : Tokenises m s ts) {t : Token} (ht : t ∈ ts)
    (hk : t.kind = .INT ∨ t.kind = .SIGNED_INT) :
    ∃ v, IntLiteral t.text v ∧ intNode t.text = some (.number (.int v) (some t.text)) := by
  obtain ⟨m', r, mo, h1, h2⟩ := tokenises_rule h ht
  apply intNode_matches
  rcases hk with hk | hk
  · left; rw [← rules_int m' _ h1 hk]; exact h2
  · right; rw [← rules_signed m' _ h1 hk]; exact h2

theorem lexed_float {m : Mode} {s : Str} {ts : List Token} (h : Tokenises m s ts) {t : Token} (ht : t ∈ ts)
    (hk : t.kind = .FLOAT) : ∃ d, DecLiteral t.text d.toRat ∧ floatNode t.text = some (.number (.dec d) (some t.text)) := by
  obtain ⟨m', r, mo, h1, h2⟩ := tokenises_rule h ht
  apply floatNode_matches
  rw [← rules_float m' _ h1 hk]; exact h2

end Verif
