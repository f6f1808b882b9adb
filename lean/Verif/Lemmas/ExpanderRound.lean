import Verif.Lemmas.Expander
import Verif.Lemmas.Float
/-!
# Expanding products with decimals: how far the product can be off
-/

namespace Verif
open Spec
open Fl (Off Rounded)

/-- half a unit in the 28th digit -/
noncomputable def decU : ℝ := 1 / 2 * 10 ^ (-27 : ℤ)

theorem decU_nonneg : 0 ≤ decU := by unfold decU; positivity
theorem decU_lt : decU < 1 := by
  unfold decU
  norm_num

theorem coeffDigits_le {n k : Nat} (hk : 0 < k) : coeffDigits n ≤ k ↔ n < 10 ^ k := by
  unfold coeffDigits natStr
  exact Nat.length_toDigits_le_iff (by decide) hk

/-- a number of digits too many, cut off -/
theorem round_nat {c p q' : Nat} (hp : 0 < p)
    (hq : q' = if p < 2 * (c % p) ∨ (p = 2 * (c % p) ∧ (c / p) % 2 = 1) then c / p + 1 else c / p) :
    2 * (q' * p) ≤ 2 * c + p ∧ 2 * c ≤ 2 * (q' * p) + p := by
  have h1 := Nat.div_add_mod c p
  have h2 := Nat.mod_lt c hp
  rw [mul_comm] at h1
  have h3 : (c / p + 1) * p = c / p * p + p := by ring
  split at hq
  · rename_i h
    subst hq
    rw [h3]
    have : p ≤ 2 * (c % p) := by rcases h with h | h <;> omega
    constructor <;> omega
  · rename_i h
    subst hq
    have : 2 * (c % p) ≤ p := by
      by_contra hc
      exact h (Or.inl (by omega))
    constructor <;> omega

theorem dec_value (neg : Bool) (c : Nat) (e : Int) :
    ((Dec.toRat ⟨neg, c, e⟩ : Rat) : ℝ) = (if neg then -1 else 1) * (c : ℝ) * (10 : ℝ) ^ e := by
  rw [decToRat]
  cases neg <;> simp

theorem round_accuracy (d : Dec) : Rounded decU (d.toRat : ℝ) (d.round.toRat : ℝ) := by
  unfold Rounded
  by_cases hx : coeffDigits d.coeff - 28 = 0
  · have : d.round = d := by
      unfold Dec.round
      rw [if_pos hx]
    rw [this, sub_self, abs_zero]
    exact mul_nonneg decU_nonneg (abs_nonneg _)
  · obtain ⟨neg, c, e⟩ := d
    simp only at hx
    obtain ⟨x, hxe⟩ : ∃ x, coeffDigits c - 28 = x := ⟨_, rfl⟩
    have hpos : 0 < x := by omega
    have hlo : 10 ^ (27 + x) ≤ c := by
      by_contra hc
      have := (coeffDigits_le (n := c) (k := 27 + x) (by omega)).2 (by omega)
      omega
    have hhi : c < 10 ^ (28 + x) := (coeffDigits_le (by omega)).1 (by omega)
    have hp : 0 < 10 ^ x := pow_pos (by norm_num) x
    obtain ⟨q', hq'⟩ : ∃ q', q' = if 10 ^ x < 2 * (c % 10 ^ x) ∨ (10 ^ x = 2 * (c % 10 ^ x) ∧ (c / 10 ^ x) % 2 = 1) then c / 10 ^ x + 1
      else c / 10 ^ x := ⟨_, rfl⟩
    obtain ⟨k1, k2⟩ := round_nat hp hq'
    have hval : ((Dec.toRat (Dec.round ⟨neg, c, e⟩) : Rat) : ℝ) = (if neg then -1 else 1) * ((q' * 10 ^ x : Nat) : ℝ) * (10 : ℝ) ^ e := by
      unfold Dec.round
      simp only [hxe]
      rw [if_neg (by omega), ← hq']
      split
      · rw [dec_value, zpow_add₀ (by norm_num : (10 : ℝ) ≠ 0)]
        push_cast
        rw [zpow_natCast]
        ring
      · rename_i hd
        have h28 : 10 ^ 28 ≤ q' := by
          by_contra hc
          exact hd ((coeffDigits_le (by omega)).2 (by omega))
        have hle : q' ≤ 10 ^ 28 := by
          have : c / 10 ^ x < 10 ^ 28 := Nat.div_lt_of_lt_mul (by rw [← pow_add, add_comm]; exact hhi)
          rw [hq']
          split <;> omega
        have hq : q' = 10 * (q' / 10) := by
          have : q' = 10 ^ 28 := le_antisymm hle h28
          rw [this]; norm_num
        rw [dec_value, zpow_add₀ (by norm_num : (10 : ℝ) ≠ 0), zpow_add₀ (by norm_num : (10 : ℝ) ≠ 0), zpow_natCast]
        have hq2 : (q' : ℝ) = 10 * ((q' / 10 : Nat) : ℝ) := by exact_mod_cast hq
        push_cast at hq2 ⊢
        rw [hq2]
        ring
    rw [hval, dec_value]
    have hs : ∀ a b : ℝ, |(if neg = true then (-1 : ℝ) else 1) * a * (10 : ℝ) ^ e - (if neg = true then (-1 : ℝ) else 1) * b * (10 : ℝ) ^ e| =
        |a - b| * (10 : ℝ) ^ e := by
      intro a b
      have h10 : (0 : ℝ) < (10 : ℝ) ^ e := by positivity
      rw [← sub_mul, ← mul_sub, abs_mul, abs_mul, abs_of_pos h10]
      cases neg <;> simp
    have hs0 := hs (c : ℝ) 0
    simp only [mul_zero, zero_mul, sub_zero] at hs0
    rw [hs, hs0, ← mul_assoc]
    refine mul_le_mul_of_nonneg_right ?_ (by positivity)
    rw [abs_of_nonneg (Nat.cast_nonneg c : (0 : ℝ) ≤ (c : ℝ))]
    have hb : |((q' * 10 ^ x : Nat) : ℝ) - (c : ℝ)| ≤ 1 / 2 * (10 : ℝ) ^ x := by
      have k1' : (2 : ℝ) * ((q' * 10 ^ x : Nat) : ℝ) ≤ 2 * c + 10 ^ x := by exact_mod_cast k1
      have k2' : (2 : ℝ) * c ≤ 2 * ((q' * 10 ^ x : Nat) : ℝ) + 10 ^ x := by exact_mod_cast k2
      rw [abs_le]
      constructor <;> linarith
    refine le_trans hb ?_
    have hlo' : (10 : ℝ) ^ 27 * 10 ^ x ≤ c := by
      rw [← pow_add]; exact_mod_cast hlo
    have h27 : decU * (10 : ℝ) ^ 27 = 1 / 2 := by unfold decU; norm_num
    calc 1 / 2 * (10 : ℝ) ^ x = decU * ((10 : ℝ) ^ 27 * 10 ^ x) := by rw [← h27]; ring
      _ ≤ decU * c := mul_le_mul_of_nonneg_left hlo' decU_nonneg

theorem mulCtx_off (a b : Dec) : Off decU 1 ((a.toRat : ℝ) * (b.toRat : ℝ)) ((a.mulCtx b).toRat : ℝ) := by
  have h := Off.of_rounded decU_nonneg decU_lt (round_accuracy ⟨a.neg != b.neg, a.coeff * b.coeff, a.exp + b.exp⟩)
  have he : ((Dec.toRat ⟨a.neg != b.neg, a.coeff * b.coeff, a.exp + b.exp⟩ : Rat) : ℝ) = (a.toRat : ℝ) * (b.toRat : ℝ) := by
    obtain ⟨an, ac, ae⟩ := a
    obtain ⟨bn, bc, be⟩ := b
    rw [dec_value, dec_value, dec_value, zpow_add₀ (by norm_num : (10 : ℝ) ≠ 0)]
    cases an <;> cases bn <;> simp <;> ring
  rw [he] at h
  exact h

theorem powCtx_off {b r : Dec} {k : Nat} (h : b.powCtx k = .ok r) : Off decU 1 ((b.toRat : ℝ) ^ k) (r.toRat : ℝ) := by
  have he : ((Dec.toRat ⟨b.neg && k % 2 == 1, b.coeff ^ k, b.exp * k⟩ : Rat) : ℝ) = (b.toRat : ℝ) ^ k := by
    obtain ⟨bn, bc, be⟩ := b
    rw [dec_value, dec_value, mul_pow, mul_pow, zpow_mul, zpow_natCast]
    push_cast
    congr 2
    cases bn with
    | false => simp
    | true =>
      rcases Nat.mod_two_eq_zero_or_one k with h2 | h2
      · simp [h2, (Nat.even_iff.2 h2).neg_one_pow]
      · simp [h2, (Nat.odd_iff.2 h2).neg_one_pow]
  unfold Dec.powCtx at h
  simp only at h
  split at h
  · cases h
    rw [← he]
    exact Off.of_rounded decU_nonneg decU_lt (round_accuracy _)
  · split at h
    · cases h
      rw [he]
      exact Off.refl decU_nonneg decU_lt 1 _
    · cases h

/-- the roundings of a step -/
def stepCost : Node → Nat
  | .number (.dec _) _ => 2
  | _ => 0

theorem mulPow_off {v v' u : Num} {k : Nat} (h : v.mulPow v' k = .ok u) :
    Off decU (stepCost (.number v' none)) (numVal v * numVal v' ^ k) (numVal u) := by
  cases v with
  | int a =>
    cases v' with
    | int b =>
      cases h
      rw [numVal_int, numVal_int, numVal_int]
      push_cast
      exact Off.refl decU_nonneg decU_lt 0 _
    | _ => cases h
  | dec a =>
    cases v' with
    | dec b =>
      simp only [Num.mulPow, bind, Except.bind] at h
      cases hp : b.powCtx k with
      | error e => rw [hp] at h; cases h
      | ok x =>
        rw [hp] at h
        cases h
        have h1 : Off decU 1 ((a.toRat : ℝ) * (b.toRat : ℝ) ^ k) ((a.toRat : ℝ) * (x.toRat : ℝ)) := by
          have := Off.mul decU_nonneg decU_lt (Off.refl decU_nonneg decU_lt 0 (a.toRat : ℝ)) (powCtx_off hp)
          simpa using this
        exact Off.trans decU_nonneg decU_lt h1 (mulCtx_off a x)
    | _ => cases h
  | str s => cases v' <;> cases h

/-- terminals that do not stand for zero -/
def NzT : Node → Prop
  | .ident _ => True
  | .number (.int i) _ => numVal (.int i) ≠ 0
  | .number (.dec d) _ => numVal (.dec d) ≠ 0
  | _ => False

theorem nzT_isTerm (n : Node) (h : NzT n) : IsTerm n := by
  cases n with
  | number v raw => cases v <;> first | trivial | cases h
  | ident n => trivial
  | _ => cases h

theorem nzT_numVal {v : Num} {raw : Option Str} (h : NzT (.number v raw)) : numVal v ≠ 0 := by
  cases v with
  | int i => exact h
  | dec d => exact h
  | str s => exact h.elim

theorem nzW_number {σ : Str → ℝ} {hσ : ∀ n, σ n ≠ 0} {v : Num} {raw : Option Str} (h : NzT (.number v raw)) :
    (valW σ hσ (.number v raw) : ℝ) = numVal v := by
  simp only [valW, dif_neg (nzT_numVal h), Units.val_mk0]

theorem nzW_eq (σ : Str → ℝ) (hσ : ∀ n, σ n ≠ 0) (a b : Node) (ha : NzT a) (hb : NzT b) (h : termEq a b = true) :
    valW σ hσ a = valW σ hσ b := by
  cases a with
  | number v raw =>
    cases b with
    | number v' raw' =>
      simp only [termEq, Bool.and_eq_true] at h
      apply Units.ext
      rw [nzW_number ha, nzW_number hb]
      have hv := nzT_isTerm _ ha
      have hv' := nzT_isTerm _ hb
      refine numVal_pyEq ?_ ?_ h.1
      · cases v <;> first | trivial | cases hv
      · cases v' <;> first | trivial | cases hv'
    | _ => cases h
  | ident n =>
    cases b with
    | ident m => simp only [termEq, beq_iff_eq] at h; rw [h]
    | _ => cases h
  | _ => cases ha

theorem mulPow_nzT {v v' u : Num} {raw raw' : Option Str} {k : Nat} (h : v.mulPow v' k = .ok u) (ha : NzT (.number v raw))
    (hb : NzT (.number v' raw')) : NzT (.number u none) := by
  have hne : numVal u ≠ 0 := by
    obtain ⟨θ, e, hθ⟩ := Off.pos decU_nonneg decU_lt (mulPow_off h)
    rw [e]
    exact mul_ne_zero (mul_ne_zero (nzT_numVal ha) (pow_ne_zero _ (nzT_numVal hb))) hθ.ne'
  cases v with
  | int a =>
    cases v' with
    | int b => cases h; exact hne
    | _ => cases h
  | dec a =>
    cases v' with
    | dec b =>
      simp only [Num.mulPow, bind, Except.bind] at h
      cases hp : b.powCtx k with
      | error e => rw [hp] at h; cases h
      | ok x => rw [hp] at h; cases h; exact hne
    | _ => cases h
  | str s => exact ha.elim

section
variable {σ : Str → ℝ} {hσ : ∀ n, σ n ≠ 0}

/-- the value of a list of terms -/
noncomputable def termsVal (σ : Str → ℝ) (hσ : ∀ n, σ n ≠ 0) (ts : List Node) : ℝ := ((ts.map (termW (valW σ hσ))).prod : ℝˣ)

theorem expandStep_off {terms terms' : List Node} {node : Node} {k : Int} (ht : ∀ t ∈ terms, TermOk NzT t) (hn : NzT node)
    (h : expandStep terms node (.int k) = .ok terms') :
    (∀ t ∈ terms', TermOk NzT t) ∧
      Off decU (stepCost node) (termsVal σ hσ terms * (valW σ hσ node : ℝ) ^ k) (termsVal σ hσ terms') := by
  rcases expandStep_cases nzT_isTerm (nzW_eq σ hσ) ht hn h with ⟨h1, h2⟩ | ⟨v, r, v', r', j, u, rest, rfl, rfl, rfl, hl, hne, hm, rfl⟩
  · refine ⟨h1, ?_⟩
    unfold termsVal
    rw [h2, Units.val_mul, Units.val_zpow_eq_zpow_val]
    exact Off.refl decU_nonneg decU_lt _ _
  · have hu := mulPow_nzT hm hl hn
    refine ⟨?_, ?_⟩
    · intro t h'
      rcases List.mem_cons.1 h' with rfl | h'
      · exact Or.inl hu
      · exact ht t (List.mem_cons_of_mem _ h')
    · unfold termsVal
      rw [List.map_cons, List.prod_cons, List.map_cons, List.prod_cons, termW_term nzT_isTerm hu, termW_term nzT_isTerm hl,
        Units.val_mul, Units.val_mul, nzW_number hu, nzW_number hl, nzW_number hn, zpow_natCast]
      have h1 := mulPow_off hm
      have h2 := Off.mul decU_nonneg decU_lt h1 (Off.refl decU_nonneg decU_lt 0 ((rest.map (termW (valW σ hσ))).prod : ℝˣ).val)
      have hc : stepCost (.number v' none) + 0 = stepCost (.number v' r') := by cases v' <;> rfl
      rw [hc, mul_right_comm] at h2
      exact h2

/-- the roundings of a chain -/
def chainCost (c : Chain) : Nat := (c.map fun x => stepCost x.1).sum

theorem expandLoop_off {c : Chain} (hc : ChainOk NzT c) {terms terms' : List Node} (ht : ∀ t ∈ terms, TermOk NzT t)
    (h : expandLoop c terms = .ok terms') :
    (∀ t ∈ terms', TermOk NzT t) ∧
      Off decU (chainCost c) (termsVal σ hσ terms * (chainW (valW σ hσ) c : ℝˣ)) (termsVal σ hσ terms') := by
  induction c generalizing terms with
  | nil =>
    rw [expandLoop] at h
    cases h
    refine ⟨ht, ?_⟩
    simp only [chainW, Units.val_one, mul_one]
    exact Off.refl decU_nonneg decU_lt _ _
  | cons x c ih =>
    obtain ⟨node, k⟩ := x
    obtain ⟨hn, k, rfl⟩ := hc _ (List.mem_cons_self ..)
    rw [expandLoop] at h
    simp only [bind, Except.bind] at h
    cases hs : expandStep terms node (.int k) with
    | error e => rw [hs] at h; cases h
    | ok t1 =>
      rw [hs] at h
      obtain ⟨g1, g2⟩ := expandStep_off (σ := σ) (hσ := hσ) ht hn hs
      obtain ⟨g3, g4⟩ := ih (fun x hx => hc x (List.mem_cons_of_mem _ hx)) g1 h
      refine ⟨g3, ?_⟩
      have h1 := Off.mul decU_nonneg decU_lt g2 (Off.refl decU_nonneg decU_lt 0 (chainW (valW σ hσ) c : ℝˣ).val)
      have h2 := Off.trans decU_nonneg decU_lt h1 g4
      have hcost : stepCost node + 0 + chainCost c = chainCost ((node, PyVal.int k) :: c) := by simp [chainCost]
      rw [hcost, mul_assoc] at h2
      rw [chainW, Units.val_mul, Units.val_zpow_eq_zpow_val]
      exact h2

theorem nzT_eval {e : Node} (hp : Product e) (ht : ∀ q ∈ literals e, NzT (.number q.1 q.2)) :
    ((nodeW (valW σ hσ) e : ℝˣ) : ℝ) = evalNode σ e := by
  induction e with
  | number v raw => exact nzW_number (ht (v, raw) (List.mem_singleton.2 rfl))
  | ident n => simp [nodeW, valW, evalNode]
  | unhandled s => exact hp.elim
  | mul l r ihl ihr =>
    rw [nodeW, evalNode, Units.val_mul, ihl hp.1 (fun q h => ht q (List.mem_append_left _ h)),
      ihr hp.2 (fun q h => ht q (List.mem_append_right _ h))]
  | div l r ihl ihr =>
    rw [nodeW, evalNode, Units.val_div_eq_div_val, ihl hp.1 (fun q h => ht q (List.mem_append_left _ h)),
      ihr hp.2 (fun q h => ht q (List.mem_append_right _ h))]
  | raise l r ihl _ =>
    obtain ⟨hl, i, raw, rfl⟩ := hp
    rw [nodeW, evalNode, Units.val_zpow_eq_zpow_val, ihl hl ht]
  | shift u f _ _ => exact hp.elim
  | log b t _ => exact hp.elim
end

theorem chainCost_append (a b : Chain) : chainCost (a ++ b) = chainCost a + chainCost b := by simp [chainCost]

theorem chainCost_perm {a b : Chain} (h : a.Perm b) : chainCost a = chainCost b := (h.map _).sum_eq

theorem chainNeg_cost {c c' : Chain} (h : chainNeg c = .ok c') : chainCost c' = chainCost c := by
  induction c generalizing c' with
  | nil => cases h; rfl
  | cons x c ih =>
    obtain ⟨n, k⟩ := x
    cases k with
    | str s => cases h
    | int k =>
      simp only [chainNeg, bind, Except.bind] at h
      cases hc : chainNeg c with
      | error e => rw [hc] at h; cases h
      | ok c1 =>
        rw [hc] at h
        cases h
        have := ih hc
        simp only [chainCost, List.map_cons, List.sum_cons] at this ⊢
        rw [this]

theorem chainScale_cost {i : Num} {c c' : Chain} (h : chainScale i c = .ok c') : chainCost c' = chainCost c := by
  induction c generalizing c' with
  | nil => cases h; rfl
  | cons x c ih =>
    obtain ⟨n, k⟩ := x
    simp only [chainScale, bind, Except.bind] at h
    cases hv : i.asPyVal with
    | error e => rw [hv] at h; cases h
    | ok v =>
      rw [hv] at h
      simp only at h
      cases hk : PyVal.mul k v with
      | error e => rw [hk] at h; cases h
      | ok k' =>
        rw [hk] at h
        simp only at h
        cases hc : chainScale i c with
        | error e => rw [hc] at h; cases h
        | ok c1 =>
          rw [hc] at h
          cases h
          have := ih hc
          simp only [chainCost, List.map_cons, List.sum_cons] at this ⊢
          rw [this]

theorem expandChains_cost {e : Node} (hp : Product e) {c o : Chain} (h : expandChains e = .ok (c, o)) :
    chainCost c = 2 * decimals e := by
  induction e generalizing c o with
  | number v raw =>
    cases h
    cases v <;> rfl
  | ident n => cases h; rfl
  | unhandled s => exact hp.elim
  | mul l r ihl ihr =>
    obtain ⟨cl, hl, -, -⟩ := expander_terms hp.1
    obtain ⟨cr, hr, -, -⟩ := expander_terms hp.2
    simp only [expandChains, hl, hr, bind, Except.bind] at h
    cases h
    rw [chainCost_append, ihl hp.1 hl, ihr hp.2 hr]
    simp only [decimals, literals, List.countP_append]
    omega
  | div l r ihl ihr =>
    obtain ⟨cl, hl, -, -⟩ := expander_terms hp.1
    obtain ⟨cr, hr, hok, -⟩ := expander_terms hp.2
    obtain ⟨cn, hn, -⟩ := chainNeg_ok (expW []) hok
    simp only [expandChains, hl, hr, hn, bind, Except.bind] at h
    cases h
    rw [chainCost_append, ihl hp.1 hl, chainNeg_cost hn, ihr hp.2 hr]
    simp only [decimals, literals, List.countP_append]
    omega
  | raise l r ihl _ =>
    obtain ⟨h', i, raw, rfl⟩ := hp
    obtain ⟨cl, hl, hok, -⟩ := expander_terms h'
    obtain ⟨cs, hs, -⟩ := chainScale_ok (expW []) i hok
    simp only [expandChains, hl, hs, bind, Except.bind, chainScale] at h
    cases h
    rw [chainScale_cost hs, ihl h' hl]
    rfl
  | shift u f _ _ => exact hp.elim
  | log b t _ => exact hp.elim

theorem expander_off {σ : Str → ℝ} {e r : Node} (hp : Product e) (hz : Spec.NonZero σ e) (h : expand e = .ok r) :
    Off decU (2 * decimals e) (evalNode σ e) (evalNode σ r) := by
  have ht : AllT NzT e := by
    refine ⟨fun q hq => ?_, fun n => trivial⟩
    have h1 := product_int_dec hp q hq
    have h2 := hz.1 q hq
    obtain ⟨v, raw⟩ := q
    cases v with
    | int i => exact h2
    | dec d => exact h2
    | str s => exact h1.elim
  obtain ⟨c, hc, hok, hcw⟩ := expandChains_product (valW σ hz.2) hp ht
  have hone : NzT (.number (.int 1) none) := by
    show numVal (.int 1) ≠ 0
    rw [numVal_int]; norm_num
  have hone' : valW σ hz.2 (.number (.int 1) none) = 1 := by
    apply Units.ext; rw [nzW_number hone, numVal_int]; simp
  unfold expand expandWith at h
  simp only [hc, bind, Except.bind, List.nil_append, if_true] at h
  cases htm : Chain.terms c with
  | error e => rw [htm] at h; cases h
  | ok t =>
    rw [htm] at h
    have hr : t = r := Except.ok.inj h
    subst hr
    unfold Chain.terms at htm
    simp only [bind, Except.bind] at htm
    cases hl : expandLoop (sortedChain c) [] with
    | error e => rw [hl] at htm; cases htm
    | ok ts =>
      rw [hl] at htm
      cases htm
      have hc' : ChainOk NzT (sortedChain c) := fun x hx => hok x ((sortedChain_perm c).mem_iff.1 hx)
      obtain ⟨g1, g2⟩ := expandLoop_off (σ := σ) (hσ := hz.2) hc' (by simp) hl
      obtain ⟨g3, g4⟩ := productOf_product nzT_isTerm hone g1
      have hts : termsVal σ hz.2 [] = 1 := by simp [termsVal]
      rw [chainW_perm _ (sortedChain_perm c), chainCost_perm (sortedChain_perm c), expandChains_cost hp hc, hcw, hts, one_mul,
        nzT_eval hp ht.1] at g2
      rw [← nzT_eval (hσ := hz.2) g3 g4, nodeW_productOf nzT_isTerm hone' g1]
      exact g2

end Verif
