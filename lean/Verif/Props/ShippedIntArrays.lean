import Verif.Lemmas.ShippedWhole
import Verif.Props.IntArrays
/-!
# C84 on the shipped database
-/

namespace Verif
open Spec

theorem linear_quantity {u : ShippedUnit} (h : u.scale = .linear) (x : ℝ) : u.quantity x = x * u.factor := by
  unfold ShippedUnit.quantity
  rw [h]; rfl

/-- **C84** on the shipped database, loaded and used in any way: for two spellings of units that are multiples of the same
product of basis units, an array of integers is converted
* with integers, or not at all, if both spellings are among the 203 defined without decimal numbers and the factor is a whole number
  other than 1;
* to itself if both are and the factor is 1;
* in floats, each element as it would be on its own, in all other cases. -/
theorem C84_shipped (strict strict' : Bool) (o q o' q' : List Str → List Str) (ho : ∀ l, (o l).Perm l)
    (hq : ∀ l, (q l).Perm l) (ho' : ∀ l, (o' l).Perm l) (hq' : ∀ l, (q' l).Perm l)
    (s s' : System) (hs : parseSystem strict q Db.unitSystem = .ok s) (hs' : parseSystem strict' q' Db.unitSystem = .ok s')
    (hist hist' : List Query) (limit limit' : Nat) (hlim : 9 ≤ limit) (hlim' : 9 ≤ limit')
    (u v : ShippedUnit) (hu : u ∈ shipped) (hv : v ∈ shipped) (lu : u.scale = .linear) (lv : v.scale = .linear)
    (hpow : ∀ b, u.power b = v.power b) (n k : Str) (hn : n ∈ u.spellings) (hk : k ∈ v.spellings)
    (n1 : n ∉ Db.unusable) (n2 : n ∉ Db.mmHg) (n3 : n ∉ Db.untypeable)
    (k1 : k ∉ Db.unusable) (k2 : k ∉ Db.mmHg) (k3 : k ∉ Db.untypeable) :
    ∃ A B, (System.unit ⟨parse, o⟩ limit n (after ⟨parse, o⟩ hist s)).1 = .ok A ∧
      (System.unit ⟨parse, o'⟩ limit' k (after ⟨parse, o'⟩ hist' s')).1 = .ok B ∧
      ∀ (τ : Np.IntType) (xs : List Int), 0 < τ.bits →
      (n ∈ wholeSpellings → k ∈ wholeSpellings → ∀ c : Int, c ≠ 1 → u.factor = c * v.factor →
        (InType τ c → ∃ ys, Np.convertInts A B τ xs = .ok (.ints ys) ∧ List.Forall₂ (fun x y => Kept τ (c * x) y) xs ys) ∧
        (¬ InType τ c → Np.convertInts A B τ xs = .ok .refused)) ∧
      (n ∈ wholeSpellings → k ∈ wholeSpellings → u.factor = v.factor → Np.convertInts A B τ xs = .ok .same) ∧
      ((n ∉ wholeSpellings ∨ k ∉ wholeSpellings ∨ ∀ c : Int, u.factor ≠ c * v.factor) →
        Np.convertInts A B τ xs = .ok (.floats (xs.map fun (x : Int) => some (x * (u.factor / v.factor : ℝ))))) := by
  obtain ⟨A, B, hA, hB, hc, -⟩ := C54_shipped_conversions strict strict' o q o' q' ho hq ho' hq' s s' hs hs' hist hist' limit limit'
    hlim hlim' u v hu hv n k hn hk n1 n2 n3 k1 k2 k3
  obtain ⟨A', hA', sa, wa, pa⟩ := Db.unit_whole rfl ho hq hs hu lu hn n1 n2 n3 hist limit hlim
  obtain ⟨B', hB', sb, wb, pb⟩ := Db.unit_whole rfl ho' hq' hs' hv lv hk k1 k2 k3 hist' limit' hlim'
  rw [hA] at hA'; cases hA'
  rw [hB] at hB'; cases hB'
  have fu := Db.row_factor hu
  have fv := Db.row_factor hv
  have fv' : (v.factor : ℝ) ≠ 0 := by exact_mod_cast fv
  have hconv : ∀ x : ℝ, convert A B x = .ok (x * (u.factor / v.factor : ℝ)) := by
    intro x
    rw [hc hpow, linear_quantity lu, linear_quantity lv]
    field_simp
  refine ⟨A, B, hA, hB, fun τ xs hbits => ?_⟩
  clear hc hA hB
  rcases Np.convertInts_ops sa sb with ⟨e, h1, -⟩ | ⟨m, f1, f2, hm, g1, g2, ⟨hc, hr⟩ | ⟨hc, hr⟩⟩
  · have := (h1 0).symm.trans (hconv 0); cases this
  · have hq : (m.coef : ℝ) = (u.factor / v.factor : ℝ) := by
      have := Except.ok.inj ((hc 1).symm.trans (hconv 1)); simpa using this
    have hq : m.coef = u.factor / v.factor := by exact_mod_cast hq
    have m0 : m.coef ≠ 0 := by rw [hq]; exact div_ne_zero fu fv
    have hw : n ∈ wholeSpellings → k ∈ wholeSpellings → (f1 || f2) = false := fun h1 h2 => by
      rw [Np.whole_unit g1 (wa h1), Np.whole_unit g2 (wb h2)]; rfl
    refine ⟨fun h1 h2 c hc1 hcf => ?_, fun h1 h2 hcf => ?_, fun h => ?_⟩
    · have hmc : m.coef = (c : Rat) := by rw [hq, hcf, mul_div_cancel_right₀ _ fv]
      have c0 : c ≠ 0 := by intro h0; rw [hmc, h0] at m0; exact m0 Int.cast_zero
      have hcv : ∀ x : ℝ, convert A B x = .ok (c * x) := fun x => by rw [hc, hmc, Rat.cast_intCast]
      obtain ⟨w1, w2⟩ := C84_when sa sb (wa h1) (wb h2) hcv c0 hc1 hbits xs
      refine ⟨fun hi => ?_, w2⟩
      obtain ⟨ys, hys⟩ := w1 hi
      obtain ⟨c', hc', hk'⟩ := C84_integers sa sb hbits hys
      have : (c' : ℝ) = c := by
        have := Except.ok.inj ((hc' 1).symm.trans (hcv 1)); simpa using this
      have : c' = c := by exact_mod_cast this
      subst this
      exact ⟨ys, hys, hk'⟩
    · have hm1 : m.coef = 1 := by rw [hq, hcf, div_self fv]
      rw [hr, hw h1 h2, Np.runInts, if_neg m0, hm1]
      rfl
    · have hf : ((f1 || f2) || m.coef.den != 1) = true := by
        rcases h with h | h | h
        · rw [Np.point_unit (pa h)] at g1; cases g1; rfl
        · rw [Np.point_unit (pb h)] at g2; cases g2; rw [Bool.or_true]; rfl
        · have : m.coef.den ≠ 1 := by
            intro hd
            have he := (Rat.den_eq_one_iff m.coef).1 hd
            refine h m.coef.num ?_
            rw [he, hq, div_mul_cancel₀ _ fv]
          rw [bne_iff_ne.2 this, Bool.or_true]
      have hfl : Np.convertInts A B τ xs = .ok (.floats (xs.map fun (x : Int) => Np.step (.scale m) (some (x : ℝ)))) := by
        rw [hr, Np.runInts, if_neg m0, if_pos hf]
      rw [hfl, C84_floats sa sb hfl]
      have : (xs.map fun (x : Int) => convertedElement A B (some (x : ℝ))) = xs.map fun (x : Int) => some (x * (u.factor / v.factor : ℝ)) :=
        List.map_congr_left fun x _ => by show convertedElement A B (some (x : ℝ)) = _; simp only [convertedElement, hconv, Option.bind, Except.toOption]
      rw [this]
  · have := (hc 0).symm.trans (hconv 0)
    simp [runOps, COp.run, bind, Except.bind] at this

namespace Db
def rowB (n : Str) (f : Rat) (p : List (Str × Int)) (u : ShippedUnit) : Bool :=
  decide (n ∈ u.spellings) && decide (u.scale = .linear) && decide (u.factor = f) && decide (u.powers = p)

theorem rowB_spec {n : Str} {f : Rat} {p : List (Str × Int)} {l : List ShippedUnit} (h : l.any (rowB n f p) = true) :
    ∃ u ∈ l, n ∈ u.spellings ∧ u.scale = .linear ∧ u.factor = f ∧ u.powers = p := by
  obtain ⟨u, hu, h⟩ := List.any_eq_true.1 h
  unfold rowB at h
  simp only [Bool.and_eq_true, decide_eq_true_eq] at h
  exact ⟨u, hu, h.1.1.1, h.1.1.2, h.1.2, h.2⟩

theorem day_row : shipped.any (rowB c!"day" 86400 [(c!"second", 1)]) = true := by decide +kernel
theorem second_row : shipped.any (rowB c!"second" 1 [(c!"second", 1)]) = true := by decide +kernel
theorem day_second : (c!"day" ∉ unusable ∧ c!"day" ∉ mmHg ∧ c!"day" ∉ untypeable) ∧ (c!"second" ∉ unusable ∧ c!"second" ∉ mmHg ∧
    c!"second" ∉ untypeable) ∧ c!"day" ∈ wholeSpellings ∧ c!"second" ∈ wholeSpellings ∧ c!"inch" ∉ wholeSpellings := by decide +kernel
end Db

/-- **C84 (refuted), shipped.** In an array of 32-bit integers 30000 days are -1702967296 seconds; and an array of 16-bit integers is
not converted from days to seconds at all. -/
theorem C84_shipped_days_refuted (strict : Bool) (o q : List Str → List Str) (ho : ∀ l, (o l).Perm l) (hq : ∀ l, (q l).Perm l)
    (s : System) (hs : parseSystem strict q Db.unitSystem = .ok s) (hist hist' : List Query) (limit : Nat) (hlim : 9 ≤ limit) :
    ∃ A B, (System.unit ⟨parse, o⟩ limit c!"day" (after ⟨parse, o⟩ hist s)).1 = .ok A ∧
      (System.unit ⟨parse, o⟩ limit c!"second" (after ⟨parse, o⟩ hist' s)).1 = .ok B ∧
      Np.convertInts A B ⟨32, true⟩ [30000] = .ok (.ints [-1702967296]) ∧
      ∀ xs, Np.convertInts A B ⟨16, true⟩ xs = .ok .refused := by
  obtain ⟨u, hu, nu, lu, fu, pu⟩ := Db.rowB_spec Db.day_row
  obtain ⟨v, hv, nv, lv, fv, pv⟩ := Db.rowB_spec Db.second_row
  obtain ⟨⟨n1, n2, n3⟩, ⟨k1, k2, k3⟩, w1, w2, -⟩ := Db.day_second
  obtain ⟨A, B, hA, hB, h⟩ := C84_shipped strict strict o q o q ho hq ho hq s s hs hs hist hist' limit limit hlim hlim u v hu hv lu lv
    (fun b => by unfold ShippedUnit.power; rw [pu, pv]) _ _ nu nv n1 n2 n3 k1 k2 k3
  refine ⟨A, B, hA, hB, ?_, fun xs => ?_⟩
  · obtain ⟨ys, h1, h2⟩ := ((h ⟨32, true⟩ [30000] (by decide)).1 w1 w2 86400 (by decide) (by rw [fu, fv]; norm_num)).1
      (by simp [InType])
    rw [h1]
    cases h2 with
    | @cons _ y _ _ hy ht =>
      cases ht
      obtain ⟨hi, z, hz⟩ := hy
      replace hz : y = 86400 * 30000 + z * 4294967296 := by simpa using hz
      replace hi : -2147483648 ≤ y ∧ y < 2147483648 := by simpa [InType] using hi
      have : y = -1702967296 := by omega
      rw [this]
  · exact ((h ⟨16, true⟩ xs (by decide)).1 w1 w2 86400 (by decide) (by rw [fu, fv]; norm_num)).2 (by simp [InType])

end Verif
