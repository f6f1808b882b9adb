import Verif.Lemmas.FloatCheck
import Verif.Props.Float
/-!
# C71 for the shipped database
-/

namespace Verif
open Spec
open Fl (Converts)

/-- the offset of a row -/
def Spec.Scale.zero : Scale → Rat
  | .offset q => q
  | _ => 0

/-- the scale is a factor, or an offset and a factor -/
def Spec.Scale.affine : Scale → Prop
  | .linear | .offset _ => True
  | _ => False

namespace Db

theorem row_affine {r : Ref} {u : ShippedUnit} (h : r.IsRow u) (hs : u.scale.affine) :
    FloatConv.IsAffine r (u.scale.zero : Rat) (u.factor : Rat) := by
  obtain ⟨d, m, _, _, e, c, _⟩ := h
  intro t m' hm
  rw [e] at hm; cases hm
  rw [← c]
  cases hu : u.scale with
  | linear => exact .inl ⟨rfl, by simp [Scale.zero], rfl⟩
  | offset q => exact .inr ⟨q, rfl, rfl, rfl⟩
  | _ => rw [hu] at hs; exact hs.elim

theorem row_nonZero {r : Ref} {u : ShippedUnit} (h : r.IsRow u) (hu : u ∈ shipped) : NonZero (.unit r) := by
  obtain ⟨d, m, _, _, e, c, _⟩ := h
  exact ⟨_, m, e, by rw [c]; exact row_factor hu⟩

theorem few {a b : Ref} (h1 : unitRoundings a ≤ 21) (h2 : unitRoundings b ≤ 21) (s1 : unitSteps a ≤ 1) (s2 : unitSteps b ≤ 1) :
    conversionRoundings a b ≤ 55 := by
  have : (unitSteps a + unitSteps b + 1) ^ 2 ≤ 3 ^ 2 := Nat.pow_le_pow_left (by omega) 2
  unfold conversionRoundings
  omega

theorem relError_55 {u : ℝ} (h0 : 0 ≤ u) (hu : u ≤ 5e-15) : relError u 55 ≤ 3e-13 := by
  have h := C71_error_size h0 55 (by norm_num at hu ⊢; linarith)
  refine le_trans h ?_
  push_cast
  nlinarith

end Db

/-- **C71.** Convert between any two units of the shipped database that have the same powers of basis units and are not
logarithmic, with numbers rounded to 15 significant digits: the result is the exact one, with an error of at most `3·10⁻¹³`
of the numbers added up on the way. -/
theorem C71_shipped_conversions (strict strict' : Bool) (o q o' q' : List Str → List Str) (ho : ∀ l, (o l).Perm l)
    (hq : ∀ l, (q l).Perm l) (ho' : ∀ l, (o' l).Perm l) (hq' : ∀ l, (q' l).Perm l)
    (s s' : System) (hs : parseSystem strict q Db.unitSystem = .ok s) (hs' : parseSystem strict' q' Db.unitSystem = .ok s')
    (hist hist' : List Query) (limit limit' : Nat) (hlim : 9 ≤ limit) (hlim' : 9 ≤ limit')
    (u v : ShippedUnit) (hu : u ∈ shipped) (hv : v ∈ shipped) (n k : Str) (hn : n ∈ u.spellings) (hk : k ∈ v.spellings)
    (n1 : n ∉ Db.unusable) (n2 : n ∉ Db.mmHg) (n3 : n ∉ Db.untypeable)
    (k1 : k ∉ Db.unusable) (k2 : k ∉ Db.mmHg) (k3 : k ∉ Db.untypeable)
    (su : u.scale.affine) (sv : v.scale.affine) (hpow : ∀ b, u.power b = v.power b) (ε : ℝ) (h0 : 0 ≤ ε) (hε : ε ≤ 5e-15) :
    ∃ a b, (System.unit ⟨parse, o⟩ limit n (after ⟨parse, o⟩ hist s)).1 = .ok (.unit a) ∧
      (System.unit ⟨parse, o'⟩ limit' k (after ⟨parse, o'⟩ hist' s')).1 = .ok (.unit b) ∧
      ∀ x : ℝ, (∃ y, Converts ε a b x y) ∧ ∀ y, Converts ε a b x y →
        |y - ((x + u.scale.zero) * u.factor / v.factor - v.scale.zero)| ≤
          3e-13 * ((|x| + |(u.scale.zero : ℝ)|) * |(u.factor : ℝ) / v.factor| + |(v.scale.zero : ℝ)|) := by
  obtain ⟨pf, hpf⟩ : ∃ pf, pf = parse := ⟨_, rfl⟩
  rw [← hpf]
  obtain ⟨a, ha, ra, fa, sa⟩ := Db.unit_few hpf ho hq hs hu hn n1 n2 n3 hist limit hlim
  obtain ⟨b, hb, rb, fb, sb⟩ := Db.unit_few hpf ho' hq' hs' hv hk k1 k2 k3 hist' limit' hlim'
  have fu := Db.row_factor hu
  have fv := Db.row_factor hv
  refine ⟨_, _, ha, hb, fun x => ?_⟩
  have h1 : ε < 1 := lt_of_le_of_lt hε (by norm_num)
  have hfv : (v.factor : ℝ) ≠ 0 := by exact_mod_cast fv
  have hfu : (u.factor : ℝ) ≠ 0 := by exact_mod_cast fu
  -- the exact result
  have hexact : convert (.unit (.unit none (.ident n) [(n, a)])) (.unit (.unit none (.ident k) [(k, b)])) x =
      .ok ((x + u.scale.zero) * u.factor / v.factor - v.scale.zero) := by
    rw [convert_row (σ := true) ra rb ⟨_, _, _, rfl⟩ ⟨_, _, _, rfl⟩ fu fv
      (fun b => by unfold ShippedUnit.dim; rw [hpow])]
    refine ⟨?_, funext fun b => (hpow b).symm⟩
    have val : ∀ (w : ShippedUnit) (z : ℝ), w.scale.affine → w.scale.value z = z + (w.scale.zero : Rat) := by
      intro w z hw
      cases h : w.scale with
      | linear => simp [Scale.value, Scale.zero]
      | offset q => rfl
      | _ => rw [h] at hw; exact hw.elim
    show v.quantity _ = u.quantity x
    unfold ShippedUnit.quantity
    rw [val u _ su, val v _ sv]
    field_simp
    ring
  have hops := FloatConv.build_of hexact
  obtain ⟨ops, hops⟩ := hops
  refine ⟨⟨_, Fl.converts_exact h0 hops (Db.row_nonZero ra hu) hexact⟩, fun y hy => ?_⟩
  obtain ⟨d1, w1, p1⟩ := row_unit ra ⟨_, _, _, rfl⟩
  obtain ⟨d2, w2, p2⟩ := row_unit rb ⟨_, _, _, rfl⟩
  have main := (FloatConv.offset_core h0 h1 (Db.row_affine ra su) (Db.row_affine rb sv) hfu w1 w2
    (fun s => by rw [p1, p2]; unfold ShippedUnit.dim; rw [hpow]) hexact hy).2
  refine le_trans main (mul_le_mul_of_nonneg_right ?_ (by positivity))
  exact le_trans (Fl.relError_mono h0 h1 (Db.few fa fb sa sb)) (Db.relError_55 h0 hε)

/-- **C71.** …and for units without offsets of opposite powers (hertz to seconds), with an error of at most `3·10⁻¹³` of the
result. -/
theorem C71_shipped_reciprocals (strict strict' : Bool) (o q o' q' : List Str → List Str) (ho : ∀ l, (o l).Perm l)
    (hq : ∀ l, (q l).Perm l) (ho' : ∀ l, (o' l).Perm l) (hq' : ∀ l, (q' l).Perm l)
    (s s' : System) (hs : parseSystem strict q Db.unitSystem = .ok s) (hs' : parseSystem strict' q' Db.unitSystem = .ok s')
    (hist hist' : List Query) (limit limit' : Nat) (hlim : 9 ≤ limit) (hlim' : 9 ≤ limit')
    (u v : ShippedUnit) (hu : u ∈ shipped) (hv : v ∈ shipped) (n k : Str) (hn : n ∈ u.spellings) (hk : k ∈ v.spellings)
    (n1 : n ∉ Db.unusable) (n2 : n ∉ Db.mmHg) (n3 : n ∉ Db.untypeable)
    (k1 : k ∉ Db.unusable) (k2 : k ∉ Db.mmHg) (k3 : k ∉ Db.untypeable)
    (su : u.scale = .linear) (sv : v.scale = .linear) (hpow : ∀ b, v.power b = - u.power b) (hdim : ¬ ∀ b, u.dim b = v.dim b)
    (ε : ℝ) (h0 : 0 ≤ ε) (hε : ε ≤ 5e-15) :
    ∃ a b, (System.unit ⟨parse, o⟩ limit n (after ⟨parse, o⟩ hist s)).1 = .ok (.unit a) ∧
      (System.unit ⟨parse, o'⟩ limit' k (after ⟨parse, o'⟩ hist' s')).1 = .ok (.unit b) ∧
      ∀ x : ℝ, x ≠ 0 → (∃ y, Converts ε a b x y) ∧ ∀ y, Converts ε a b x y →
        |y - 1 / (x * u.factor * v.factor)| ≤ 3e-13 * |1 / (x * u.factor * v.factor)| := by
  obtain ⟨pf, hpf⟩ : ∃ pf, pf = parse := ⟨_, rfl⟩
  rw [← hpf]
  obtain ⟨a, ha, ra, fa, sa⟩ := Db.unit_few hpf ho hq hs hu hn n1 n2 n3 hist limit hlim
  obtain ⟨b, hb, rb, fb, sb⟩ := Db.unit_few hpf ho' hq' hs' hv hk k1 k2 k3 hist' limit' hlim'
  have fu := Db.row_factor hu
  have fv := Db.row_factor hv
  refine ⟨_, _, ha, hb, fun x hx => ?_⟩
  have h1 : ε < 1 := lt_of_le_of_lt hε (by norm_num)
  have hfv : (v.factor : ℝ) ≠ 0 := by exact_mod_cast fv
  have hfu : (u.factor : ℝ) ≠ 0 := by exact_mod_cast fu
  have hexact : convert (.unit (.unit none (.ident n) [(n, a)])) (.unit (.unit none (.ident k) [(k, b)])) x =
      .ok (1 / (x * u.factor * v.factor)) := by
    rw [convert_row (σ := false) ra rb ⟨_, _, _, rfl⟩ ⟨_, _, _, rfl⟩ fu fv
      ⟨hdim, fun b => by unfold ShippedUnit.dim; rw [hpow]; split <;> simp⟩]
    refine ⟨?_, ?_, funext hpow⟩
    · show u.quantity x ≠ 0
      unfold ShippedUnit.quantity
      rw [su]
      exact mul_ne_zero hx hfu
    · show v.quantity _ = (u.quantity x)⁻¹
      unfold ShippedUnit.quantity
      rw [su, sv]
      simp only [Scale.value]
      field_simp
  obtain ⟨ops, hops⟩ := FloatConv.build_of hexact
  refine ⟨⟨_, Fl.converts_exact h0 hops (Db.row_nonZero ra hu) hexact⟩, fun y hy => ?_⟩
  have nil : ∀ {r : Ref} {w : ShippedUnit}, r.IsRow w → w.scale = .linear → ∀ t m, r.symDef = .ok (t, m) → t = [] := by
    rintro r w ⟨d, m, _, _, e, _, _⟩ hw t m' hm
    rw [e, hw] at hm; cases hm; rfl
  refine le_trans (FloatConv.linear_core h0 h1 (Db.row_nonZero ra hu) (nil ra su) (nil rb sv) hexact hy)
    (mul_le_mul_of_nonneg_right ?_ (abs_nonneg _))
  exact le_trans (Fl.relError_mono h0 h1 (Db.few fa fb sa sb)) (Db.relError_55 h0 hε)

/-- the rows of the degree Fahrenheit, the kelvin, the hertz and the second: the hypotheses above hold for them -/
example : ∃ F ∈ shipped, ∃ K ∈ shipped, c!"degF" ∈ F.spellings ∧ c!"K" ∈ K.spellings ∧ F.scale.affine ∧ K.scale.affine ∧
    F.powers = K.powers ∧ F.scale.zero ≠ 0 := by
  obtain ⟨F, hF, h⟩ := List.any_eq_true.1 (show shipped.any (fun u => decide (c!"degF" ∈ u.spellings ∧ u.powers = [(c!"kelvin", 1)] ∧
    u.scale.zero ≠ 0)) = true by decide +kernel)
  obtain ⟨K, hK, h'⟩ := List.any_eq_true.1 (show shipped.any (fun u => decide (c!"K" ∈ u.spellings ∧ u.powers = [(c!"kelvin", 1)] ∧
    u.scale = .linear)) = true by decide +kernel)
  obtain ⟨f1, f2, f3⟩ := of_decide_eq_true h
  obtain ⟨g1, g2, g3⟩ := of_decide_eq_true h'
  refine ⟨F, hF, K, hK, f1, g1, ?_, by rw [g3]; trivial, by rw [f2, g2], f3⟩
  cases hs : F.scale with
  | linear => trivial
  | offset q => trivial
  | _ => rw [hs] at f3; exact absurd rfl f3

end Verif
