import Verif.Lemmas.FloatConvert
import Verif.Props.Convert
/-!
# C71: conversions computed with rounding

`Fl.Converts u a b x y` says that `Converter(a, b).convert(x)` can return `y` when every number on the way is rounded with
relative accuracy `u`; `convert (.unit a) (.unit b) x = .ok v` says that `v` is the exact result.
-/

namespace Verif
open Spec (relError conversionRoundings AffineScale)
open Fl (Converts)

namespace FloatConv

/-- the symbolic definition is a factor, or an offset and a factor -/
def IsAffine (a : Ref) (q f : ℝ) : Prop := ∀ (t : List TOp) (m : Mono), a.symDef = .ok (t, m) →
  (t = [] ∧ q = 0 ∧ f = m.coef) ∨ ∃ q' : Rat, t = [.sub q'] ∧ q = q' ∧ f = m.coef

theorem isAffine_of {a : Ref} {q f : ℝ} (ha : AffineScale a q f) : IsAffine a q f := fun _ _ h => Fl.affineScale_symDef ha h

theorem nonZero_of {a : Ref} {q f : ℝ} (ha : IsAffine a q f) (hf : f ≠ 0) {t : List TOp} {m : Mono} (hs : a.symDef = .ok (t, m)) :
    NonZero (.unit a) := by
  refine ⟨t, m, hs, fun h => hf ?_⟩
  rcases ha _ _ hs with ⟨_, _, e⟩ | ⟨_, _, _, e⟩ <;> rw [e, h] <;> simp

theorem build_of {a b : UObj} {x v : ℝ} (h : convert a b x = .ok v) : ∃ ops, Converter.build a b = .ok ops := by
  unfold convert at h
  cases hb : Converter.build a b with
  | error e => rw [hb] at h; cases h
  | ok ops => exact ⟨ops, rfl⟩

theorem offset_core {u : ℝ} (h0 : 0 ≤ u) (h1 : u < 1) {a b : Ref} {d d' : Dims} {q f q' f' x v y : ℝ}
    (ha : IsAffine a q f) (hb : IsAffine b q' f') (hf : f ≠ 0) (hda : UnitWithDims a d) (hdb : UnitWithDims b d')
    (hd : ∀ s, Dims.power s d = Dims.power s d') (hv : convert (.unit a) (.unit b) x = .ok v) (hy : Converts u a b x y) :
    v = (x + q) * f / f' - q' ∧
    |y - v| ≤ relError u (conversionRoundings a b) * ((|x| + |q|) * |f / f'| + |q'|) := by
  obtain ⟨ops, hops⟩ := FloatConv.build_of hv
  obtain ⟨fd, td, t1, d1, t2, d2, t1i, link, σ, e1, e2, e3, e4, e5, e6, e7, e8, e9⟩ := build_inv hops
  have hnz := FloatConv.nonZero_of ha hf e5
  have hrun := Fl.convert_run1 hops hnz hv
  obtain ⟨a1, a2⟩ := dimObj_of hda
  obtain ⟨b1, b2⟩ := dimObj_of hdb
  rw [a1] at e1; cases e1
  rw [b1] at e3; cases e3
  have hσ : σ = true := link_unique e4 ((link_proper a2 b2 true).2 hd)
  subst hσ
  obtain ⟨k, hk, rfl⟩ := e9
  have hkc : k.coef = d1.coef / d2.coef := (Mono.div_spec (obj_symDef_good e5).2 (obj_symDef_good e6).2 hk).2.1
  have kk : (k.coef : ℝ) = d1.coef / d2.coef := by rw [hkc]; push_cast; rfl
  have aff : Spec.OnlyAffine ops ∧ Fl.eval (ops.map Fl.toStep) x = (x + q) * f / f' - q' ∧
      Spec.absValue ops |x| = (|x| + |q|) * |f / f'| + |q'| := by
    rw [e8]
    rcases ha _ _ e5 with ⟨rfl, rfl, rfl⟩ | ⟨qa, rfl, rfl, rfl⟩ <;>
    rcases hb _ _ e6 with ⟨rfl, rfl, rfl⟩ | ⟨qb, rfl, rfl, rfl⟩ <;> cases e7
    · refine ⟨?_, ?_, ?_⟩
      · intro o ho; simp at ho; exact .inl ⟨_, ho⟩
      · simp [Fl.eval, Fl.toStep, kk]; ring
      · simp [Spec.absValue, kk]; ring
    · refine ⟨?_, ?_, ?_⟩
      · intro o ho; simp [TOp.forward] at ho
        rcases ho with ho | ho
        · exact .inl ⟨_, ho⟩
        · exact .inr ⟨_, ho⟩
      · simp [Fl.eval, Fl.toStep, kk, TOp.forward]; ring
      · simp [Spec.absValue, kk, TOp.forward]; ring
    · refine ⟨?_, ?_, ?_⟩
      · intro o ho; simp at ho
        rcases ho with ho | ho
        · exact .inr ⟨_, ho⟩
        · exact .inl ⟨_, ho⟩
      · simp [Fl.eval, Fl.toStep, kk]; ring
      · simp [Spec.absValue, kk]; ring
    · refine ⟨?_, ?_, ?_⟩
      · intro o ho; simp [TOp.forward] at ho
        rcases ho with ho | ho | ho
        · exact .inr ⟨_, ho⟩
        · exact .inl ⟨_, ho⟩
        · exact .inr ⟨_, ho⟩
      · simp [Fl.eval, Fl.toStep, kk, TOp.forward]; ring
      · simp [Spec.absValue, kk, TOp.forward]; ring
  obtain ⟨A1, A2, A3⟩ := aff
  have Aff := Fl.aff_of_only A1
  have ev := Fl.run1_eval Aff hrun
  have main := Fl.converts_direct h0 h1 hops A1 hy
  rw [Fl.absv_toStep Aff, A3, ev] at main
  refine ⟨by rw [← ev, A2], le_trans main (mul_le_mul_of_nonneg_right (Fl.relError_mono h0 h1 ?_) (by positivity))⟩
  unfold conversionRoundings; omega

theorem linear_core {u : ℝ} (h0 : 0 ≤ u) (h1 : u < 1) {a b : Ref} {x v y : ℝ} (hnz : NonZero (.unit a))
    (ha : ∀ t m, a.symDef = .ok (t, m) → t = []) (hb : ∀ t m, b.symDef = .ok (t, m) → t = []) (hv : convert (.unit a) (.unit b) x = .ok v) (hy : Converts u a b x y) :
    |y - v| ≤ relError u (conversionRoundings a b) * |v| := by
  obtain ⟨ops, hops⟩ := FloatConv.build_of hv
  obtain ⟨fd, td, t1, d1, t2, d2, t1i, link, σ, e1, e2, e3, e4, e5, e6, e7, e8, e9⟩ := build_inv hops
  have hrun := Fl.convert_run1 hops hnz hv
  have e5' : a.symDef = .ok (t1, d1) := e5
  have e6' : b.symDef = .ok (t2, d2) := e6
  obtain rfl := ha _ _ e5'
  obtain rfl := hb _ _ e6'
  cases e7
  cases σ with
  | true =>
    obtain ⟨k, hk, rfl⟩ := e9
    have A1 : Spec.OnlyAffine ops := by rw [e8]; intro o ho; simp at ho; exact .inl ⟨_, ho⟩
    have Aff := Fl.aff_of_only A1
    have main := Fl.converts_direct h0 h1 hops A1 hy
    rw [Fl.absv_toStep Aff, Fl.run1_eval Aff hrun] at main
    have hvv : v = k.coef * x := by
      rw [e8] at hrun
      exact (Except.ok.inj hrun).symm
    have : Spec.absValue ops |x| = |v| := by
      rw [e8, hvv, abs_mul]; rfl
    rw [this] at main
    refine le_trans main (mul_le_mul_of_nonneg_right (Fl.relError_mono h0 h1 ?_) (abs_nonneg v))
    unfold conversionRoundings; omega
  | false =>
    obtain ⟨k, hk, rfl⟩ := e9
    have main := Fl.converts_inverted h0 h1 e5' e6' hk e1 e3 e4.1 hy
    have hvv : v = k.coef * x⁻¹ := by
      rw [e8] at hrun
      simp only [List.nil_append, List.map_nil, List.append_nil] at hrun
      have hr : (do let z ← COp.recip.run1 x; run1 [COp.scale k] z) = .ok v := hrun
      simp only [COp.run1, COp.run] at hr
      split at hr
      · cases hr
      · exact (Except.ok.inj hr).symm
    rw [hvv]
    refine le_trans (Fl.Off.sub h0 h1 main) (mul_le_mul_of_nonneg_right (Fl.relError_mono h0 h1 ?_) (abs_nonneg _))
    have hs : 1 ≤ (Spec.unitSteps a + Spec.unitSteps b + 1) ^ 2 := Nat.one_le_pow _ _ (by omega)
    unfold conversionRoundings; omega

end FloatConv

/-- **C71.** Units with or without offsets, of the same dimensionality: the computed result differs from the exact one,
`(x + q) f / f' - q'`, by at most the relative error of the roundings times the same expression taken with absolute values. -/
theorem C71_offset_scales {u : ℝ} (h0 : 0 ≤ u) (h1 : u < 1) {a b : Ref} {d d' : Dims} {q f q' f' x v y : ℝ}
    (ha : AffineScale a q f) (hb : AffineScale b q' f') (hf : f ≠ 0) (hda : UnitWithDims a d) (hdb : UnitWithDims b d')
    (hd : ∀ s, Dims.power s d = Dims.power s d') (hv : convert (.unit a) (.unit b) x = .ok v) (hy : Converts u a b x y) :
    v = (x + q) * f / f' - q' ∧
    |y - v| ≤ relError u (conversionRoundings a b) * ((|x| + |q|) * |f / f'| + |q'|) :=
  FloatConv.offset_core h0 h1 (FloatConv.isAffine_of ha) (FloatConv.isAffine_of hb) hf hda hdb hd hv hy

/-- **C71.** Units without offsets (metres to feet, hertz to seconds): the computed result is the exact one, up to the
relative error of the roundings. -/
theorem C71_linear_units {u : ℝ} (h0 : 0 ≤ u) (h1 : u < 1) {a b : Ref} {x v y : ℝ} (ha : LinearUnit a) (hb : LinearUnit b)
    (hf : a.magnitude (fun _ => 1) ≠ 0) (hv : convert (.unit a) (.unit b) x = .ok v) (hy : Converts u a b x y) :
    |y - v| ≤ relError u (conversionRoundings a b) * |v| := by
  obtain ⟨ops, hops⟩ := FloatConv.build_of hv
  obtain ⟨_, _, t1, d1, _, _, _, _, _, _, _, _, _, e5, _⟩ := build_inv hops
  exact FloatConv.linear_core h0 h1 (FloatConv.nonZero_of (FloatConv.isAffine_of (.linear ha)) hf e5)
    (fun _ _ h => (linear_symDef ha h).1) (fun _ _ h => (linear_symDef hb h).1) hv hy

/-- the steps of a direct conversion -/
theorem FloatConv.direct_parts {u : ℝ} (h0 : 0 ≤ u) (h1 : u < 1) {a b : Ref} {d d' : Dims} {x v y : ℝ}
    (hda : UnitWithDims a d) (hdb : UnitWithDims b d') (hd : ∀ s, Dims.power s d = Dims.power s d')
    {t1 t2 : List TOp} {d1 d2 : Mono} (e5 : a.symDef = .ok (t1, d1)) (e6 : b.symDef = .ok (t2, d2)) (c1 : d1.coef ≠ 0)
    (hv : convert (.unit a) (.unit b) x = .ok v) (hy : Converts u a b x y) :
    ∃ k t1i, d1.div d2 = .ok k ∧ invertAll t1 = .ok t1i ∧ run1 (t1i ++ [COp.scale k] ++ t2.map TOp.forward) x = .ok v ∧
      ∃ n1 n2 o₁ o₂ c₁ c₂ i kk i₁ l l' n, Fl.Off u n1 d1.coef c₁ ∧ Fl.Off u n2 d2.coef c₂ ∧
        n1 + n2 + 3 * t1.length + 3 * t2.length ≤ Spec.unitRoundings a + Spec.unitRoundings b ∧
        (∃ m, Fl.Match u m t1 o₁) ∧ (∃ m, Fl.Match u m t2 o₂) ∧ Fl.Inverted u o₁ i₁ ∧
        Fl.Rounded u c₂⁻¹ i ∧ Fl.Rounded u (c₁ * i) kk ∧ Fl.Rearranged u n (i₁ ++ [.scale kk] ++ o₂.map Fl.Op.forward) l ∧
        Fl.Printed u l l' ∧ Fl.Run u l' x y := by
  obtain ⟨ops, hops⟩ := FloatConv.build_of hv
  obtain ⟨fd, td, t1', d1', t2', d2', t1i, link, σ, e1, e2, e3, e4, e5', e6', e7, e8, e9⟩ := build_inv hops
  rw [show (UObj.unit a).symDef = .ok (t1, d1) from e5] at e5'; cases e5'
  rw [show (UObj.unit b).symDef = .ok (t2, d2) from e6] at e6'; cases e6'
  have hrun := Fl.convert_run1 hops ⟨t1, d1, e5, c1⟩ hv
  obtain ⟨a1, a2⟩ := dimObj_of hda
  obtain ⟨b1, b2⟩ := dimObj_of hdb
  rw [a1] at e1; cases e1
  rw [b1] at e3; cases e3
  have hσ : σ = true := link_unique e4 ((link_proper a2 b2 true).2 hd)
  subst hσ
  obtain ⟨k, hk, rfl⟩ := e9
  rw [e8] at hrun
  refine ⟨k, t1i, hk, e7, hrun, ?_⟩
  obtain ⟨f1, f2, f3, s1, s2, inv, lk, re, pr, rn⟩ := hy
  rename_i fd td direct o₁ o₂ c₁ c₂ i₁ lnk l l' n
  rw [a1] at f1; cases f1
  rw [b1] at f2; cases f2
  have hd : direct = true := by rw [← f3]; exact e4
  subst hd
  obtain ⟨k1, n1, m1, of1, le1, len1⟩ := Fl.symDef_match h0 h1 s1 e5
  obtain ⟨k2, n2, m2, of2, le2, len2⟩ := Fl.symDef_match h0 h1 s2 e6
  cases lk with
  | @direct _ _ i kk hi hkk =>
    exact ⟨n1, n2, o₁, o₂, c₁, c₂, i, kk, i₁, l, l', n, of1, of2, by omega, ⟨_, m1⟩, ⟨_, m2⟩, inv, hi, hkk, re, pr, rn⟩

/-- **C71.** To a logarithmic unit (watts to dBm): the absolute error of the logarithm is the relative error of its argument,
in units of the base, and the result is rounded. -/
theorem C71_to_logarithmic {u : ℝ} (h0 : 0 ≤ u) (h1 : u < 1) {a b : Ref} {d d' : Dims} {base : Option Nat} {f x v y : ℝ}
    (ha : LinearUnit a) (hf : a.magnitude (fun _ => 1) ≠ 0) (hb : Spec.LogScale b base f) (hda : UnitWithDims a d)
    (hdb : UnitWithDims b d') (hd : ∀ s, Dims.power s d = Dims.power s d')
    (hv : convert (.unit a) (.unit b) x = .ok v) (hy : Converts u a b x y) :
    |y - v| ≤ relError u 3 * |v| + ((1 - u) ^ 3)⁻¹ * (Spec.logError u (conversionRoundings a b) / Spec.lnOf base) := by
  obtain ⟨ops, hops⟩ := FloatConv.build_of hv
  obtain ⟨fd, td, t1, d1, t2, d2, t1i, link, σ, e1, e2, e3, e4, e5, e6, e7, e8, e9⟩ := build_inv hops
  have e5' : a.symDef = .ok (t1, d1) := e5
  have e6' : b.symDef = .ok (t2, d2) := e6
  obtain ⟨t, m, g1, c1⟩ := FloatConv.nonZero_of (FloatConv.isAffine_of (.linear ha)) hf e5'
  rw [e5] at g1; cases g1
  obtain ⟨rfl, _⟩ := linear_symDef ha e5'
  obtain ⟨rfl, _⟩ := Fl.logScale_symDef hb e6'
  have hbase := Fl.logScale_base hb
  obtain ⟨k, t1i', hk, hi, hrun, n1, n2, o₁, o₂, c₁, c₂, i, kk, i₁, l, l', n, of1, of2, hn, ⟨_, m1⟩, ⟨_, m2⟩, inv, ri, rk, re,
    pr, rn⟩ := FloatConv.direct_parts h0 h1 hda hdb hd e5' e6' c1 hv hy
  cases hi
  cases m1
  cases inv
  cases m2 with
  | log _ m2 =>
    cases m2
    have hl := Fl.rearranged_scale_log re
    subst hl
    cases pr with
    | @scale _ _ _ c hc pr =>
      cases pr with
      | log _ pr =>
        cases pr
        have of := Fl.link_off h0 h1 hk (obj_symDef_good e5).2 (obj_symDef_good e6).2 of1 of2 ri rk hc
        cases rn with
        | @scale _ _ _ w _ hw rn =>
          cases rn with
          | log hpos hg hkb hyy rn =>
            cases rn
            have hrun' : (if 0 < (k.coef : ℝ) * x then (.ok (Real.log (k.coef * x) / lnBase base) : Py ℝ) else .error .domainError) =
                .ok v := by
              have h2 : (do let z ← (COp.log base).run1 ((k.coef : ℝ) * x); run1 [] z) = .ok v := hrun
              simp only [COp.run1, COp.run] at h2
              split at h2
              · rename_i hp; rw [if_pos hp]; exact h2
              · cases h2
            split at hrun'
            · rename_i hp
              have hv' := Except.ok.inj hrun'
              have o : Fl.Off u (n1 + (n2 + 1) + 1 + 1 + 0 + 1) ((k.coef : ℝ) * x) w :=
                Fl.Off.trans h0 h1 (Fl.Off.mul h0 h1 of (Fl.Off.refl h0 h1 0 x)) (Fl.Off.of_rounded h0 h1 hw)
              have hle := le_trans (Fl.Off.log h0 h1 o hp) (Fl.logError_mono h0 h1 (n := conversionRoundings a b) (by
                have hs : 1 ≤ (Spec.unitSteps a + Spec.unitSteps b + 1) ^ 2 := Nat.one_le_pow _ _ (by omega)
                unfold conversionRoundings; omega))
              rw [← hv', Fl.lnOf_eq]
              exact Fl.log_step h0 h1 hbase hle hg hkb hyy rfl
            · cases hrun'

/-- **C71.** From a logarithmic unit (dBm to watts): the result is the exact one, up to the roundings and up to the error of
the exponent, which is relative to the exponent. -/
theorem C71_from_logarithmic {u : ℝ} (h0 : 0 ≤ u) (h1 : u < 1) {a b : Ref} {d d' : Dims} {base : Option Nat} {f x v y : ℝ}
    (ha : Spec.LogScale a base f) (hf : f ≠ 0) (hb : LinearUnit b) (hda : UnitWithDims a d)
    (hdb : UnitWithDims b d') (hd : ∀ s, Dims.power s d = Dims.power s d')
    (hv : convert (.unit a) (.unit b) x = .ok v) (hy : Converts u a b x y) :
    |y - v| ≤ (((1 - u) ^ conversionRoundings a b)⁻¹ * Real.exp (relError u 2 * |x * Spec.lnOf base|) - 1) * |v| := by
  obtain ⟨ops, hops⟩ := FloatConv.build_of hv
  obtain ⟨fd, td, t1, d1, t2, d2, t1i, link, σ, e1, e2, e3, e4, e5, e6, e7, e8, e9⟩ := build_inv hops
  have e5' : a.symDef = .ok (t1, d1) := e5
  have e6' : b.symDef = .ok (t2, d2) := e6
  obtain ⟨rfl, hf'⟩ := Fl.logScale_symDef ha e5'
  obtain ⟨rfl, _⟩ := linear_symDef hb e6'
  have c1 : d1.coef ≠ 0 := by intro h; rw [h] at hf'; exact hf (by simpa using hf')
  obtain ⟨k, t1i', hk, hi, hrun, n1, n2, o₁, o₂, c₁, c₂, i, kk, i₁, l, l', n, of1, of2, hn, ⟨_, m1⟩, ⟨_, m2⟩, inv, ri, rk, re,
    pr, rn⟩ := FloatConv.direct_parts h0 h1 hda hdb hd e5' e6' c1 hv hy
  cases hi
  cases m2
  cases m1 with
  | log _ m1 =>
    cases m1
    cases inv with
    | log inv =>
      cases inv
      have hl := Fl.rearranged_exp_scale re
      subst hl
      cases pr with
      | exp _ pr =>
        cases pr with
        | @scale _ _ _ c hc pr =>
          cases pr
          have of := Fl.link_off h0 h1 hk (obj_symDef_good e5).2 (obj_symDef_good e6).2 of1 of2 ri rk hc
          cases rn with
          | exp hkb hw hyy rn =>
            cases rn with
            | @scale _ _ _ z _ hz rn =>
              cases rn
              obtain ⟨ε, he, oe⟩ := Fl.exp_step h0 h1 hkb hw hyy
              have hv' : v = k.coef * Real.exp (x * lnBase base) := (Except.ok.inj hrun).symm
              have o := Fl.Off.trans h0 h1 (Fl.Off.mul h0 h1 of oe) (Fl.Off.of_rounded h0 h1 hz)
              have o' := Fl.Off.mono h0 h1 (n := conversionRoundings a b) (by
                have hs : 1 ≤ (Spec.unitSteps a + Spec.unitSteps b + 1) ^ 2 := Nat.one_le_pow _ _ (by omega)
                unfold conversionRoundings; omega) o
              rw [← mul_assoc, ← hv'] at o'
              obtain ⟨θ, e, t1, t2⟩ := o'
              rw [Fl.lnOf_eq]
              have hx : y - v = (Real.exp ε * θ - 1) * v := by rw [e]; ring
              rw [hx, abs_mul]
              refine mul_le_mul_of_nonneg_right ?_ (abs_nonneg v)
              set E := relError u 2 * |x * lnBase base|
              set P := (1 - u) ^ conversionRoundings a b
              have hP : 0 < P := Fl.base_pos h0 h1 _
              have hθ := lt_of_lt_of_le hP t1
              obtain ⟨ea, eb⟩ := abs_le.1 he
              have p1 : Real.exp ε * θ ≤ P⁻¹ * Real.exp E := by
                rw [mul_comm]
                exact mul_le_mul t2 (Real.exp_le_exp.2 eb) (Real.exp_pos _).le (inv_nonneg.2 hP.le)
              have p2 : (P⁻¹ * Real.exp E)⁻¹ ≤ Real.exp ε * θ := by
                rw [mul_inv, inv_inv, ← Real.exp_neg, mul_comm]
                exact mul_le_mul (Real.exp_le_exp.2 ea) t1 hP.le (Real.exp_pos _).le
              have q1 : 1 ≤ P⁻¹ * Real.exp E := by
                have hE : 0 ≤ E := le_trans (abs_nonneg ε) he
                have : 1 ≤ P⁻¹ := (one_le_inv₀ hP).2 (Fl.base_le h0 h1 _)
                have : 1 ≤ Real.exp E := Real.one_le_exp hE
                nlinarith
              generalize P⁻¹ * Real.exp E = G at p1 p2 q1 ⊢
              have q2 : 2 - G ≤ G⁻¹ := by
                rw [inv_eq_one_div, le_div_iff₀ (by linarith)]
                nlinarith [sq_nonneg (G - 1)]
              rw [abs_le]
              constructor <;> linarith

/-- **C71.** Between logarithmic units (dBm to dBW): both errors. -/
theorem C71_between_logarithmic {u : ℝ} (h0 : 0 ≤ u) (h1 : u < 1) {a b : Ref} {d d' : Dims} {base base' : Option Nat}
    {f f' x v y : ℝ} (ha : Spec.LogScale a base f) (hf : f ≠ 0) (hb : Spec.LogScale b base' f') (hda : UnitWithDims a d)
    (hdb : UnitWithDims b d') (hd : ∀ s, Dims.power s d = Dims.power s d')
    (hv : convert (.unit a) (.unit b) x = .ok v) (hy : Converts u a b x y) :
    |y - v| ≤ relError u 3 * |v| + ((1 - u) ^ 3)⁻¹ *
      ((Spec.logError u (conversionRoundings a b) + relError u 2 * |x * Spec.lnOf base|) / Spec.lnOf base') := by
  obtain ⟨ops, hops⟩ := FloatConv.build_of hv
  obtain ⟨fd, td, t1, d1, t2, d2, t1i, link, σ, e1, e2, e3, e4, e5, e6, e7, e8, e9⟩ := build_inv hops
  have e5' : a.symDef = .ok (t1, d1) := e5
  have e6' : b.symDef = .ok (t2, d2) := e6
  obtain ⟨rfl, hf'⟩ := Fl.logScale_symDef ha e5'
  obtain ⟨rfl, _⟩ := Fl.logScale_symDef hb e6'
  have hbase := Fl.logScale_base hb
  have c1 : d1.coef ≠ 0 := by intro h; rw [h] at hf'; exact hf (by simpa using hf')
  obtain ⟨k, t1i', hk, hi, hrun, n1, n2, o₁, o₂, c₁, c₂, i, kk, i₁, l, l', n, of1, of2, hn, ⟨_, m1⟩, ⟨_, m2⟩, inv, ri, rk, re,
    pr, rn⟩ := FloatConv.direct_parts h0 h1 hda hdb hd e5' e6' c1 hv hy
  cases hi
  cases m1 with
  | log _ m1 =>
    cases m1
    cases m2 with
    | log _ m2 =>
      cases m2
      cases inv with
      | log inv =>
        cases inv
        have hl := Fl.rearranged_exp_scale_log re
        subst hl
        cases pr with
        | exp _ pr =>
          cases pr with
          | @scale _ _ _ c hc pr =>
            cases pr with
            | log _ pr =>
              cases pr
              have of := Fl.link_off h0 h1 hk (obj_symDef_good e5).2 (obj_symDef_good e6).2 of1 of2 ri rk hc
              cases rn with
              | exp hkb hw hyy rn =>
                cases rn with
                | @scale _ _ _ z _ hz rn =>
                  cases rn with
                  | log hpos hg hkb' hyy' rn =>
                    cases rn
                    obtain ⟨ε, he, oe⟩ := Fl.exp_step h0 h1 hkb hw hyy
                    set X := (k.coef : ℝ) * Real.exp (x * lnBase base) with hX
                    have hrun' : (if 0 < X then (.ok (Real.log X / lnBase base') : Py ℝ) else .error .domainError) =
                        .ok v := by
                      have h2 : (do let z ← (COp.log base').run1 X; run1 [] z) = .ok v := hrun
                      simp only [COp.run1, COp.run] at h2
                      split at h2
                      · rename_i hp; rw [if_pos hp]; exact h2
                      · cases h2
                    split at hrun'
                    · rename_i hp
                      have hv' := Except.ok.inj hrun'
                      have o := Fl.Off.trans h0 h1 (Fl.Off.mul h0 h1 of oe) (Fl.Off.of_rounded h0 h1 hz)
                      have o' := Fl.Off.mono h0 h1 (n := conversionRoundings a b) (by
                        have hs : 1 ≤ (Spec.unitSteps a + Spec.unitSteps b + 1) ^ 2 := Nat.one_le_pow _ _ (by omega)
                        unfold conversionRoundings; omega) o
                      rw [← mul_assoc, ← hX] at o'
                      have hle := Fl.Off.log h0 h1 o' (mul_pos hp (Real.exp_pos ε))
                      rw [Real.log_mul hp.ne' (Real.exp_pos ε).ne', Real.log_exp] at hle
                      have hle2 : |Real.log z - Real.log X| ≤
                          Spec.logError u (conversionRoundings a b) + relError u 2 * |x * lnBase base| := by
                        have := abs_sub_le (Real.log z) (Real.log X + ε) (Real.log X)
                        rw [add_sub_cancel_left] at this
                        linarith
                      rw [← hv', Fl.lnOf_eq, Fl.lnOf_eq]
                      exact Fl.log_step h0 h1 hbase hle2 hg hkb' hyy' rfl
                    · cases hrun'

/-- **C71.** The size of the error: `n` roundings of accuracy `u` are worth `n u`, and a little more. -/
theorem C71_error_size {u : ℝ} (h0 : 0 ≤ u) (n : Nat) (hn : 2 * (n * u) ≤ 1) : relError u n ≤ n * u * (1 + 2 * (n * u)) := by
  have hb : 1 - n * u ≤ (1 - u) ^ n := by
    have hu : u ≤ 1 ∨ n = 0 := by
      rcases Nat.eq_zero_or_pos n with h | h
      · exact .inr h
      · left
        have : (1 : ℝ) ≤ n := by exact_mod_cast h
        nlinarith
    rcases hu with hu | rfl
    · have := one_add_mul_le_pow (a := -u) (by linarith) n
      calc 1 - n * u = 1 + n * -u := by ring
        _ ≤ (1 + -u) ^ n := this
        _ = (1 - u) ^ n := by ring
    · simp
  have hpos : (0 : ℝ) < 1 - n * u := by linarith
  have hnu : 0 ≤ n * u := mul_nonneg (Nat.cast_nonneg n) h0
  have h2 : ((1 - u) ^ n)⁻¹ ≤ (1 - n * u)⁻¹ := inv_anti₀ hpos hb
  have h3 : (1 - n * u)⁻¹ ≤ 1 + n * u * (1 + 2 * (n * u)) := by
    rw [inv_eq_one_div, div_le_iff₀ hpos]
    nlinarith [mul_nonneg hnu hnu]
  unfold Spec.relError
  linarith

/-- **C71.** Likewise for logarithms. -/
theorem C71_log_error_size {u : ℝ} (h0 : 0 ≤ u) (hu : 2 * u ≤ 1) (n : Nat) : Spec.logError u n ≤ n * u * (1 + 2 * u) := by
  have hp : 0 < 1 - u := by linarith
  have h := Real.one_sub_inv_le_log_of_pos hp
  have h2 : (1 - u)⁻¹ - 1 ≤ u * (1 + 2 * u) := by
    have : (1 - u)⁻¹ ≤ 1 + u * (1 + 2 * u) := by
      rw [inv_eq_one_div, div_le_iff₀ hp]
      nlinarith [mul_nonneg h0 h0]
    linarith
  unfold Spec.logError
  rw [mul_assoc]
  exact mul_le_mul_of_nonneg_left (by linarith) (Nat.cast_nonneg n)

/-- **C71.** The rounded computations include the exact one, for every pair of units (logarithmic ones too). -/
theorem C71_exact_included {u : ℝ} (h0 : 0 ≤ u) {a b : Ref} (ha : Constructible (.unit a) (.unit a)) {x v : ℝ}
    (hv : convert (.unit a) (.unit b) x = .ok v) : Converts u a b x v := by
  obtain ⟨ops, hops⟩ := FloatConv.build_of hv
  obtain ⟨ops', hops'⟩ := ha
  obtain ⟨_, _, _, _, _, _, _, hnz, _⟩ := build_facts hops'
  exact Fl.converts_exact h0 hops hnz hv

/-- degrees Celsius to kelvin, and seconds to hertz, in double precision (`u = 2⁻⁵³`, say): the hypotheses of the theorems
above hold, the number of roundings is small, and there are computed results. -/
example : ∃ f f', AffineScale Demo.degC 273.15 f ∧ f ≠ 0 ∧ AffineScale (Demo.u (.ident c!"K")) 0 f' ∧
    UnitWithDims Demo.degC [(Demo.kelvin, 1)] ∧ UnitWithDims (Demo.u (.ident c!"K")) [(Demo.kelvin, 1)] ∧
    conversionRoundings Demo.degC (Demo.u (.ident c!"K")) = 12 ∧
    ∃ v, convert (.unit Demo.degC) (.unit (Demo.u (.ident c!"K"))) 20 = .ok v ∧ Converts (2⁻¹ ^ 53) Demo.degC (Demo.u (.ident c!"K")) 20 v := by
  have hq : ((27315 / 100 : Rat) : ℝ) = 273.15 := by norm_num
  have h1 : (Demo.u (.ident c!"K")).magnitude (fun _ => 1) = 1 := by
    simp [Demo.u, Ref.magnitude, Demo.ref2, evalNode, get_magnitudes, Dict.get]
  have hc : Constructible (.unit (Demo.u (.ident c!"K"))) (.unit (Demo.u (.ident c!"K"))) :=
    ⟨[.scale ⟨1, []⟩], by decide +kernel⟩
  have hv := (C20_shift_adds_its_offset (n1 := none) (n2 := none) (k := .dec ⟨false, 27315, -2⟩) (raw := none) (q := 27315 / 100)
    (u := .ident c!"K") (refs := Demo.ref2) (d := [(Demo.kelvin, 1)]) (Demo.linear trivial) (by decide +kernel) (by decide +kernel)
    hc 20).1
  have ha : AffineScale Demo.degC 273.15 ((Ref.unit none (.ident c!"K") Demo.ref2).magnitude fun _ => 1) := by
    rw [← hq]; exact .shift (Demo.linear trivial) (by decide +kernel)
  refine ⟨_, _, ha, ?_, .linear (Demo.linear trivial),
    ⟨⟨_, _, _, rfl⟩, by decide +kernel⟩, ⟨⟨_, _, _, rfl⟩, by decide +kernel⟩, by decide +kernel, _, hv,
    C71_exact_included (by positivity) ⟨[.add (27315/100), .scale ⟨1, []⟩, .add (-27315/100)], by decide +kernel⟩ hv⟩
  rw [show Ref.unit none (.ident c!"K") Demo.ref2 = Demo.u (.ident c!"K") from rfl, h1]
  exact one_ne_zero

example : LinearUnit Demo.s ∧ LinearUnit Demo.hz ∧ Demo.s.magnitude (fun _ => 1) ≠ 0 ∧ conversionRoundings Demo.s Demo.hz = 8 ∧
    convert (.unit Demo.s) (.unit Demo.hz) 4 = .ok (1 / 4) ∧ Converts (2⁻¹ ^ 53) Demo.s Demo.hz 4 (1 / 4) := by
  have h1 : Demo.s.magnitude (fun _ => 1) = 1 := by
    simp [Demo.s, Demo.u, Ref.magnitude, Demo.ref2, evalNode, get_magnitudes, Dict.get]
  have hv : convert (.unit Demo.s) (.unit Demo.hz) 4 = .ok (1 / 4) := by
    rw [convert_runs (ops := [.recip, .scale ⟨1, []⟩]) (ops' := [.recip, .scale ⟨1, []⟩])]
    all_goals first | decide +kernel | skip
    simp [runOps, COp.run]; rfl
  exact ⟨Demo.linear trivial, Demo.linear ⟨trivial, trivial⟩, by rw [h1]; exact one_ne_zero, by decide +kernel, hv,
    C71_exact_included (by positivity) ⟨[.scale ⟨1, []⟩], by decide +kernel⟩ hv⟩

/-- metres and `lg(re 1 m)` -/
example : LinearUnit Demo.m ∧ Demo.m.magnitude (fun _ => 1) ≠ 0 ∧ (∃ f, Spec.LogScale Demo.lgm (some 10) f ∧ f ≠ 0) ∧
    UnitWithDims Demo.m [(Demo.metre, 1)] ∧ UnitWithDims Demo.lgm [(Demo.metre, 1)] ∧ conversionRoundings Demo.m Demo.lgm = 11 ∧
    convert (.unit Demo.lgm) (.unit Demo.lgm) 3 = .ok 3 ∧ Converts (2⁻¹ ^ 53) Demo.lgm Demo.lgm 3 3 := by
  have h1 : Demo.m.magnitude (fun _ => 1) = 1 := by
    simp [Demo.m, Demo.u, Ref.magnitude, Demo.ref2, evalNode, get_magnitudes, Dict.get]
  have hc : Constructible (.unit Demo.lgm) (.unit Demo.lgm) := ⟨[.exp (some 10), .scale ⟨1, []⟩, .log (some 10)], by decide +kernel⟩
  have haff : ∀ s, Affine s Demo.lgm := means_affine (.log (b := some 10) (by decide) (Demo.linear trivial))
  have hd : UnitWithDims Demo.lgm [(Demo.metre, 1)] := ⟨⟨_, _, _, rfl⟩, by decide +kernel⟩
  have hv := C16_convert_self_defined hd haff hc 3
  refine ⟨Demo.linear trivial, by rw [h1]; exact one_ne_zero, ⟨_, .log (by decide) (Demo.linear trivial), ?_⟩,
    ⟨⟨_, _, _, rfl⟩, by decide +kernel⟩, hd, by decide +kernel, hv, C71_exact_included (by positivity) hc hv⟩
  rw [show Ref.unit none (.ident c!"m") Demo.ref2 = Demo.m from rfl, h1]
  exact one_ne_zero

/-! ## Equality -/

theorem FloatConv.near_eq {x y : ℝ} (h : Spec.Binary53 y) (M E : ℤ) (hlt : |y - x| < 2 ^ E / 2)
    (h1 : |(M : ℝ) * 2 ^ E - x| < 2 ^ E / 2) (h2 : (2 : ℝ) ^ 52 * 2 ^ E ≤ x - 2 ^ E / 2) : y = M * 2 ^ E := by
  obtain ⟨m, e, hm, rfl⟩ := h
  have hE : (0 : ℝ) < 2 ^ E := by positivity
  by_cases he : E ≤ e
  · obtain ⟨k, rfl⟩ := Int.le.dest he
    have hk : (m : ℝ) * 2 ^ (E + (k : ℤ)) = ((m * 2 ^ k : ℤ) : ℝ) * 2 ^ E := by
      rw [zpow_add₀ (by norm_num), zpow_natCast]; push_cast; ring
    rw [hk] at hlt ⊢
    have hd : |((m * 2 ^ k : ℤ) : ℝ) * 2 ^ E - M * 2 ^ E| < 2 ^ E := by
      have := abs_sub_le (((m * 2 ^ k : ℤ) : ℝ) * 2 ^ E) x (M * 2 ^ E)
      rw [abs_sub_comm x] at this
      linarith
    rw [← sub_mul, abs_mul, abs_of_pos hE] at hd
    have hd' : |((m * 2 ^ k - M : ℤ) : ℝ)| < 1 := by
      push_cast at hd ⊢
      by_contra hc
      push Not at hc
      nlinarith
    have hz : m * 2 ^ k - M = 0 := by
      rw [← Int.abs_lt_one_iff]
      exact_mod_cast hd'
    rw [show m * 2 ^ k = M by omega]
  · exfalso
    have he' : e ≤ E - 1 := by omega
    have hp : (2 : ℝ) ^ e ≤ 2 ^ E / 2 := by
      have := zpow_le_zpow_right₀ (a := (2 : ℝ)) (by norm_num) he'
      rwa [zpow_sub_one₀ (by norm_num), ← div_eq_mul_inv] at this
    have hpe : (0 : ℝ) < 2 ^ e := by positivity
    have hmR : (m : ℝ) < 2 ^ 53 := by
      have := (abs_lt.1 hm).2
      exact_mod_cast this
    have h3 : (m : ℝ) * 2 ^ e < 2 ^ 52 * 2 ^ E := by nlinarith
    have := (abs_lt.1 hlt).1
    linarith

theorem FloatConv.nearest_iff {x y : ℝ} (M E : ℤ) (hM : |M| < 2 ^ 53) (h1 : |(M : ℝ) * 2 ^ E - x| < 2 ^ E / 2)
    (h2 : (2 : ℝ) ^ 52 * 2 ^ E ≤ x - 2 ^ E / 2) : Spec.Nearest53 x y ↔ y = M * 2 ^ E := by
  constructor
  · intro h
    exact FloatConv.near_eq h.1 M E (lt_of_le_of_lt (h.2 _ ⟨M, E, hM, rfl⟩) h1) h1 h2
  · rintro rfl
    refine ⟨⟨M, E, hM, rfl⟩, fun z hz => ?_⟩
    by_contra hc
    push Not at hc
    rw [FloatConv.near_eq hz M E (lt_trans hc h1) h1 h2] at hc
    exact lt_irrefl _ hc

theorem FloatConv.nearest_refl {x : ℝ} (hx : Spec.Binary53 x) : Spec.Nearest53 x x :=
  ⟨hx, fun z _ => by rw [sub_self, abs_zero]; exact abs_nonneg _⟩

theorem FloatConv.nearest_self {x y : ℝ} (h : Spec.Nearest53 x y) (hx : Spec.Binary53 x) : y = x := by
  have := h.2 x hx
  rw [sub_self, abs_zero] at this
  have := abs_eq_zero.1 (le_antisymm this (abs_nonneg _))
  linarith

/-- **C71**, equality. With the numbers rounded to 53 bits, `unit("7 0.1 m") == unit("0.7 m")` does not hold: the definitions
have different numbers in front, although exactly they are equal (and convert into each other accurately). -/
theorem C71_float_equality_refuted : ∃ e e' d d', parse c!"7 0.1 m" = .ok e ∧ parse c!"0.7 m" = .ok e' ∧
    Ref.eq (Demo.u e) (Demo.u e') = .ok true ∧ (Demo.u e).expand = .ok d ∧ (Demo.u e').expand = .ok d' ∧
    d.split true = .ok (none, d) ∧ d'.split true = .ok (none, d') ∧
    (∃ c c', Fl.Coef Spec.Nearest53 d c ∧ Fl.Coef Spec.Nearest53 d' c') ∧
    ∀ c c', Fl.Coef Spec.Nearest53 d c → Fl.Coef Spec.Nearest53 d' c' → c ≠ c' := by
  refine ⟨.mul (.mul (.number (.int 7) (some c!"7")) (.number (.dec ⟨false, 1, -1⟩) (some c!"0.1"))) (.ident c!"m"),
    .mul (.number (.dec ⟨false, 7, -1⟩) (some c!"0.7")) (.ident c!"m"), _, _, by decide +kernel, by decide +kernel,
    by decide +kernel, rfl, rfl, by decide +kernel, by decide +kernel, ?_, ?_⟩
  all_goals
    have b7 : Spec.Binary53 7 := ⟨7, 0, by norm_num, by norm_num⟩
    have n1 : ∀ y, Spec.Nearest53 (1 / 10 : ℝ) y ↔ y = ((7205759403792794 : ℤ) : ℝ) * 2 ^ (-56 : ℤ) := fun y =>
      FloatConv.nearest_iff _ _ (by norm_num) (by norm_num [abs_lt]) (by norm_num)
    have n7 : ∀ y, Spec.Nearest53 (7 / 10 : ℝ) y ↔ y = ((6305039478318694 : ℤ) : ℝ) * 2 ^ (-53 : ℤ) := fun y =>
      FloatConv.nearest_iff _ _ (by norm_num) (by norm_num [abs_lt]) (by norm_num)
    have np : ∀ y, Spec.Nearest53 (7 * (((7205759403792794 : ℤ) : ℝ) * 2 ^ (-56 : ℤ))) y ↔
        y = ((6305039478318695 : ℤ) : ℝ) * 2 ^ (-53 : ℤ) := fun y =>
      FloatConv.nearest_iff _ _ (by norm_num) (by norm_num [abs_lt]) (by norm_num)
    have v1 : (((⟨false, 1, -1⟩ : Dec).toRat : Rat) : ℝ) = 1 / 10 := by
      rw [show (⟨false, 1, -1⟩ : Dec).toRat = 1 / 10 by decide +kernel]; norm_num
    have v7 : (((⟨false, 7, -1⟩ : Dec).toRat : Rat) : ℝ) = 7 / 10 := by
      rw [show (⟨false, 7, -1⟩ : Dec).toRat = 7 / 10 by decide +kernel]; norm_num
  · refine ⟨((6305039478318695 : ℤ) : ℝ) * 2 ^ (-53 : ℤ), ((6305039478318694 : ℤ) : ℝ) * 2 ^ (-53 : ℤ),
      .mul (.mul (b := ((7205759403792794 : ℤ) : ℝ) * 2 ^ (-56 : ℤ)) (.number (c := 7) rfl ?_) (.number rfl ?_) ((np _).2 rfl)) (.ident _) ?_,
      .mul (a := ((6305039478318694 : ℤ) : ℝ) * 2 ^ (-53 : ℤ)) (.number rfl ?_) (.ident _) ?_⟩
    · exact_mod_cast FloatConv.nearest_refl b7
    · rw [v1]; exact (n1 _).2 rfl
    · rw [mul_one]; exact FloatConv.nearest_refl ⟨_, _, by norm_num, rfl⟩
    · rw [v7]; exact (n7 _).2 rfl
    · rw [mul_one]; exact FloatConv.nearest_refl ⟨_, _, by norm_num, rfl⟩
  · intro c c' h h'
    have hc : c = ((6305039478318695 : ℤ) : ℝ) * 2 ^ (-53 : ℤ) := by
      cases h with
      | mul hl hr hm =>
        cases hr
        cases hl with
        | mul ha hb hab =>
          cases ha with
          | number q1 r1 =>
            cases hb with
            | number q2 r2 =>
              cases q1
              cases q2
              rw [v1, n1] at r2
              subst r2
              have := FloatConv.nearest_self r1 (by exact_mod_cast b7)
              subst this
              have hab' := (np _).1 (by exact_mod_cast hab)
              subst hab'
              rw [mul_one] at hm
              exact FloatConv.nearest_self hm ⟨_, _, by norm_num, rfl⟩
    have hc' : c' = ((6305039478318694 : ℤ) : ℝ) * 2 ^ (-53 : ℤ) := by
      cases h' with
      | mul hl hr hm =>
        cases hr
        cases hl with
        | number q1 r1 =>
          cases q1
          rw [v7, n7] at r1
          subst r1
          rw [mul_one] at hm
          exact FloatConv.nearest_self hm ⟨_, _, by norm_num, rfl⟩
    rw [hc, hc']
    norm_num

end Verif
