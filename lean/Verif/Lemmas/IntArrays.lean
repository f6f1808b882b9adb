import Verif.Lemmas.Symbolic
import Verif.Spec.IntArrays
import Verif.Lemmas.Arrays
/-!
# Converting arrays of integers
-/

namespace Verif.Np
open Spec

theorem least_spec {τ : IntType} (hb : 0 < τ.bits) (x : Int) : InType τ x ↔ τ.least ≤ x ∧ x < τ.least + 2 ^ τ.bits := by
  unfold InType IntType.least
  have h2 : (2 : Int) ^ τ.bits = 2 ^ (τ.bits - 1) + 2 ^ (τ.bits - 1) := by
    conv => lhs; rw [show τ.bits = (τ.bits - 1) + 1 by omega]
    rw [Int.pow_succ]; omega
  cases τ.signed
  · simp
  · simp only [if_true]; rw [h2]; omega

theorem has_iff {τ : IntType} (hb : 0 < τ.bits) (x : Int) : τ.has x = true ↔ InType τ x := by
  rw [least_spec hb, IntType.has]; simp

theorem kept_wrap {τ : IntType} (hb : 0 < τ.bits) (x : Int) : Kept τ x (τ.wrap x) := by
  have hp : (0 : Int) < 2 ^ τ.bits := by positivity
  refine ⟨(least_spec hb _).2 ⟨?_, ?_⟩, -((x - τ.least) / 2 ^ τ.bits), ?_⟩
  · unfold IntType.wrap; have := Int.emod_nonneg (x - τ.least) (ne_of_gt hp); omega
  · unfold IntType.wrap; have := Int.emod_lt_of_pos (x - τ.least) hp; omega
  · unfold IntType.wrap
    rw [Int.emod_def, Int.neg_mul, Int.mul_comm]; omega

/-- what a type keeps of its own numbers is the number -/
theorem kept_self {τ : IntType} (hb : 0 < τ.bits) {x y : Int} (h : Kept τ x y) (hx : InType τ x) : y = x := by
  obtain ⟨hy, k, rfl⟩ := h
  rw [least_spec hb] at hx hy
  have hp : (0 : Int) < 2 ^ τ.bits := by positivity
  have : k = 0 := by
    have h1 : k * 2 ^ τ.bits < 1 * 2 ^ τ.bits := by omega
    have h2 : (-1) * 2 ^ τ.bits < k * 2 ^ τ.bits := by omega
    have a1 := lt_of_mul_lt_mul_right h1 (le_of_lt hp)
    have a2 := lt_of_mul_lt_mul_right h2 (le_of_lt hp)
    omega
  rw [this]; simp

theorem symDef_split {r : Ref} {d : Mono} (h : r.symDef = .ok ([], d)) : ∃ e t D, r.expand = .ok e ∧ e.split true = .ok (t, D) := by
  unfold Ref.symDef at h
  cases he : r.expand with
  | error x => rw [he] at h; cases h
  | ok e =>
    rw [he] at h
    change e.symDef = _ at h
    unfold Node.symDef at h
    cases hs : e.split true with
    | error x => rw [hs] at h; cases h
    | ok p => exact ⟨e, p.1, p.2, rfl, hs⟩

theorem hasFloat_ok {a : UObj} (h : NoTransformation a) : ∃ f, a.hasFloat = .ok f := by
  obtain ⟨d, h⟩ := h
  cases a with
  | unit r =>
    obtain ⟨e, t, D, h1, h2⟩ := symDef_split (r := r) h
    refine ⟨D.hasFloat, ?_⟩
    simp only [UObj.hasFloat, h1, bind, Except.bind, h2]
  | date r x =>
    obtain ⟨e, t, D, h1, h2⟩ := symDef_split (r := r) h
    refine ⟨D.hasFloat, ?_⟩
    simp only [UObj.hasFloat, h1, bind, Except.bind, h2]

/-- the operations of a conversion between units without transformation -/
theorem plain_ops {a b : UObj} {ops ops' : List COp} (ha : NoTransformation a) (hb : NoTransformation b)
    (h : Converter.build a b = .ok ops) (hs : simplifyOps ⟨1, []⟩ ops = .ok ops') :
    (∃ m, ops' = [.scale m]) ∨ ∃ m, ops' = [.recip, .scale m] := by
  obtain ⟨fd, td, t1, d1, t2, d2, t1i, link, σ, -, -, -, -, e5, e6, e7, e8, e9⟩ := build_ops h
  obtain ⟨c1, ha⟩ := ha
  obtain ⟨c2, hb⟩ := hb
  rw [ha] at e5; cases e5
  rw [hb] at e6; cases e6
  cases e7
  subst e8
  cases σ with
  | true =>
    obtain ⟨k, -, rfl⟩ := e9
    simp only [List.nil_append, List.map_nil, List.append_nil, simplifyOps] at hs
    exact .inl ⟨_, (Except.ok.inj hs).symm⟩
  | false =>
    obtain ⟨k, -, rfl⟩ := e9
    simp only [List.nil_append, List.map_nil, List.append_nil, simplifyOps, bind, Except.bind] at hs
    cases hi : (⟨1, []⟩ : Mono).inv with
    | error e => rw [hi] at hs; cases hs
    | ok p => rw [hi] at hs; exact .inr ⟨_, (Except.ok.inj hs).symm⟩

/-- either both functions fail, always, or both run one factor, or a reciprocal and a factor -/
theorem convertInts_ops {a b : UObj} (ha : NoTransformation a) (hb : NoTransformation b) :
    (∃ e, (∀ x, Verif.convert a b x = .error e) ∧ ∀ τ xs, convertInts a b τ xs = .error e) ∨
    ∃ (m : Mono) (f1 f2 : Bool), m.exps = [] ∧ a.hasFloat = .ok f1 ∧ b.hasFloat = .ok f2 ∧
      (((∀ x, Verif.convert a b x = .ok (m.coef * x)) ∧ ∀ τ xs, convertInts a b τ xs = runInts (f1 || f2) τ xs [.scale m]) ∨
      ((∀ x, Verif.convert a b x = runOps [.recip, .scale m] x) ∧
        ∀ τ xs, convertInts a b τ xs = runInts (f1 || f2) τ xs [.recip, .scale m])) := by
  obtain ⟨f1, h1⟩ := hasFloat_ok ha
  obtain ⟨f2, h2⟩ := hasFloat_ok hb
  unfold Verif.convert Converter.convert convertInts
  rw [h1, h2]
  cases hbd : Converter.build a b with
  | error e => exact .inl ⟨e, fun _ => rfl, fun _ _ => rfl⟩
  | ok ops =>
    simp only [bind, Except.bind]
    cases hs : simplifyOps ⟨1, []⟩ ops with
    | error e => exact .inl ⟨e, fun _ => rfl, fun _ _ => rfl⟩
    | ok ops' =>
      simp only
      rcases plain_ops ha hb hbd hs with ⟨m, rfl⟩ | ⟨m, rfl⟩
      · by_cases hm : m.exps = []
        · have hh : ([COp.scale m].any COp.hasSymbol) = false := by simp [COp.hasSymbol, hm]
          refine .inr ⟨m, f1, f2, hm, rfl, rfl, .inl ⟨fun x => ?_, fun τ xs => ?_⟩⟩
          · rw [hh]; simp [runOps, COp.run, hm, bind, Except.bind]
          · rw [hh]; simp
        · have hh : ([COp.scale m].any COp.hasSymbol) = true := by simp [COp.hasSymbol, hm]
          exact .inl ⟨.nameError, fun _ => by rw [hh]; simp, fun _ _ => by rw [hh]; simp⟩
      · by_cases hm : m.exps = []
        · have hh : ([COp.recip, COp.scale m].any COp.hasSymbol) = false := by simp [COp.hasSymbol, hm]
          refine .inr ⟨m, f1, f2, hm, rfl, rfl, .inr ⟨fun x => ?_, fun τ xs => ?_⟩⟩
          · rw [hh]; simp
          · rw [hh]; simp
        · have hh : ([COp.recip, COp.scale m].any COp.hasSymbol) = true := by simp [COp.hasSymbol, hm]
          exact .inl ⟨.nameError, fun _ => by rw [hh]; simp, fun _ _ => by rw [hh]; simp⟩

theorem whole_num {v : Num} (h : ∀ d, v = .dec d → d.exp = 0) : v.isFloat = false := by
  cases v with
  | dec d => simp [Num.isFloat, h d rfl]
  | _ => rfl

theorem whole_hasFloat : ∀ (e : Node), WholeNumbers e → e.hasFloat = false
  | .number v _, h => whole_num fun d hd => by subst hd; exact h
  | .ident _, _ => rfl
  | .unhandled _, _ => rfl
  | .mul l r, h => by simp only [Node.hasFloat, whole_hasFloat l h.1, whole_hasFloat r h.2, Bool.or_false]
  | .div l r, h => by simp only [Node.hasFloat, whole_hasFloat l h.1, whole_hasFloat r h.2, Bool.or_false]
  | .raise l r, h => by simp only [Node.hasFloat, whole_hasFloat l h.1, Bool.false_and]
  | .shift _ _, _ => rfl
  | .log _ _, _ => rfl

/-- splitting a definition leaves no new numbers -/
theorem whole_split : ∀ {e : Node} {root : Bool} {t : Option Trans} {d : Node}, e.split root = .ok (t, d) → WholeNumbers e → WholeNumbers d
  | .number v _, _, _, _, h, hw => by cases h; exact hw
  | .ident _, _, _, _, h, hw => by cases h; exact hw
  | .unhandled _, _, _, _, h, hw => by cases h; exact hw
  | .mul l r, _, _, _, h, hw => by
    unfold Node.split at h
    simp only [bind, Except.bind] at h
    cases hl : l.split false with
    | error e => rw [hl] at h; cases h
    | ok x =>
      cases hr : r.split false with
      | error e => rw [hl, hr] at h; cases h
      | ok y =>
        obtain ⟨x1, x2⟩ := x
        obtain ⟨y1, y2⟩ := y
        have a1 := whole_split hl hw.1
        have a2 := whole_split hr hw.2
        rw [hl, hr] at h
        cases x1 <;> cases y1 <;> cases h
        · exact ⟨a1, a2⟩
        · exact a2
        · exact a1
  | .div l r, _, _, _, h, hw => by
    unfold Node.split at h
    simp only [bind, Except.bind] at h
    cases hl : l.split false with
    | error e => rw [hl] at h; cases h
    | ok x =>
      cases hr : r.split false with
      | error e => rw [hl, hr] at h; cases h
      | ok y =>
        obtain ⟨x1, x2⟩ := x
        obtain ⟨y1, y2⟩ := y
        have a1 := whole_split hl hw.1
        have a2 := whole_split hr hw.2
        rw [hl, hr] at h
        cases x1 <;> cases y1 <;> cases h <;> exact ⟨a1, a2⟩
  | .raise l r, _, _, _, h, hw => by
    unfold Node.split at h
    simp only [bind, Except.bind] at h
    cases hl : l.split false with
    | error e => rw [hl] at h; cases h
    | ok x =>
      cases hr : r.split false with
      | error e => rw [hl, hr] at h; cases h
      | ok y =>
        obtain ⟨x1, x2⟩ := x
        obtain ⟨y1, y2⟩ := y
        have a1 := whole_split hl hw.1
        have a2 := whole_split hr hw.2
        rw [hl, hr] at h
        cases y1 with
        | none => cases h; exact ⟨a1, a2⟩
        | some _ => cases h
  | .shift u f, root, _, _, h, hw => by
    unfold Node.split at h
    simp only [bind, Except.bind] at h
    cases hl : u.split false with
    | error e => rw [hl] at h; cases h
    | ok x =>
      obtain ⟨x1, x2⟩ := x
      have a1 := whole_split hl hw.1
      rw [hl] at h
      cases root <;> cases h <;> exact a1
  | .log fn u, _, _, _, h, hw => by
    unfold Node.split at h
    simp only [bind, Except.bind] at h
    cases hl : u.split false with
    | error e => rw [hl] at h; cases h
    | ok x =>
      obtain ⟨x1, x2⟩ := x
      have a1 := whole_split hl hw
      rw [hl] at h
      cases h
      exact a1

theorem whole_unit {a : UObj} {f : Bool} (hf : a.hasFloat = .ok f) (hw : WholeUnit a) : f = false := by
  cases a with
  | unit r =>
    obtain ⟨e, h1, h2⟩ := hw
    simp only [UObj.hasFloat, h1, bind, Except.bind] at hf
    cases hs : e.split true with
    | error x => rw [hs] at hf; cases hf
    | ok p =>
      rw [hs] at hf; cases hf
      exact whole_hasFloat _ (whole_split hs h2)
  | date r x =>
    obtain ⟨e, h1, h2⟩ := hw
    simp only [UObj.hasFloat, h1, bind, Except.bind] at hf
    cases hs : e.split true with
    | error x => rw [hs] at hf; cases hf
    | ok p =>
      rw [hs] at hf; cases hf
      exact whole_hasFloat _ (whole_split hs h2)

theorem point_hasFloat {e : Node} (h : PointFactor e) : e.hasFloat = true := by
  induction h with
  | number d raw h => simp [Node.hasFloat, Num.isFloat, h]
  | mulLeft l r _ ih => simp only [Node.hasFloat, ih, Bool.true_or]
  | mulRight l r _ ih => simp only [Node.hasFloat, ih, Bool.or_true]
  | divLeft l r _ ih => simp only [Node.hasFloat, ih, Bool.true_or]
  | divRight l r _ ih => simp only [Node.hasFloat, ih, Bool.or_true]
  | power l k raw _ hk ih =>
    simp only [Node.hasFloat, ih, Bool.true_and, Node.asExponent, Except.toOption]
    simpa using hk

theorem point_unit {a : UObj} (hw : PointUnit a) : a.hasFloat = .ok true := by
  cases a with
  | unit r =>
    obtain ⟨e, h1, h2, h3⟩ := hw
    simp only [UObj.hasFloat, h1, bind, Except.bind, noTransform_split h2, point_hasFloat h3]
  | date r x =>
    obtain ⟨e, h1, h2, h3⟩ := hw
    simp only [UObj.hasFloat, h1, bind, Except.bind, noTransform_split h2, point_hasFloat h3]

end Verif.Np
