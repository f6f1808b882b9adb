import Verif.Lemmas.Magnitude
import Verif.Props.Dims
/-!
# C14 (factor), C15–C22, C45: conversions

Values are real numbers; `convert a b x` is `Converter(a, b).convert(x)`.
-/

namespace Verif

/-- `Converter(a, b)` can be constructed. -/
def Constructible (a b : UObj) : Prop := ∃ ops, Converter.build a b = .ok ops

/-! ## helpers to evaluate concrete conversions -/

theorem convert_leftover {a b : UObj} {ops ops' : List COp} (h1 : Converter.build a b = .ok ops)
    (h2 : simplifyOps ⟨1, []⟩ ops = .ok ops') (h3 : ops'.any COp.hasSymbol = true) (x : ℝ) :
    convert a b x = .error .nameError := by
  unfold convert
  rw [h1]
  change Converter.convert ops x = _
  unfold Converter.convert
  rw [h2]
  change (if ops'.any COp.hasSymbol then .error .nameError else runOps ops' x : Py ℝ) = _
  rw [h3]; rfl

theorem convert_runs {a b : UObj} {ops ops' : List COp} (h1 : Converter.build a b = .ok ops)
    (h2 : simplifyOps ⟨1, []⟩ ops = .ok ops') (h3 : ops'.any COp.hasSymbol = false) (x : ℝ) :
    convert a b x = runOps ops' x := by
  unfold convert
  rw [h1]
  change Converter.convert ops x = _
  unfold Converter.convert
  rw [h2]
  change (if ops'.any COp.hasSymbol then .error .nameError else runOps ops' x : Py ℝ) = _
  rw [h3]; rfl

theorem dimObj_of {u : Ref} {d : Dims} (h : UnitWithDims u d) :
    (UObj.unit u).dimObj = .ok (.dimensionality d) ∧ Proper (.dimensionality d) := by
  obtain ⟨⟨n, e, r, rfl⟩, hd⟩ := h
  refine ⟨?_, d, rfl, dims_wf hd⟩
  simp only [UObj.dimObj, Ref.dimObj, hd]
  rfl

/-! ## C15 -/

/-- **C15.** `Converter(a, b)` raises `IncompatibleUnitsError` exactly when `a.is_convertible_to(b)` is
`False`. -/
theorem C15_incompatible_iff_not_convertible {a b : Ref} {d1 d2 : Dims} (ha : UnitWithDims a d1)
    (hb : UnitWithDims b d2) :
    Converter.build (.unit a) (.unit b) = .error .incompatible ↔
      (UObj.unit a).isConvertibleTo (.unit b) = .ok false := by
  obtain ⟨a1, a2⟩ := dimObj_of ha
  obtain ⟨b1, b2⟩ := dimObj_of hb
  rw [build_incompatible_iff a1 a2 b1, link_proper a2 b2, link_proper a2 b2]
  have hc := convertible_iff ha hb
  obtain ⟨c, hc'⟩ := (C13_convertible_iff_same_or_opposite ha hb).2
  rw [hc'] at hc ⊢
  simp only [DimObj.power, DimObj.items] at *
  cases c with
  | true =>
    have := hc.1 rfl
    constructor
    · rintro ⟨h1, h2⟩
      rcases this with h | h
      · exact absurd h h1
      · exact absurd ⟨h1, h⟩ h2
    · intro h; cases h
  | false =>
    refine ⟨fun _ => rfl, fun _ => ⟨fun h => ?_, fun h => ?_⟩⟩
    · cases hc.2 (Or.inl h)
    · cases hc.2 (Or.inr h.2)

/-- metre, second (as parsed units) and hertz -/
def Demo.ref2 : List (Str × Ref) := [(c!"m", .basis Demo.metre), (c!"s", .basis Demo.second), (c!"K", .basis Demo.kelvin)]
def Demo.u (e : Node) : Ref := .unit none e Demo.ref2
def Demo.int (i : Int) : Node := .number (.int i) none
def Demo.m : Ref := Demo.u (.ident c!"m")
def Demo.s : Ref := Demo.u (.ident c!"s")
def Demo.hz : Ref := Demo.u (.div (Demo.int 1) (.ident c!"s"))

example : UnitWithDims Demo.m [(Demo.metre, 1)] ∧ UnitWithDims Demo.s [(Demo.second, 1)] ∧
    UnitWithDims Demo.hz [(Demo.second, -1)] :=
  ⟨⟨⟨_, _, _, rfl⟩, by decide +kernel⟩, ⟨⟨_, _, _, rfl⟩, by decide +kernel⟩, ⟨⟨_, _, _, rfl⟩, by decide +kernel⟩⟩
example : Converter.build (.unit Demo.m) (.unit Demo.s) = .error .incompatible := by decide +kernel
example : (UObj.unit Demo.hz).isConvertibleTo (.unit Demo.s) = .ok true := by decide +kernel

/-! ## C16 -/

/-- **C16.** Converting a unit to itself returns the value unchanged, whenever it returns. -/
theorem C16_convert_self_is_identity (a : UObj) (x v : ℝ) (h : convert a a x = .ok v) : v = x := by
  obtain ⟨ops, hops⟩ := convert_built h
  obtain ⟨fd, td, σ, e1, e2, e3, e4, e5, _⟩ := build_facts hops
  rw [e1] at e3; cases e3
  have hl := link_refl e2
  obtain ⟨q, E, q', E', b1, b2, r⟩ := (convert_iff e1 e2 e1 hl e5 e5 x v).1 h
  obtain ⟨rfl, rfl⟩ := r
  exact (b1.injective b2).symm

/-- **C16.** …and it does return, for every value, for the units of C22. -/
theorem C16_convert_self_defined {a : Ref} {d : Dims} (ha : UnitWithDims a d) (haff : ∀ s, Affine s a)
    (hc : Constructible (.unit a) (.unit a)) (x : ℝ) : convert (.unit a) (.unit a) x = .ok x := by
  obtain ⟨ops, hops⟩ := hc
  obtain ⟨fd, td, σ, e1, e2, e3, e4, e5, _⟩ := build_facts hops
  have hl := link_refl e2
  rw [convert_iff e1 e2 e1 hl e5 e5]
  obtain ⟨t, m, s1, s2⟩ := e5
  obtain ⟨f1, f2⟩ := affine_exp haff s1 s2 ha.2
  have hb := (base_iff_of_symFree s1 s2 f1 x _ _).2 ⟨rfl, rfl⟩
  exact ⟨_, _, _, _, hb, hb, rfl, rfl⟩

theorem linear_names {s : Str} {n1 n2 : Option UnitReference} {e : Node} {refs : List (Str × Ref)}
    (h : Linear s (.unit n1 e refs)) : Linear s (.unit n2 e refs) := by
  cases h with
  | unit _ _ _ hp hr => exact .unit _ _ _ hp hr

theorem Demo.linear {e : Node} (h : Plain e) : LinearUnit (Demo.u e) := by
  intro s
  refine .unit _ _ _ h ?_
  intro n r hr
  simp only [Demo.ref2, Dict.get] at hr
  split at hr
  · cases hr; exact .basis _ fun _ => rfl
  · split at hr
    · cases hr; exact .basis _ fun _ => rfl
    · split at hr
      · cases hr; exact .basis _ fun _ => rfl
      · cases hr

/-- degree Celsius `K @ 273.15` and `lg(re 1 m)` -/
def Demo.degC : Ref := Demo.u (.shift (.ident c!"K") (.number (.dec ⟨false, 27315, -2⟩) none))
def Demo.lgm : Ref := Demo.u (.log c!"lg" (.ident c!"m"))

example : (∀ s, Affine s Demo.degC) ∧ (∀ s, Affine s Demo.lgm) ∧
    Constructible (.unit Demo.degC) (.unit Demo.degC) ∧ Constructible (.unit Demo.lgm) (.unit Demo.lgm) :=
  ⟨fun s => .shift (.linear (Demo.linear (e := .ident c!"K") trivial s)),
   fun s => .log (.linear (Demo.linear (e := .ident c!"m") trivial s)),
   ⟨[.add (27315/100), .scale ⟨1, []⟩, .add (-27315/100)], by decide +kernel⟩,
   ⟨[.exp (some 10), .scale ⟨1, []⟩, .log (some 10)], by decide +kernel⟩⟩

/-! ## C17 -/

/-- **C17.** Conversions round-trip: if `a → b` maps `x` to `v` and `Converter(b, a)` can be constructed
then `b → a` maps `v` to `x`.  Direct and inverted conversions alike. -/
theorem C17_round_trip (a b : UObj) (x v : ℝ) (h : convert a b x = .ok v) (hc : Constructible b a) :
    convert b a v = .ok x := by
  obtain ⟨ops, hops⟩ := convert_built h
  obtain ⟨fd, td, σ, e1, e2, e3, e4, e5, _⟩ := build_facts hops
  obtain ⟨ops', hops'⟩ := hc
  obtain ⟨fd', td', σ', g1, g2, g3, g4, g5, _⟩ := build_facts hops'
  rw [e3] at g1; cases g1
  rw [e1] at g3; cases g3
  have := link_unique g4 (link_symm e2 g2 e4)
  subst this
  obtain ⟨q, E, q', E', b1, b2, r⟩ := (convert_iff e1 e2 e3 e4 g5 e5 x v).1 h
  refine (convert_iff e3 g2 e1 g4 e5 g5 v x).2 ⟨q', E', q, E, b2, b1, ?_⟩
  cases σ' with
  | true => exact ⟨r.1.symm, r.2.symm⟩
  | false =>
    obtain ⟨r1, rfl, rfl⟩ := r
    refine ⟨inv_ne_zero r1, (inv_inv q).symm, ?_⟩
    funext s; rw [Int.neg_neg]

/-- 4 Hz ↔ 1/4 s -/
example : convert (.unit Demo.hz) (.unit Demo.s) 4 = .ok (1 / 4) ∧ Constructible (.unit Demo.s) (.unit Demo.hz) := by
  refine ⟨?_, [.recip, .scale ⟨1, []⟩], by decide +kernel⟩
  rw [convert_runs (ops := [.recip, .scale ⟨1, []⟩]) (ops' := [.recip, .scale ⟨1, []⟩])
    (by decide +kernel) (by decide +kernel) (by decide +kernel)]
  simp [runOps, COp.run, bind, Except.bind]

/-- **C17** (refuted without the constructibility hypothesis): a bare basis unit can be the target of a
conversion but never its source. -/
theorem C17_basis_source_refuted :
    ¬ ∀ (a b : UObj) (x v : ℝ), convert a b x = .ok v → convert b a v = .ok x := by
  intro h
  have h2 : convert (.unit (.unit none (.ident c!"rad") [(c!"rad", .basis Demo.radian)])) (.unit (.basis Demo.radian)) 3 = .ok 3 := by
    rw [convert_runs (ops := [.scale ⟨1, []⟩]) (ops' := [.scale ⟨1, []⟩])
      (by decide +kernel) (by decide +kernel) (by decide +kernel)]
    simp [runOps, COp.run, bind, Except.bind]
  have h3 := h _ _ _ _ h2
  obtain ⟨ops, h4⟩ := convert_built h3
  revert h4
  have : Converter.build (.unit (.basis Demo.radian)) (.unit (.unit none (.ident c!"rad") [(c!"rad", .basis Demo.radian)]))
      = .error .attributeError := by decide +kernel
  rw [this]
  intro h; cases h

/-! ## C18 -/

/-- **C18.** Path independence: converting `a → b → c` gives what `a → c` gives. -/
theorem C18_conversions_compose (a b c : UObj) (x v w : ℝ) (h1 : convert a b x = .ok v) (h2 : convert b c v = .ok w)
    (hc : Constructible b a) : convert a c x = .ok w := by
  obtain ⟨ops, hops⟩ := convert_built h1
  obtain ⟨fd, td, σ, e1, e2, e3, e4, e5, _⟩ := build_facts hops
  obtain ⟨ops', hops'⟩ := hc
  obtain ⟨_, _, _, _, _, _, _, ha, _⟩ := build_facts hops'
  obtain ⟨ops'', hops''⟩ := convert_built h2
  obtain ⟨td', cd, τ, g1, g2, g3, g4, g5, _⟩ := build_facts hops''
  rw [e3] at g1; cases g1
  obtain ⟨q, E, q', E', b1, b2, r⟩ := (convert_iff e1 e2 e3 e4 ha e5 x v).1 h1
  obtain ⟨p, F, p', F', b3, b4, r'⟩ := (convert_iff e3 g2 g3 g4 e5 g5 v w).1 h2
  obtain ⟨rfl, rfl⟩ := b2.unique b3
  have hp : Proper cd ∨ ∃ d, cd = .dict d := by
    rcases dimObj_cases g3 with ⟨d, h, h'⟩ | ⟨d, h, _⟩
    · exact Or.inl ⟨d, h, h'⟩
    · exact Or.inr ⟨d, h⟩
  have hl := link_trans e2 g2 hp e4 g4
  refine (convert_iff e1 e2 g3 hl ha g5 x w).2 ⟨q, E, p', F', b1, b4, ?_⟩
  cases σ <;> cases τ
  · obtain ⟨n1, rfl, rfl⟩ := r
    obtain ⟨n2, rfl, rfl⟩ := r'
    refine ⟨inv_inv q, ?_⟩
    funext s; rw [Int.neg_neg]
  · obtain ⟨n1, rfl, rfl⟩ := r
    obtain ⟨rfl, rfl⟩ := r'
    exact ⟨n1, rfl, rfl⟩
  · obtain ⟨rfl, rfl⟩ := r
    obtain ⟨n2, rfl, rfl⟩ := r'
    exact ⟨n2, rfl, rfl⟩
  · obtain ⟨rfl, rfl⟩ := r
    obtain ⟨rfl, rfl⟩ := r'
    exact ⟨rfl, rfl⟩

/-- two inverted conversions compose to a direct one: Hz → s → 2 Hz -/
example : convert (.unit Demo.hz) (.unit Demo.s) 4 = .ok (1/4) ∧
    convert (.unit Demo.s) (.unit (Demo.u (.div (Demo.int 2) (.ident c!"s")))) (1/4) = .ok 2 ∧
    Constructible (.unit Demo.s) (.unit Demo.hz) := by
  refine ⟨?_, ?_, [.recip, .scale ⟨1, []⟩], by decide +kernel⟩
  · rw [convert_runs (ops := [.recip, .scale ⟨1, []⟩]) (ops' := [.recip, .scale ⟨1, []⟩])
      (by decide +kernel) (by decide +kernel) (by decide +kernel)]
    simp [runOps, COp.run, bind, Except.bind]
  · rw [convert_runs (ops := [.recip, .scale ⟨1/2, []⟩]) (ops' := [.recip, .scale ⟨1/2, []⟩])
      (by decide +kernel) (by decide +kernel) (by decide +kernel)]
    simp [runOps, COp.run, bind, Except.bind]
    norm_num

/-! ## C19: conversions preserve the quantity -/

/-- **C19**, direct conversion: if `x` of `a` means the quantity `f ρ x` and `v` of `b` means `g ρ v`, and
the dimensionalities agree, then `x` converts to `v` exactly when these are the same quantity — whatever
magnitudes `ρ` are given to the basis units. -/
theorem C19_direct_conversion_preserves_quantity {a b : Ref} {f g : (Str → ℝ) → ℝ → ℝ} (ha : Means a f) (hb : Means b g)
    {d1 d2 : Dims} (h1 : a.dims = .ok d1) (h2 : b.dims = .ok d2) (hc : Constructible (.unit a) (.unit b))
    (hz : ∃ x, f (fun _ => 1) x ≠ 0) (hd : ∀ s, Dims.power s d1 = Dims.power s d2)
    (ρ : Str → ℝ) (hρ : ∀ s, ρ s ≠ 0) (x v : ℝ) :
    convert (.unit a) (.unit b) x = .ok v ↔ g ρ v = f ρ x := by
  obtain ⟨ops, hops⟩ := hc
  exact convert_means ha hb h1 h2 hops hz (σ := true) hd (by intro h; cases h) ρ hρ x v

/-- **C19**, inverted conversion: when the dimensionalities are opposite (and not equal), `x` of `a`
converts to `v` of `b` exactly when the quantities are reciprocal. -/
theorem C19_inverted_conversion_is_reciprocal {a b : Ref} {f g : (Str → ℝ) → ℝ → ℝ} (ha : Means a f) (hb : Means b g)
    {d1 d2 : Dims} (h1 : a.dims = .ok d1) (h2 : b.dims = .ok d2) (hc : Constructible (.unit a) (.unit b))
    (hz : ∃ x, f (fun _ => 1) x ≠ 0) (hd : ∀ s, Dims.power s d1 = - Dims.power s d2)
    (hd' : ¬ ∀ s, Dims.power s d1 = Dims.power s d2)
    (ρ : Str → ℝ) (hρ : ∀ s, ρ s ≠ 0) (x v : ℝ) :
    convert (.unit a) (.unit b) x = .ok v ↔ f ρ x ≠ 0 ∧ g ρ v = (f ρ x)⁻¹ := by
  obtain ⟨ops, hops⟩ := hc
  exact convert_means ha hb h1 h2 hops hz (σ := false) hd (fun _ => hd') ρ hρ x v

/-- degC → K, and Hz → s -/
example : ∃ f g, Means Demo.degC f ∧ Means (Demo.u (.ident c!"K")) g ∧ Demo.degC.dims = .ok [(Demo.kelvin, 1)] ∧
    (Demo.u (.ident c!"K")).dims = .ok [(Demo.kelvin, 1)] ∧
    Constructible (.unit Demo.degC) (.unit (Demo.u (.ident c!"K"))) ∧ ∃ x, f (fun _ => 1) x ≠ 0 := by
  refine ⟨_, _, .shift (q := 27315/100) (Demo.linear trivial) (by decide +kernel), .linear (Demo.linear trivial),
    by decide +kernel, by decide +kernel, ⟨[.add (27315/100), .scale ⟨1, []⟩], by decide +kernel⟩, 1, ?_⟩
  simp only [Ref.magnitude, Demo.ref2, evalNode, get_magnitudes, Dict.get, if_pos, Option.map_some, Option.getD_some]
  norm_num
  simp [Ref.magnitude, Dict.get]
example : ∃ f g, Means Demo.hz f ∧ Means Demo.s g ∧ Demo.hz.dims = .ok [(Demo.second, -1)] ∧
    Demo.s.dims = .ok [(Demo.second, 1)] ∧ Constructible (.unit Demo.hz) (.unit Demo.s) :=
  ⟨_, _, .linear (Demo.linear ⟨trivial, trivial⟩), .linear (Demo.linear trivial), by decide +kernel, by decide +kernel,
    ⟨[.recip, .scale ⟨1, []⟩], by decide +kernel⟩⟩

/-! ## C20 -/

theorem dims_names {n1 n2 : Option UnitReference} {e : Node} {refs : List (Str × Ref)} :
    (Ref.unit n1 e refs).dims = (Ref.unit n2 e refs).dims := by rw [dims_unit, dims_unit]

theorem symDef_names {n1 n2 : Option UnitReference} {e : Node} {refs : List (Str × Ref)} :
    (Ref.unit n1 e refs).symDef = (Ref.unit n2 e refs).symDef := by
  unfold Ref.symDef; rw [Ref.expand, Ref.expand]

theorem magnitude_names {n1 n2 : Option UnitReference} {e : Node} {refs : List (Str × Ref)} (ρ : Str → ℝ) :
    (Ref.unit n1 e refs).magnitude ρ = (Ref.unit n2 e refs).magnitude ρ := by rw [Ref.magnitude, Ref.magnitude]

/-- a linear unit convertible to itself has a non-zero magnitude -/
theorem magnitude_ne {u : Ref} (hl : LinearUnit u) (hc : Constructible (.unit u) (.unit u)) :
    u.magnitude (fun _ => 1) ≠ 0 := by
  obtain ⟨ops, hops⟩ := hc
  obtain ⟨_, _, _, _, _, _, _, ⟨t, m, s1, s2⟩, _⟩ := build_facts hops
  rw [← (linear_symDef hl s1).2 _ (fun _ => one_ne_zero), value_one]
  exact_mod_cast s2

/-- **C20.** For a linear unit `u` (one that can be converted at all), `x` of `u @ k` is `x + k` of `u`, and
`x` of `u` is `x - k` of `u @ k`. -/
theorem C20_shift_adds_its_offset {n1 n2 : Option UnitReference} {u : Node} {refs : List (Str × Ref)} {k : Num}
    {raw : Option Str} {q : Rat} {d : Dims} (hl : LinearUnit (.unit n2 u refs)) (hk : k.toRat = .ok q)
    (hd : (Ref.unit n2 u refs).dims = .ok d) (hc : Constructible (.unit (.unit n2 u refs)) (.unit (.unit n2 u refs)))
    (x : ℝ) :
    convert (.unit (.unit n1 (.shift u (.number k raw)) refs)) (.unit (.unit n2 u refs)) x = .ok (x + q) ∧
    convert (.unit (.unit n2 u refs)) (.unit (.unit n1 (.shift u (.number k raw)) refs)) x = .ok (x - q) := by
  have hl' : LinearUnit (.unit n1 u refs) := fun s => linear_names (hl s)
  have hm := magnitude_ne hl hc
  have hm' : (Ref.unit n1 u refs).magnitude (fun _ => 1) ≠ 0 := by rw [magnitude_names (n2 := n2)]; exact hm
  obtain ⟨ops, hops⟩ := hc
  obtain ⟨_, _, _, _, _, _, _, hnz, _⟩ := build_facts hops
  have hd' : (Ref.unit n1 (.shift u (.number k raw)) refs).dims = .ok d := by
    rw [C11_shift_keeps_dimensionality, dims_names (n2 := n2)]; exact hd
  have hnz' : NonZero (.unit (.unit n1 (.shift u (.number k raw)) refs)) := by
    obtain ⟨t, m, s1, s2⟩ := hnz
    have s1' : (Ref.unit n1 u refs).symDef = .ok (t, m) := by rw [symDef_names (n2 := n2)]; exact s1
    obtain ⟨rfl, _⟩ := linear_symDef hl' s1'
    exact ⟨_, _, (symDef_shift hl' hk).2 ⟨rfl, s1'⟩, s2⟩
  obtain ⟨a1, a2⟩ := dimObj_of ⟨⟨_, _, _, rfl⟩, hd⟩
  obtain ⟨b1, b2⟩ := dimObj_of ⟨⟨_, _, _, rfl⟩, hd'⟩
  constructor
  · refine (C19_direct_conversion_preserves_quantity (.shift hl' hk) (.linear hl) hd' hd
      (build_total b1 b2 a1 (link_refl a2) hnz' hnz) ⟨1 - q, ?_⟩ (fun _ => rfl) (fun _ => 1) (fun _ => one_ne_zero) _ _).2 ?_
    · simpa using hm'
    · simp only [magnitude_names (n1 := n1) (n2 := n2)]
  · refine (C19_direct_conversion_preserves_quantity (.linear hl) (.shift hl' hk) hd hd'
      (build_total a1 a2 b1 (link_refl a2) hnz hnz') ⟨1, ?_⟩ (fun _ => rfl) (fun _ => 1) (fun _ => one_ne_zero) _ _).2 ?_
    · simpa using hm
    · simp only [magnitude_names (n1 := n1) (n2 := n2)]
      ring

example : LinearUnit (Demo.u (.ident c!"K")) ∧ (Num.dec ⟨false, 27315, -2⟩).toRat = .ok (27315/100) ∧
    (Demo.u (.ident c!"K")).dims = .ok [(Demo.kelvin, 1)] ∧
    Constructible (.unit (Demo.u (.ident c!"K"))) (.unit (Demo.u (.ident c!"K"))) :=
  ⟨Demo.linear trivial, by decide +kernel, by decide +kernel, [.scale ⟨1, []⟩], by decide +kernel⟩

/-- **C20** (refuted for a shift of a shifted unit): `degC @ 10 → degC` is not `x + 10`: the inner shift is
ignored. -/
theorem C20_nested_shift_refuted :
    convert (.unit (.unit none (.shift (.ident c!"degC") (Demo.int 10)) [(c!"degC", Demo.degC)])) (.unit Demo.degC) 0
      = .ok (10 - 273.15) := by
  rw [convert_runs (ops := [.add 10, .scale ⟨1, []⟩, .add (-27315/100)])
    (ops' := [.scale ⟨1, []⟩, .add 10, .scale ⟨1, []⟩, .add (-27315/100), .scale ⟨1, []⟩])
    (by decide +kernel) (by decide +kernel) (by decide +kernel)]
  simp [runOps, COp.run, bind, Except.bind]
  norm_num

/-! ## C21 -/

theorem number_dims {names : Option UnitReference} {v : Num} {raw : Option Str} {refs : List (Str × Ref)} :
    (Ref.unit names (.number v raw) refs).dims = .ok [] := by
  rw [dims_unit]; rfl

/-- **C21.** For a linear unit `u` and a number `k ≠ 0`, `x` of `k u` is `k·x` of `u`, and back. -/
theorem C21_numeric_multiple {n1 n2 : Option UnitReference} {u : Node} {refs : List (Str × Ref)} {k : Num}
    {raw : Option Str} {q : Rat} {d : Dims} (hl : LinearUnit (.unit n2 u refs)) (hk : k.toRat = .ok q) (hq : q ≠ 0)
    (hd : (Ref.unit n2 u refs).dims = .ok d) (hc : Constructible (.unit (.unit n2 u refs)) (.unit (.unit n2 u refs)))
    (x : ℝ) :
    convert (.unit (.unit n1 (.mul (.number k raw) u) refs)) (.unit (.unit n2 u refs)) x = .ok (q * x) ∧
    convert (.unit (.unit n2 u refs)) (.unit (.unit n1 (.mul (.number k raw) u) refs)) x = .ok (x / q) := by
  have hp : Plain u ∧ ∀ s n r, Dict.get n refs = some r → Linear s r := by
    refine ⟨?_, fun s => ?_⟩
    · cases hl [] with | unit _ _ _ h _ => exact h
    · cases hl s with | unit _ _ _ _ h => exact h
  have hlk : LinearUnit (.unit n1 (.mul (.number k raw) u) refs) := fun s => .unit _ _ _ ⟨trivial, hp.1⟩ (hp.2 s)
  have hm := magnitude_ne hl hc
  have hq' : (q : ℝ) ≠ 0 := by exact_mod_cast hq
  have hmk : ∀ ρ, (Ref.unit n1 (.mul (.number k raw) u) refs).magnitude ρ = q * (Ref.unit n2 u refs).magnitude ρ := by
    intro ρ
    rw [Ref.magnitude, Ref.magnitude, evalNode, evalNode, numVal, hk]
  obtain ⟨ops, hops⟩ := hc
  obtain ⟨_, _, _, _, _, _, _, hnz, _⟩ := build_facts hops
  have hnum : (Ref.unit n1 (.number k raw) refs).dims = .ok [] := number_dims
  have hd1 : (Ref.unit n1 u refs).dims = .ok d := by rw [dims_names (n2 := n2)]; exact hd
  obtain ⟨c1, c2⟩ := C09_dimensionality_of_product n1 refs (.number k raw) u trivial hp.1
  obtain ⟨dk, hdk⟩ := c1.2 ⟨⟨_, hnum⟩, ⟨_, hd1⟩⟩
  have hpow : ∀ s, Dims.power s dk = Dims.power s d := by
    intro s
    rw [c2 dk [] d hdk hnum hd1 s]
    simp [Dims.power, Dims.get?]
  have hnzk : NonZero (.unit (.unit n1 (.mul (.number k raw) u) refs)) := by
    obtain ⟨t, m, s1, s2⟩ := hnz
    have s1' : (Ref.unit n2 u refs).symDef = .ok (t, m) := s1
    unfold Ref.symDef at s1'
    cases he : (Ref.unit n2 u refs).expand with
    | error e => rw [he] at s1'; cases s1'
    | ok e =>
      rw [he] at s1'
      have hpe := (linear_magnitude (hl []) (fun _ => 1) he).1
      obtain ⟨es, h1, rfl⟩ := expand_unit he
      obtain ⟨rfl, h2⟩ := (symDef_noTransform (plain_noTransform hpe) t m).1 s1'
      refine ⟨[], (Mono.ofRat q).mul m, ?_, ?_⟩
      · change (Ref.unit n1 (.mul (.number k raw) u) refs).symDef = _
        unfold Ref.symDef
        rw [Ref.expand, h1]
        change ((Node.mul (.number k raw) u).substitute es).symDef = _
        rw [symDef_noTransform (e := (Node.mul (.number k raw) u).substitute es) ⟨trivial, plain_noTransform hpe⟩]
        refine ⟨rfl, ?_⟩
        simp only [Node.substitute, Node.toMono, hk, h2, bind, Except.bind]
      · rw [Mono.coef_mul]; exact mul_ne_zero hq s2
  obtain ⟨a1, a2⟩ := dimObj_of ⟨⟨_, _, _, rfl⟩, hd⟩
  obtain ⟨b1, b2⟩ := dimObj_of ⟨⟨_, _, _, rfl⟩, hdk⟩
  have hl1 := (link_proper b2 a2 true).2 hpow
  have hl2 := (link_proper a2 b2 true).2 fun s => (hpow s).symm
  constructor
  · refine (C19_direct_conversion_preserves_quantity (.linear hlk) (.linear hl) hdk hd
      (build_total b1 b2 a1 hl1 hnzk hnz) ⟨1, ?_⟩ hpow (fun _ => 1) (fun _ => one_ne_zero) _ _).2 ?_
    · rw [hmk, one_mul]; exact mul_ne_zero hq' hm
    · simp only [hmk]; ring
  · refine (C19_direct_conversion_preserves_quantity (.linear hl) (.linear hlk) hd hdk
      (build_total a1 a2 b1 hl2 hnz hnzk) ⟨1, ?_⟩ (fun s => (hpow s).symm) (fun _ => 1) (fun _ => one_ne_zero) _ _).2 ?_
    · rw [one_mul]; exact hm
    · simp only [hmk]; field_simp

/-- **C21** (refuted for a logarithmic unit): 1 of `2 lg(re m)` converts to ½ of `lg(re m)`, not 2
(cf. the docstring of `Converter`). -/
theorem C21_multiple_of_logarithm_refuted :
    convert (.unit (Demo.u (.mul (Demo.int 2) (.log c!"lg" (.ident c!"m"))))) (.unit Demo.lgm) 1 = .ok (1 / 2) := by
  rw [convert_runs (ops := [.scale ⟨1/2, []⟩, .exp (some 10), .scale ⟨1, []⟩, .log (some 10)])
    (ops' := [.scale ⟨1/2, []⟩, .exp (some 10), .scale ⟨1, []⟩, .log (some 10), .scale ⟨1, []⟩])
    (by decide +kernel) (by decide +kernel) (by decide +kernel)]
  have h10 : Real.log (10 : ℝ) ≠ 0 := (Real.log_pos (by norm_num)).ne'
  simp [runOps, COp.run, bind, Except.bind, lnBase, Real.exp_pos, h10]

/-- …and for a shifted unit: 1 of `2 degC` converts to -272.65 degC. -/
theorem C21_multiple_of_shift_refuted :
    convert (.unit (.unit none (.mul (Demo.int 2) (.ident c!"degC")) [(c!"degC", Demo.degC)])) (.unit Demo.degC) 1
      = .ok (0.5 - 273.15) := by
  rw [convert_runs (ops := [.scale ⟨1/2, []⟩, .scale ⟨1, []⟩, .add (-27315/100)])
    (ops' := [.scale ⟨1/2, []⟩, .add (-27315/100), .scale ⟨1, []⟩])
    (by decide +kernel) (by decide +kernel) (by decide +kernel)]
  simp [runOps, COp.run, bind, Except.bind]
  norm_num

/-! ## C14: the factor -/

/-- **C14**, conversion factor: a prefixed spelling denotes prefix value times the unit. -/
theorem C14_prefix_scales {p rest : Str} {pre : Prefix} {u r : Ref} {d : Dims} {v : Dec} (hne : p ≠ rest)
    (hr : prefixed p pre rest u = .ok r) (hd : u.dims = .ok d) (hl : LinearUnit u)
    (hv : Dec.parse pre.value = .ok v) (hv0 : v.toRat ≠ 0)
    (hc : Constructible (.unit (.unit none (.ident rest) [(rest, u)])) (.unit (.unit none (.ident rest) [(rest, u)])))
    (x : ℝ) :
    convert (.unit r) (.unit (.unit none (.ident rest) [(rest, u)])) x = .ok (v.toRat * x) ∧
    convert (.unit (.unit none (.ident rest) [(rest, u)])) (.unit r) x = .ok (x / v.toRat) := by
  obtain ⟨d1, hd1, hpow1⟩ := C14_prefix_keeps_dimensionality hne hr hd
  have hr' : r = .unit none (.mul (.ident p) (.ident rest)) [(p, .pre pre), (rest, u)] := by
    unfold prefixed mkUnit at hr
    cases hn : normalisedNode (Dict.set rest u (Dict.set p (.pre pre) [])) (.mul (.ident p) (.ident rest)) with
    | error e => rw [hn] at hr; cases hr
    | ok q =>
      rw [hn] at hr; cases hr
      simp [Dict.set, hne]
  subst hr'
  obtain ⟨d2, hd2, hpow2⟩ := C09_dimensionality_of_identifier none [(rest, u)] rest u (by simp [Dict.get]) d hd
  have hlt : LinearUnit (.unit none (.ident rest) [(rest, u)]) := by
    intro s
    refine .unit _ _ _ trivial ?_
    intro n r hn
    simp only [Dict.get] at hn
    split at hn
    · cases hn; exact hl s
    · cases hn
  have hlr : LinearUnit (.unit none (.mul (.ident p) (.ident rest)) [(p, .pre pre), (rest, u)]) := by
    intro s
    refine .unit _ _ _ ⟨trivial, trivial⟩ ?_
    intro n r hn
    simp only [Dict.get] at hn
    split at hn
    · cases hn; exact .pre _
    · split at hn
      · cases hn; exact hl s
      · cases hn
  have hmt : ∀ ρ, (Ref.unit none (.ident rest) [(rest, u)]).magnitude ρ = u.magnitude ρ := by
    intro ρ
    rw [Ref.magnitude, evalNode, get_magnitudes]
    simp [Dict.get]
  have hmr : ∀ ρ, (Ref.unit none (.mul (.ident p) (.ident rest)) [(p, .pre pre), (rest, u)]).magnitude ρ =
      v.toRat * u.magnitude ρ := by
    intro ρ
    rw [Ref.magnitude, evalNode, evalNode, evalNode, get_magnitudes, get_magnitudes]
    simp [Dict.get, hne, Ref.magnitude, hv]
  have hm := magnitude_ne hlt hc
  rw [hmt] at hm
  have hq' : (v.toRat : ℝ) ≠ 0 := by exact_mod_cast hv0
  obtain ⟨ops, hops⟩ := hc
  obtain ⟨_, _, _, _, _, _, _, hnz, _⟩ := build_facts hops
  have hnzr : NonZero (.unit (.unit none (.mul (.ident p) (.ident rest)) [(p, .pre pre), (rest, u)])) := by
    obtain ⟨t, m, s1, s2⟩ := hnz
    have s1' : u.symDef = .ok (t, m) := symDef_ident (by simp [Dict.get]) (s1 : Ref.symDef _ = _)
    unfold Ref.symDef at s1'
    cases he : u.expand with
    | error e => rw [he] at s1'; cases s1'
    | ok e =>
      rw [he] at s1'
      have hpe := (linear_magnitude (hl []) (fun _ => 1) he).1
      obtain ⟨rfl, h2⟩ := (symDef_noTransform (plain_noTransform hpe) t m).1 s1'
      refine ⟨[], (Mono.ofRat v.toRat).mul m, ?_, ?_⟩
      · change (Ref.unit none (.mul (.ident p) (.ident rest)) [(p, .pre pre), (rest, u)]).symDef = _
        unfold Ref.symDef
        have hx : (Ref.unit none (.mul (.ident p) (.ident rest)) [(p, .pre pre), (rest, u)]).expand =
            .ok (.mul (.number (.dec v) (some pre.value)) e) := by
          simp only [Ref.expand, Ref.expandList, Prefix.expand, hv, he, bind, Except.bind, Node.substitute, Dict.get,
            if_pos, if_neg hne]
        rw [hx]
        change (Node.mul (.number (.dec v) (some pre.value)) e).symDef = _
        rw [symDef_noTransform (e := Node.mul (.number (.dec v) (some pre.value)) e) ⟨trivial, plain_noTransform hpe⟩]
        refine ⟨rfl, ?_⟩
        simp only [Node.toMono, Num.toRat, h2, bind, Except.bind]
      · rw [Mono.coef_mul]; exact mul_ne_zero hv0 s2
  obtain ⟨a1, a2⟩ := dimObj_of ⟨⟨_, _, _, rfl⟩, hd1⟩
  obtain ⟨b1, b2⟩ := dimObj_of ⟨⟨_, _, _, rfl⟩, hd2⟩
  have hpow : ∀ s, Dims.power s d1 = Dims.power s d2 := fun s => (hpow1 s).trans (hpow2 s).symm
  have hl1 := (link_proper a2 b2 true).2 hpow
  have hl2 := (link_proper b2 a2 true).2 fun s => (hpow s).symm
  constructor
  · refine (C19_direct_conversion_preserves_quantity (.linear hlr) (.linear hlt) hd1 hd2
      (build_total a1 a2 b1 hl1 hnzr hnz) ⟨1, ?_⟩ hpow (fun _ => 1) (fun _ => one_ne_zero) _ _).2 ?_
    · rw [hmr, one_mul]; exact mul_ne_zero hq' hm
    · simp only [hmr, hmt]; ring
  · refine (C19_direct_conversion_preserves_quantity (.linear hlt) (.linear hlr) hd2 hd1
      (build_total b1 b2 a1 hl2 hnz hnzr) ⟨1, ?_⟩ (fun s => (hpow s).symm) (fun _ => 1) (fun _ => one_ne_zero) _ _).2 ?_
    · rw [hmt, one_mul]; exact hm
    · simp only [hmr, hmt]; field_simp

example : (prefixed c!"k" Demo.kilo c!"m" (.basis Demo.metre)).isOk = true ∧ LinearUnit (.basis Demo.metre) ∧
    Dec.parse Demo.kilo.value = .ok ⟨false, 1, 3⟩ ∧ (⟨false, 1, 3⟩ : Dec).toRat ≠ 0 ∧
    Constructible (.unit (.unit none (.ident c!"m") [(c!"m", .basis Demo.metre)]))
      (.unit (.unit none (.ident c!"m") [(c!"m", .basis Demo.metre)])) :=
  ⟨by decide +kernel, fun s => .basis _ fun _ => rfl, by decide +kernel, by decide +kernel,
    [.scale ⟨1, []⟩], by decide +kernel⟩

/-- **C14** (refuted for shifted units): `m degC` — milli-Celsius — converts 1 to 1000 K, not 273.151 K. -/
theorem C14_prefixed_celsius_refuted :
    ((prefixed c!"milli" Demo.milli c!"degC" Demo.degC).bind fun r =>
      Converter.build (.unit r) (.unit (Demo.u (.ident c!"K")))) = .ok [.scale ⟨1000, []⟩, .scale ⟨1, []⟩] := by
  decide +kernel

/-! ## C22 -/

/-- A definition that has no logarithm step after expansion. -/
def NoLog (u : UObj) : Prop := ∃ t m, u.symDef = .ok (t, m) ∧ ∀ b, TOp.log b ∉ t

theorem run1_forward_ok (t : List TOp) (h : ∀ b, TOp.log b ∉ t) (x : ℝ) : ∃ y, run1 (t.map TOp.forward) x = .ok y := by
  induction t generalizing x with
  | nil => exact ⟨x, rfl⟩
  | cons o t ih =>
    have ht : ∀ b, TOp.log b ∉ t := fun b hb => h b (List.mem_cons_of_mem _ hb)
    cases o with
    | scale m => exact ih ht _
    | sub q => exact ih ht _
    | log b => exact absurd (List.mem_cons_self ..) (h b)

theorem convert_affine {a b : Ref} {d1 d2 : Dims} (ha : UnitWithDims a d1) (hb : UnitWithDims b d2)
    (hfa : ∀ s, Affine s a) (hfb : ∀ s, Affine s b)
    (h : (UObj.unit a).isConvertibleTo (.unit b) = .ok true)
    (hca : Constructible (.unit a) (.unit a)) (hcb : Constructible (.unit b) (.unit b)) :
    ∃ t1 m1 t2 m2 t1i link σ, a.symDef = .ok (t1, m1) ∧ b.symDef = .ok (t2, m2) ∧
      (∀ x, ∃ y, run1 t1i x = .ok y) ∧ IsLink m1 m2 link σ ∧
      (σ = true ↔ ∀ s, Dims.power s d1 = Dims.power s d2) ∧
      ∀ x, convert (.unit a) (.unit b) x = run1 (t1i ++ link ++ t2.map TOp.forward) x := by
  obtain ⟨_, ha'⟩ := hca
  obtain ⟨_, _, _, _, _, _, _, na, _⟩ := build_facts ha'
  obtain ⟨_, hb'⟩ := hcb
  obtain ⟨_, _, _, _, _, _, _, nb, _⟩ := build_facts hb'
  obtain ⟨a1, a2⟩ := dimObj_of ha
  obtain ⟨b1, b2⟩ := dimObj_of hb
  have hl : ∃ σ, Link (.dimensionality d1) (.dimensionality d2) σ := by
    rw [convertible_iff ha hb] at h
    by_cases hs : ∀ s, Dims.power s d1 = Dims.power s d2
    · exact ⟨true, (link_proper a2 b2 true).2 hs⟩
    · rcases h with h | h
      · exact absurd h hs
      · exact ⟨false, (link_proper a2 b2 false).2 ⟨hs, h⟩⟩
  obtain ⟨σ, hl⟩ := hl
  obtain ⟨ops, hops⟩ := build_total a1 a2 b1 hl na nb
  obtain ⟨fd, td, t1, m1, t2, m2, t1i, link, τ, e1, e2, e3, e4, e5, e6, e7, e8, e9⟩ := build_ops hops
  rw [a1] at e1; cases e1
  rw [b1] at e3; cases e3
  have c1 : m1.coef ≠ 0 := by obtain ⟨t, m, s1, s2⟩ := na; rw [e5] at s1; cases s1; exact s2
  have c2 : m2.coef ≠ 0 := by obtain ⟨t, m, s1, s2⟩ := nb; rw [e6] at s1; cases s1; exact s2
  obtain ⟨f1, x1⟩ := affine_exp hfa e5 c1 ha.2
  obtain ⟨f2, x2⟩ := affine_exp hfb e6 c2 hb.2
  have g1 := obj_symDef_good e5
  have g2 := obj_symDef_good e6
  obtain ⟨l1, i1, i2, i3, i4, i5, i6⟩ := invertAll_spec t1 g1.1
  rw [e7] at i1; cases i1
  obtain ⟨l2, j1, j2, j3, j4, j5, j6⟩ := invertAll_spec t2 g2.1
  obtain ⟨k1, k2, k3⟩ := link_spec g1.2 g2.2 c1 c2 e9
  have hτ := (link_proper a2 b2 τ).1 e4
  refine ⟨t1, m1, t2, m2, t1i, link, τ, e5, e6, i5, e9, ?_, fun x => ?_⟩
  · cases τ with
    | true => exact ⟨fun _ => hτ, fun _ => rfl⟩
    | false =>
      constructor
      · intro h; cases h
      · intro h; exact absurd h hτ.1
  · unfold convert
    rw [hops]
    change Converter.convert ops x = _
    rw [← e8]
    apply convert_eq_run1
    · rw [e8]
      intro o ho
      rcases List.mem_append.1 ho with ho | ho
      · rcases List.mem_append.1 ho with ho | ho
        · exact i2 o ho
        · exact k1 o ho
      · exact j3 o ho
    · rw [e8, flow_append]
      refine ⟨fun _ => 0, (flow_append _ _ _ _).2 ⟨fun _ => 0, (i4 _ _).1 (symFree_flow f1), (k2 _ _).2 ?_⟩, symFree_flow f2⟩
      funext s
      cases τ with
      | true =>
        have := hτ s
        simp only [DimObj.power, DimObj.items] at this
        simp only [linkExp, x1, x2]; omega
      | false =>
        have := hτ.2 s
        simp only [DimObj.power, DimObj.items] at this
        simp only [linkExp, x1, x2]; omega

/-- **C22.** For units in which shifts and logarithms are combined with pure numbers only, and which
mention no dimensionless basis unit: if `a.is_convertible_to(b)` then converting gives a number, or fails
on a value outside the domain of the reciprocal or logarithm — a unit symbol is never left over. -/
theorem C22_allowed_conversion_gives_number {a b : Ref} {d1 d2 : Dims} (ha : UnitWithDims a d1) (hb : UnitWithDims b d2)
    (hfa : ∀ s, Affine s a) (hfb : ∀ s, Affine s b)
    (h : (UObj.unit a).isConvertibleTo (.unit b) = .ok true)
    (hca : Constructible (.unit a) (.unit a)) (hcb : Constructible (.unit b) (.unit b)) (x : ℝ) :
    (∃ v, convert (.unit a) (.unit b) x = .ok v) ∨ convert (.unit a) (.unit b) x = .error .zeroDivision ∨
      convert (.unit a) (.unit b) x = .error .domainError := by
  obtain ⟨t1, m1, t2, m2, t1i, link, σ, _, _, _, _, _, hx⟩ := convert_affine ha hb hfa hfb h hca hcb
  rw [hx]
  cases hr : run1 (t1i ++ link ++ t2.map TOp.forward) x with
  | ok v => exact Or.inl ⟨v, rfl⟩
  | error e =>
    rcases run1_err _ x hr with rfl | rfl
    · exact Or.inr (Or.inl rfl)
    · exact Or.inr (Or.inr rfl)

/-- **C22**, direct conversions to a unit without logarithm are defined for every value. -/
theorem C22_direct_conversion_total {a b : Ref} {d1 d2 : Dims} (ha : UnitWithDims a d1) (hb : UnitWithDims b d2)
    (hfa : ∀ s, Affine s a) (hfb : ∀ s, Affine s b) (hd : ∀ s, Dims.power s d1 = Dims.power s d2)
    (hlog : NoLog (.unit b))
    (hca : Constructible (.unit a) (.unit a)) (hcb : Constructible (.unit b) (.unit b)) (x : ℝ) :
    ∃ v, convert (.unit a) (.unit b) x = .ok v := by
  obtain ⟨t1, m1, t2, m2, t1i, link, σ, _, e6, i5, e9, hσ, hx⟩ := convert_affine ha hb hfa hfb
    ((convertible_iff ha hb).2 (Or.inl hd)) hca hcb
  have : σ = true := hσ.2 hd
  subst this
  obtain ⟨k, _, rfl⟩ := e9
  obtain ⟨t, m, s1, s2⟩ := hlog
  have s1' : b.symDef = .ok (t, m) := s1
  rw [e6] at s1'; cases s1'
  obtain ⟨y, hy⟩ := i5 x
  obtain ⟨z, hz⟩ := run1_forward_ok t2 s2 ((k.coef : ℝ) * y)
  refine ⟨z, ?_⟩
  rw [hx, run1_append, run1_append, hy]
  exact hz

example : NoLog (.unit Demo.degC) := ⟨[.sub (27315/100)], ⟨1, [(c!"kelvin", 1)]⟩, by decide +kernel, by
  intro b; simp⟩

/-- **C22** (refuted in general): `radian` is convertible to `1`, but the conversion leaves the symbol
`radian` and raises `NameError` for every value. -/
theorem C22_radian_refuted (x : ℝ) :
    (UObj.unit (.unit none (.ident c!"rad") Demo.refs)).isConvertibleTo (.unit (Demo.u (Demo.int 1))) = .ok true ∧
    convert (.unit (.unit none (.ident c!"rad") Demo.refs)) (.unit (Demo.u (Demo.int 1))) x = .error .nameError :=
  ⟨by decide +kernel, convert_leftover (ops := [.scale ⟨1, [(c!"radian", 1)]⟩]) (ops' := [.scale ⟨1, [(c!"radian", 1)]⟩])
    (by decide +kernel) (by decide +kernel) (by decide +kernel) x⟩

/-- **C22** (refuted for a product of a logarithm with a unit): `lg(re m) s` is convertible to `m`, but the
symbol `second` is left over. -/
theorem C22_log_times_unit_refuted (x : ℝ) :
    (UObj.unit (Demo.u (.mul (.log c!"lg" (.ident c!"m")) (.ident c!"s")))).isConvertibleTo (.unit Demo.m) = .ok true ∧
    convert (.unit (Demo.u (.mul (.log c!"lg" (.ident c!"m")) (.ident c!"s")))) (.unit Demo.m) x = .error .nameError :=
  ⟨by decide +kernel, convert_leftover (ops := [.scale ⟨1, [(c!"second", -1)]⟩, .exp (some 10), .scale ⟨1, []⟩])
    (ops' := [.scale ⟨1, [(c!"second", -1)]⟩, .exp (some 10), .scale ⟨1, []⟩])
    (by decide +kernel) (by decide +kernel) (by decide +kernel) x⟩

/-! ## C45 -/

/-- **C45.** The symbolic definition of a linear unit computes its magnitude, carries no value
transformation, and its exponents are the powers of dimensional analysis. -/
theorem C45_symbolic_definition_agrees_with_dimensionality {r : Ref} {d : Dims} {t : List TOp} {m : Mono}
    (hl : LinearUnit r) (hd : r.dims = .ok d) (hs : r.symDef = .ok (t, m)) :
    t = [] ∧ (m.coef ≠ 0 → ∀ s, m.exp s = Dims.power s d) ∧
      ∀ ρ : Str → ℝ, (∀ s, ρ s ≠ 0) →
        r.magnitude ρ = (m.coef : ℝ) * (d.map fun q => ρ q.1.ref ^ q.2).prod := by
  obtain ⟨h1, h2⟩ := linear_symDef hl hs
  have h3 : m.coef ≠ 0 → ∀ s, m.exp s = Dims.power s d :=
    fun hc => (affine_exp (fun s => .linear (hl s)) hs hc hd).2
  refine ⟨h1, h3, fun ρ hρ => ?_⟩
  rw [← h2 ρ hρ]
  unfold Mono.value
  by_cases hc : m.coef = 0
  · simp [hc]
  · congr 1
    have hw := dims_wf hd
    have hm := (obj_symDef_good (u := .unit r) hs).2
    have key := powProd_congr (ρ := ρ) (b := ⟨1, d.map fun q => (q.1.ref, q.2)⟩) hm
      ⟨by unfold Dict.Nodup Dict.keys; rw [List.map_map]; exact hw.1, by
        intro q hq
        obtain ⟨q', h', rfl⟩ := List.mem_map.1 hq
        exact hw.2 q' h', by intro h; simp at h⟩ (fun s => by
        rw [h3 hc]
        unfold Mono.exp Dims.power
        congr 1
        simp only
        clear hw hd h3
        induction d with
        | nil => rfl
        | cons q d ih =>
          obtain ⟨b, v⟩ := q
          simp only [Dims.get?, List.map_cons, Dict.get]
          split
          · rfl
          · exact ih)
    rw [key]
    unfold powProd
    rw [List.map_map]
    rfl

example : LinearUnit Demo.hz ∧ Demo.hz.dims = .ok [(Demo.second, -1)] ∧
    Demo.hz.symDef = .ok ([], ⟨1, [(c!"second", -1)]⟩) :=
  ⟨Demo.linear ⟨trivial, trivial⟩, by decide +kernel, by decide +kernel⟩

end Verif
