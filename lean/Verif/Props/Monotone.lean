import Verif.Props.Convert
import Verif.Props.ShippedUnits
import Verif.Lemmas.Monotone
/-!
# C80: conversions respect order, have no gaps, and convert differences by a fixed ratio

`Spec/Monotone.lean` defines the order notions; `UnitWithDims u d` says that `u` is a unit of dimensionality `d`.
-/

namespace Verif
open Spec (Converts KeepsOrder ReversesOrder KeepsOrderLocally ReversesOrderLocally LogFree Query after ShippedUnit shipped)
open Monot (Strict)

namespace Monot

theorem facts {a b : Ref} {d1 d2 : Dims} (h1 : UnitWithDims a d1) (h2 : UnitWithDims b d2) {ops : List COp}
    (hc : Converter.build (.unit a) (.unit b) = .ok ops) {ops' : List COp} (hc' : Converter.build (.unit b) (.unit a) = .ok ops') :
    ∃ σ, Link (.dimensionality d1) (.dimensionality d2) σ ∧ NonZero (.unit a) ∧ NonZero (.unit b) := by
  obtain ⟨a1, a2⟩ := dimObj_of h1
  obtain ⟨b1, b2⟩ := dimObj_of h2
  obtain ⟨fd, td, σ, e1, e2, e3, e4, e5, _⟩ := build_facts hc
  obtain ⟨_, _, _, _, _, _, _, g5, _⟩ := build_facts hc'
  rw [a1] at e1; cases e1
  rw [b1] at e3; cases e3
  exact ⟨σ, e4, g5, e5⟩

theorem link_direct {d1 d2 : Dims} {a b : Ref} (h1 : UnitWithDims a d1) (h2 : UnitWithDims b d2) {σ : Bool}
    (h : Link (.dimensionality d1) (.dimensionality d2) σ) (hd : ∀ s, Dims.power s d1 = Dims.power s d2) : σ = true := by
  have := (link_proper (dimObj_of h1).2 (dimObj_of h2).2 true).2 hd
  exact link_unique h this

theorem link_inverted {d1 d2 : Dims} {a b : Ref} (h1 : UnitWithDims a d1) (h2 : UnitWithDims b d2) {σ : Bool}
    (h : Link (.dimensionality d1) (.dimensionality d2) σ) (hd : ¬ ∀ s, Dims.power s d1 = Dims.power s d2) : σ = false := by
  cases σ with
  | false => rfl
  | true => exact absurd ((link_proper (dimObj_of h1).2 (dimObj_of h2).2 true).1 h) hd

theorem direct_fun {a b : Ref} {d1 d2 : Dims} (h1 : UnitWithDims a d1) (h2 : UnitWithDims b d2)
    (hd : ∀ s, Dims.power s d1 = Dims.power s d2) (hc : Constructible (.unit a) (.unit b)) (hc' : Constructible (.unit b) (.unit a)) :
    ∃ (f g : ℝ → ℝ) (p : Prop), Continuous f ∧ Strict f ∧ Continuous g ∧ Strict g ∧
      (∀ x v, convert (.unit a) (.unit b) x = .ok v ↔ p ∧ g v = f x) ∧
      (∀ t d, a.symDef = .ok (t, d) → (∀ b, TOp.log b ∉ t) → ∃ k c : ℝ, k ≠ 0 ∧ ∀ x, f x = k * x + c) ∧
      (∀ t d, b.symDef = .ok (t, d) → (∀ b, TOp.log b ∉ t) → ∃ k c : ℝ, k ≠ 0 ∧ ∀ x, g x = k * x + c) := by
  obtain ⟨ops, hops⟩ := hc
  obtain ⟨ops', hops'⟩ := hc'
  obtain ⟨σ, hl, ha, hb⟩ := facts h1 h2 hops hops'
  have := link_direct h1 h2 hl hd
  subst this
  exact convert_fun (dimObj_of h1).1 (dimObj_of h1).2 (dimObj_of h2).1 hl ha hb

end Monot

/-- **C80.** Between units of the same dimensionality, larger values convert to larger values — or, for every pair of values, to
smaller ones (units of opposite sign). -/
theorem C80_order (a b : Ref) (d1 d2 : Dims) (h1 : UnitWithDims a d1) (h2 : UnitWithDims b d2)
    (hd : ∀ s, Dims.power s d1 = Dims.power s d2) (hc : Constructible (.unit a) (.unit b)) (hc' : Constructible (.unit b) (.unit a)) :
    KeepsOrder (.unit a) (.unit b) ∨ ReversesOrder (.unit a) (.unit b) := by
  obtain ⟨f, g, p, _, hf, _, hg, hiff, _⟩ := Monot.direct_fun h1 h2 hd hc hc'
  have key : ∀ x y v w, convert (.unit a) (.unit b) x = .ok v → convert (.unit a) (.unit b) y = .ok w → g v = f x ∧ g w = f y :=
    fun x y v w hx hy => ⟨((hiff _ _).1 hx).2, ((hiff _ _).1 hy).2⟩
  rcases hf.cases with hf | hf <;> rcases hg.cases with hg | hg
  · left; intro x y v w hx hy; obtain ⟨e1, e2⟩ := key _ _ _ _ hx hy; rw [hf x y, ← e1, ← e2]; exact (hg v w).symm
  · right; intro x y v w hx hy; obtain ⟨e1, e2⟩ := key _ _ _ _ hx hy; rw [hf x y, ← e1, ← e2]; exact (hg w v).symm
  · right; intro x y v w hx hy; obtain ⟨e1, e2⟩ := key _ _ _ _ hx hy; rw [hf x y, ← e1, ← e2]; exact (hg w v).symm
  · left; intro x y v w hx hy; obtain ⟨e1, e2⟩ := key _ _ _ _ hx hy; rw [hf x y, ← e1, ← e2]; exact (hg v w).symm

/-- **C80.** … and there are no gaps: between two values that can be converted every value can, and between two results everything
is a result. -/
theorem C80_no_gaps (a b : Ref) (d1 d2 : Dims) (h1 : UnitWithDims a d1) (h2 : UnitWithDims b d2)
    (hd : ∀ s, Dims.power s d1 = Dims.power s d2) (hc : Constructible (.unit a) (.unit b)) (hc' : Constructible (.unit b) (.unit a))
    (x y v w : ℝ) (hx : convert (.unit a) (.unit b) x = .ok v) (hy : convert (.unit a) (.unit b) y = .ok w) :
    (∀ z, x ≤ z → z ≤ y → Converts (.unit a) (.unit b) z) ∧
    (∀ u, v ≤ u → u ≤ w → ∃ z, convert (.unit a) (.unit b) z = .ok u) := by
  obtain ⟨f, g, p, hcf, hf, hcg, hg, hiff, _⟩ := Monot.direct_fun h1 h2 hd hc hc'
  obtain ⟨hp, e1⟩ := (hiff _ _).1 hx
  obtain ⟨_, e2⟩ := (hiff _ _).1 hy
  constructor
  · intro z hz1 hz2
    obtain ⟨u, hu⟩ := Monot.Strict.ivt hcg (u := v) (w := w) (q := f z) (by
      rw [e1, e2]
      rcases hf with hf | hf
      · exact .inl ⟨hf.monotone hz1, hf.monotone hz2⟩
      · exact .inr ⟨hf.antitone hz2, hf.antitone hz1⟩)
    exact ⟨u, (hiff _ _).2 ⟨hp, hu⟩⟩
  · intro u hu1 hu2
    obtain ⟨z, hz⟩ := Monot.Strict.ivt hcf (u := x) (w := y) (q := g u) (by
      rw [← e1, ← e2]
      rcases hg with hg | hg
      · exact .inl ⟨hg.monotone hu1, hg.monotone hu2⟩
      · exact .inr ⟨hg.antitone hu2, hg.antitone hu1⟩)
    exact ⟨z, (hiff _ _).2 ⟨hp, hz.symm⟩⟩

/-- **C80.** If the expanded definitions have no logarithm, converting is `v = k x + c` with fixed `k ≠ 0` and `c`: in particular
differences of values convert by the fixed ratio `k`, whatever the offsets. -/
theorem C80_differences (a b : Ref) (d1 d2 : Dims) (h1 : UnitWithDims a d1) (h2 : UnitWithDims b d2)
    (hd : ∀ s, Dims.power s d1 = Dims.power s d2) (hc : Constructible (.unit a) (.unit b)) (hc' : Constructible (.unit b) (.unit a))
    (ea eb : Node) (hea : a.expand = .ok ea) (heb : b.expand = .ok eb) (na : LogFree ea) (nb : LogFree eb) :
    ∃ k c : ℝ, k ≠ 0 ∧ ∀ x v, convert (.unit a) (.unit b) x = .ok v → v = k * x + c := by
  obtain ⟨f, g, p, _, _, _, _, hiff, lf, lg⟩ := Monot.direct_fun h1 h2 hd hc hc'
  obtain ⟨ops, hops⟩ := hc
  obtain ⟨_, _, _, _, _, _, _, ⟨tb, db, sb, _⟩, ta, da, sa⟩ := build_facts hops
  obtain ⟨k, c, hk, hf⟩ := lf ta da sa (Monot.symDef_noLog hea na sa)
  obtain ⟨k', c', hk', hg⟩ := lg tb db sb (Monot.symDef_noLog heb nb sb)
  refine ⟨k / k', (c - c') / k', div_ne_zero hk hk', fun x v hx => ?_⟩
  have := ((hiff _ _).1 hx).2
  rw [hf, hg] at this
  field_simp
  linarith

/-- **C80** (reciprocal conversions, seconds to hertz). On any interval all of whose values convert, order is kept or reversed, and it
is the same one for all such intervals. -/
theorem C80_order_inverted (a b : Ref) (d1 d2 : Dims) (h1 : UnitWithDims a d1) (h2 : UnitWithDims b d2)
    (hd : ¬ ∀ s, Dims.power s d1 = Dims.power s d2) (hc : Constructible (.unit a) (.unit b)) (hc' : Constructible (.unit b) (.unit a)) :
    KeepsOrderLocally (.unit a) (.unit b) ∨ ReversesOrderLocally (.unit a) (.unit b) := by
  obtain ⟨ops, hops⟩ := hc
  obtain ⟨ops', hops'⟩ := hc'
  obtain ⟨σ, hl, ha, hb⟩ := Monot.facts h1 h2 hops hops'
  have := Monot.link_inverted h1 h2 hl hd
  subst this
  obtain ⟨f, g, p, hcf, hf, hcg, hg, hiff, _⟩ := Monot.convert_fun (dimObj_of h1).1 (dimObj_of h1).2 (dimObj_of h2).1 hl ha hb
  -- on such an interval `f` keeps its sign, so `1/f` reverses what `f` does
  have key : ∀ x y v w, (∀ z, x ≤ z → z ≤ y → Converts (.unit a) (.unit b) z) → convert (.unit a) (.unit b) x = .ok v →
      convert (.unit a) (.unit b) y = .ok w → x < y → (f x < f y ↔ g w < g v) := by
    intro x y v w hall hx hy hxy
    obtain ⟨hp, nx, gx⟩ := (hiff _ _).1 hx
    obtain ⟨_, ny, gy⟩ := (hiff _ _).1 hy
    have nz : ∀ z ∈ Set.Icc x y, f z ≠ 0 := by
      intro z hz
      obtain ⟨u, hu⟩ := hall z hz.1 hz.2
      exact ((hiff _ _).1 hu).2.1
    rw [gx, gy]
    rcases lt_or_gt_of_ne nx with hx0 | hx0 <;> rcases lt_or_gt_of_ne ny with hy0 | hy0
    · exact (inv_lt_inv_of_neg hy0 hx0).symm
    · exfalso
      obtain ⟨z, hz, hz0⟩ := intermediate_value_Icc hxy.le hcf.continuousOn ⟨hx0.le, hy0.le⟩
      exact nz z hz hz0
    · exfalso
      obtain ⟨z, hz, hz0⟩ := intermediate_value_Icc' hxy.le hcf.continuousOn ⟨hy0.le, hx0.le⟩
      exact nz z hz hz0
    · exact (inv_lt_inv₀ hy0 hx0).symm
  rcases hf.cases with hf | hf <;> rcases hg.cases with hg | hg
  · right; intro x y v w hall hx hy hxy
    exact (hg _ _).2 ((key x y v w hall hx hy hxy).1 ((hf _ _).1 hxy))
  · left; intro x y v w hall hx hy hxy
    exact (hg _ _).2 ((key x y v w hall hx hy hxy).1 ((hf _ _).1 hxy))
  · left; intro x y v w hall hx hy hxy
    have h0 := (hf _ _).1 hxy
    have h3 : ¬ g w < g v := fun h => absurd ((key x y v w hall hx hy hxy).2 h) (not_lt.2 h0.le)
    refine lt_of_not_ge fun hge => h3 ?_
    rcases lt_or_eq_of_le hge with h | h
    · exact (hg _ _).1 h
    · exfalso
      have e1 := ((hiff _ _).1 hx).2.2
      have e2 := ((hiff _ _).1 hy).2.2
      rw [h] at e2
      have := inv_injective (e1.symm.trans e2)
      rw [this] at h0; exact lt_irrefl _ h0
  · right; intro x y v w hall hx hy hxy
    have h0 := (hf _ _).1 hxy
    have h3 : ¬ g w < g v := fun h => absurd ((key x y v w hall hx hy hxy).2 h) (not_lt.2 h0.le)
    refine lt_of_not_ge fun hge => h3 ?_
    rcases lt_or_eq_of_le hge with h | h
    · exact (hg _ _).1 h
    · exfalso
      have e1 := ((hiff _ _).1 hx).2.2
      have e2 := ((hiff _ _).1 hy).2.2
      rw [← h] at e2
      have := inv_injective (e1.symm.trans e2)
      rw [this] at h0; exact lt_irrefl _ h0

/-! ## The shipped units -/

namespace Db

/-- only `degree_west` counts backwards -/
theorem factor_signs : (shipped.all fun u => decide (if (u.spellings.any fun k => Nat.beq (enc k) (enc c!"degree_west")) = true
    then u.factor.num < 0 else 0 < u.factor.num)) = true := by decide +kernel

theorem west_iff (u : ShippedUnit) :
    (u.spellings.any fun k => Nat.beq (enc k) (enc c!"degree_west")) = true ↔ c!"degree_west" ∈ u.spellings := by
  rw [List.any_eq_true]
  constructor
  · rintro ⟨k, hk, e⟩; exact enc_inj (Nat.eq_of_beq_eq_true e) ▸ hk
  · intro h; exact ⟨_, h, by simp⟩

theorem value_strictMono (c : Spec.Scale) : StrictMono c.value := by
  cases c with
  | linear => exact strictMono_id
  | offset q => exact fun x y hxy => add_lt_add_of_lt_of_le hxy (le_refl (q : ℝ))
  | log10 => exact fun x y hxy => Real.rpow_lt_rpow_of_exponent_lt (by norm_num) hxy
  | log2 => exact fun x y hxy => Real.rpow_lt_rpow_of_exponent_lt (by norm_num) hxy
  | ln => exact fun x y hxy => Real.exp_lt_exp.2 hxy

theorem quantity_strictMono {u : ShippedUnit} (hu : u ∈ shipped) (hw : c!"degree_west" ∉ u.spellings) : StrictMono u.quantity := by
  have h := of_decide_eq_true (List.all_eq_true.1 factor_signs u hu)
  rw [if_neg (fun h' => hw ((west_iff u).1 h'))] at h
  have hf : (0 : ℝ) < (u.factor : ℝ) := by exact_mod_cast Rat.num_pos.1 h
  exact fun x y hxy => mul_lt_mul_of_pos_right (value_strictMono _ hxy) hf

theorem quantity_strictAnti {u : ShippedUnit} (hu : u ∈ shipped) (hw : c!"degree_west" ∈ u.spellings) : StrictAnti u.quantity := by
  have h := of_decide_eq_true (List.all_eq_true.1 factor_signs u hu)
  rw [if_pos ((west_iff u).2 hw)] at h
  have hf : (u.factor : ℝ) < 0 := by exact_mod_cast Rat.num_neg.1 h
  exact fun x y hxy => mul_lt_mul_of_neg_right (value_strictMono _ hxy) hf

end Db

/-- **C80** (the shipped units). Between two units of `udunits2_combined.xml` that are multiples of the same product of basis units
(offsets and logarithms included), larger values convert to larger values, unless exactly one of them is `degree_west`: then
larger values convert to smaller ones.  The spellings left out are those C53 leaves out. -/
theorem C80_shipped_order (strict strict' : Bool) (o q o' q' : List Str → List Str) (ho : ∀ l, (o l).Perm l)
    (hq : ∀ l, (q l).Perm l) (ho' : ∀ l, (o' l).Perm l) (hq' : ∀ l, (q' l).Perm l)
    (s s' : System) (hs : parseSystem strict q Db.unitSystem = .ok s) (hs' : parseSystem strict' q' Db.unitSystem = .ok s')
    (hist hist' : List Query) (limit limit' : Nat) (hlim : 9 ≤ limit) (hlim' : 9 ≤ limit')
    (u v : ShippedUnit) (hu : u ∈ shipped) (hv : v ∈ shipped) (n k : Str) (hn : n ∈ u.spellings) (hk : k ∈ v.spellings)
    (n1 : n ∉ Db.unusable) (n2 : n ∉ Db.mmHg) (n3 : n ∉ Db.untypeable)
    (k1 : k ∉ Db.unusable) (k2 : k ∉ Db.mmHg) (k3 : k ∉ Db.untypeable) (hp : ∀ b, u.power b = v.power b) :
    ∃ A B, (System.unit ⟨parse, o⟩ limit n (after ⟨parse, o⟩ hist s)).1 = .ok A ∧
      (System.unit ⟨parse, o'⟩ limit' k (after ⟨parse, o'⟩ hist' s')).1 = .ok B ∧
      ((c!"degree_west" ∈ u.spellings ↔ c!"degree_west" ∈ v.spellings) → KeepsOrder A B) ∧
      (¬ (c!"degree_west" ∈ u.spellings ↔ c!"degree_west" ∈ v.spellings) → ReversesOrder A B) := by
  obtain ⟨A, B, h1, h2, h3, _⟩ := C54_shipped_conversions strict strict' o q o' q' ho hq ho' hq' s s' hs hs' hist hist' limit limit'
    hlim hlim' u v hu hv n k hn hk n1 n2 n3 k1 k2 k3
  refine ⟨A, B, h1, h2, fun hw x y a b hx hy => ?_, fun hw x y a b hx hy => ?_⟩
  all_goals
    have e1 := (h3 hp x a).1 hx
    have e2 := (h3 hp y b).1 hy
  · by_cases hwu : c!"degree_west" ∈ u.spellings
    · have hwv := hw.1 hwu
      rw [← (Db.quantity_strictAnti hu hwu).lt_iff_gt, ← e1, ← e2, (Db.quantity_strictAnti hv hwv).lt_iff_gt]
    · have hwv := fun h => hwu (hw.2 h)
      rw [← (Db.quantity_strictMono hu hwu).lt_iff_lt, ← e1, ← e2, (Db.quantity_strictMono hv hwv).lt_iff_lt]
  · by_cases hwu : c!"degree_west" ∈ u.spellings
    · have hwv : c!"degree_west" ∉ v.spellings := fun h => hw ⟨fun _ => h, fun _ => hwu⟩
      rw [← (Db.quantity_strictAnti hu hwu).lt_iff_gt, ← e1, ← e2, (Db.quantity_strictMono hv hwv).lt_iff_lt]
    · have hwv : c!"degree_west" ∈ v.spellings := Classical.byContradiction fun h => hw ⟨fun h' => absurd h' hwu, fun h' => absurd h' h⟩
      rw [← (Db.quantity_strictMono hu hwu).lt_iff_lt, ← e1, ← e2, (Db.quantity_strictAnti hv hwv).lt_iff_gt]

/-! ## Where it stops, and non-vacuity -/

/-- `-1 m` -/
def Demo.minusMetre : Ref := Demo.u (.mul (Demo.int (-1)) (.ident c!"m"))

/-- **C80** (why not always kept): converting to `-1 m` reverses order. -/
theorem C80_negative_unit_refuted :
    ¬ ∀ (a b : Ref) (d : Dims), UnitWithDims a d → UnitWithDims b d → Constructible (.unit a) (.unit b) → Constructible (.unit b) (.unit a) →
      KeepsOrder (.unit a) (.unit b) := by
  intro h
  have hv : ∀ x : ℝ, convert (.unit Demo.m) (.unit Demo.minusMetre) x = .ok (-x) := by
    intro x
    rw [convert_runs (ops := [.scale ⟨-1, []⟩]) (ops' := [.scale ⟨-1, []⟩])
      (by decide +kernel) (by decide +kernel) (by decide +kernel)]
    simp [runOps, COp.run, bind, Except.bind]
  have hk := h Demo.m Demo.minusMetre [(Demo.metre, 1)] ⟨⟨_, _, _, rfl⟩, by decide +kernel⟩ ⟨⟨_, _, _, rfl⟩, by decide +kernel⟩
    ⟨[.scale ⟨-1, []⟩], by decide +kernel⟩ ⟨[.scale ⟨-1, []⟩], by decide +kernel⟩
  have := (hk 0 1 _ _ (hv 0) (hv 1)).1 one_pos
  norm_num at this

/-- **C80** (why intervals for reciprocal conversions): from seconds to hertz, -1 < 1 < 2 become -1 < 1 and 1 > 1/2. -/
theorem C80_inverted_refuted : ¬ KeepsOrder (.unit Demo.s) (.unit Demo.hz) ∧ ¬ ReversesOrder (.unit Demo.s) (.unit Demo.hz) := by
  have hv : ∀ x : ℝ, x ≠ 0 → convert (.unit Demo.s) (.unit Demo.hz) x = .ok x⁻¹ := by
    intro x hx
    rw [convert_runs (ops := [.recip, .scale ⟨1, []⟩]) (ops' := [.recip, .scale ⟨1, []⟩])
      (by decide +kernel) (by decide +kernel) (by decide +kernel)]
    simp [runOps, COp.run, bind, Except.bind, hx]
  constructor
  · intro h
    have := (h 1 2 _ _ (hv 1 (by norm_num)) (hv 2 (by norm_num))).1 (by norm_num)
    norm_num at this
  · intro h
    have := (h (-1) 1 _ _ (hv _ (by norm_num)) (hv _ (by norm_num))).1 (by norm_num)
    norm_num at this

/-- Non-vacuity: metres and minus metres, degrees Celsius and kelvin (offset, no logarithm), seconds and hertz meet the hypotheses. -/
example : UnitWithDims Demo.degC [(Demo.kelvin, 1)] ∧ UnitWithDims (Demo.u (.ident c!"K")) [(Demo.kelvin, 1)] ∧
    Constructible (.unit Demo.degC) (.unit (Demo.u (.ident c!"K"))) ∧ Constructible (.unit (Demo.u (.ident c!"K"))) (.unit Demo.degC) ∧
    (∃ e, Demo.degC.expand = .ok e ∧ LogFree e) := by
  refine ⟨⟨⟨_, _, _, rfl⟩, by decide +kernel⟩, ⟨⟨_, _, _, rfl⟩, by decide +kernel⟩,
    ⟨[.add (27315/100), .scale ⟨1, []⟩], by decide +kernel⟩, ⟨[.scale ⟨1, []⟩, .add (-27315/100)], by decide +kernel⟩, ?_⟩
  refine ⟨.shift (.ident c!"kelvin") (.number (.dec ⟨false, 27315, -2⟩) none), by decide +kernel, trivial, trivial⟩

example : UnitWithDims Demo.s [(Demo.second, 1)] ∧ UnitWithDims Demo.hz [(Demo.second, -1)] ∧
    (¬ ∀ s, Dims.power s [(Demo.second, (1 : Int))] = Dims.power s [(Demo.second, (-1 : Int))]) ∧
    Constructible (.unit Demo.s) (.unit Demo.hz) ∧ Constructible (.unit Demo.hz) (.unit Demo.s) :=
  ⟨⟨⟨_, _, _, rfl⟩, by decide +kernel⟩, ⟨⟨_, _, _, rfl⟩, by decide +kernel⟩,
    fun h => absurd (h c!"second") (by decide +kernel),
    ⟨[.recip, .scale ⟨1, []⟩], by decide +kernel⟩, ⟨[.recip, .scale ⟨1, []⟩], by decide +kernel⟩⟩

/-- … and two shipped units: `celsius` and `fahrenheit`. -/
example : ∃ u ∈ shipped, ∃ v ∈ shipped, c!"celsius" ∈ u.spellings ∧ c!"fahrenheit" ∈ v.spellings ∧ u.powers = v.powers := by
  have h : (shipped.any fun u => shipped.any fun v =>
    (u.spellings.any fun k => Nat.beq (enc k) (enc c!"celsius")) && (v.spellings.any fun k => Nat.beq (enc k) (enc c!"fahrenheit")) &&
      decide (u.powers = v.powers)) = true := by decide +kernel
  obtain ⟨u, hu, h⟩ := List.any_eq_true.1 h
  obtain ⟨v, hv, h⟩ := List.any_eq_true.1 h
  simp only [Bool.and_eq_true, List.any_eq_true, decide_eq_true_eq] at h
  obtain ⟨⟨⟨k, hk, e1⟩, ⟨j, hj, e2⟩⟩, h3⟩ := h
  exact ⟨u, hu, v, hv, enc_inj (Nat.eq_of_beq_eq_true e1) ▸ hk, enc_inj (Nat.eq_of_beq_eq_true e2) ▸ hj, h3⟩

end Verif
