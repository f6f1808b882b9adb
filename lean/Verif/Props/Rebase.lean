import Verif.Lemmas.RebaseEq
import Verif.Props.Convert
import Verif.Props.Units
/-!
# C82: which units are the basis units does not matter

`Spec/Rebase.lean` says what it means that a basis unit `b` is defined by other units from now on (`a.rebase b r` is `a` with
everything that referred to `b` referring to `r`), and what it may be defined as (`MayDefine`).
-/

namespace Verif
open Rebase

namespace Rebase

theorem unitWithDims {b : Str} {r a : Ref} {dr d : Dims} (hr : r.dims = .ok dr) (ha : UnitWithDims a d) (hd : a.Dimensional b) :
    ∃ d', UnitWithDims (a.rebase b r) d' ∧ DSub b dr d d' := by
  obtain ⟨⟨n, e, refs, rfl⟩, h⟩ := ha
  obtain ⟨d', h', hs⟩ := dims_rebase hr hd h
  exact ⟨d', ⟨⟨n, e, _, by rw [Ref.rebase]⟩, h'⟩, hs⟩

theorem dsub_eq {b : Str} {dr d1 d2 d1' d2' : Dims} (h1 : DSub b dr d1 d1') (h2 : DSub b dr d2 d2')
    (h : ∀ s, Dims.power s d1 = Dims.power s d2) : ∀ s, Dims.power s d1' = Dims.power s d2' := by
  intro s; rw [h1, h2, h s, h b]

theorem dsub_neg {b : Str} {dr d1 d2 d1' d2' : Dims} (h1 : DSub b dr d1 d1') (h2 : DSub b dr d2 d2')
    (h : ∀ s, Dims.power s d1 = - Dims.power s d2) : ∀ s, Dims.power s d1' = - Dims.power s d2' := by
  intro s; rw [h1, h2, h s, h b]; split <;> ring

theorem nonZero {b : Str} {r : Ref} {R : Node} {M : Mono} (hr : r.expand = .ok R) (hp : ∀ root, R.split root = .ok (none, R))
    (hR : R.toMono = .ok M) (hM : M.coef ≠ 0) {a : Ref} (hc : a.Closed) (h : NonZero (.unit a)) : NonZero (.unit (a.rebase b r)) := by
  obtain ⟨t, d, s, c⟩ := h
  obtain ⟨t', d', e1, _, f2⟩ := symDef_rebase (b := b) hr hp hR hM hc s
  exact ⟨t', d', e1, mt (f2.zero_iff hM).1 c⟩

end Rebase

/-- **C82**, questions: redefining a basis unit never makes units inconvertible, nor different. -/
theorem C82_stays_convertible (b : Str) (r : Ref) (hr : MayDefine r) (a c : Ref) (d1 d2 : Dims) (ha : UnitWithDims a d1)
    (hc : UnitWithDims c d2) (da : a.Dimensional b) (dc : c.Dimensional b) :
    ((UObj.unit a).isConvertibleTo (.unit c) = .ok true → (UObj.unit (a.rebase b r)).isConvertibleTo (.unit (c.rebase b r)) = .ok true) ∧
    (a.Closed → c.Closed → Ref.eq a c = .ok true → Ref.eq (a.rebase b r) (c.rebase b r) = .ok true) := by
  obtain ⟨⟨dr, hdr⟩, R, M, hR, hp, hM, hM0⟩ := hr
  constructor
  · obtain ⟨d1', u1, s1⟩ := Rebase.unitWithDims hdr ha da
    obtain ⟨d2', u2, s2⟩ := Rebase.unitWithDims hdr hc dc
    rw [convertible_iff ha hc, convertible_iff u1 u2]
    rintro (h | h)
    · exact .inl (dsub_eq s1 s2 h)
    · exact .inr (dsub_neg s1 s2 h)
  · intro ca cc h
    obtain ⟨⟨n1, e1, r1, rfl⟩, _⟩ := ha
    obtain ⟨⟨n2, e2, r2, rfl⟩, _⟩ := hc
    exact eq_rebase hR (plain_split hp) hM hM0 ca cc h

/-- **C82**, the dimensionality: the powers of `b` become powers of what it is defined by. -/
theorem C82_dimensionality (b : Str) (r : Ref) (dr : Dims) (hdr : r.dims = .ok dr) (a : Ref) (d : Dims) (ha : UnitWithDims a d)
    (da : a.Dimensional b) :
    ∃ d', UnitWithDims (a.rebase b r) d' ∧
      ∀ s, Dims.power s d' = (if s = b then 0 else Dims.power s d) + Dims.power b d * Dims.power s dr :=
  Rebase.unitWithDims hdr ha da

/-- **C82**, conversions. A basis unit is redefined by other units. What could be converted is converted to the same value as before:
always, if the two units have the same dimensionality, and for reciprocal conversions if the units have not become dimensionless. -/
theorem C82_basis_does_not_matter (b : Str) (r : Ref) (hr : MayDefine r) (a c : Ref) (d1 d2 : Dims) (ha : UnitWithDims a d1)
    (hc : UnitWithDims c d2) (ca : a.Closed) (cc : c.Closed) (da : a.Dimensional b) (dc : c.Dimensional b)
    (hz : Constructible (.unit c) (.unit a))
    (hd : (∀ s, Dims.power s d1 = Dims.power s d2) ∨ (UObj.unit (a.rebase b r)).isDimensionless ≠ .ok true)
    (x v : ℝ) (h : convert (.unit a) (.unit c) x = .ok v) :
    convert (.unit (a.rebase b r)) (.unit (c.rebase b r)) x = .ok v := by
  obtain ⟨⟨dr, hdr⟩, R, M, hR, hp, hM, hM0⟩ := hr
  have hMr : (M.coef : ℝ) ≠ 0 := by exact_mod_cast hM0
  have hsp := plain_split hp
  obtain ⟨d1', u1, s1⟩ := Rebase.unitWithDims hdr ha da
  obtain ⟨d2', u2, s2⟩ := Rebase.unitWithDims hdr hc dc
  obtain ⟨ops, hops⟩ := convert_built h
  obtain ⟨ops', hops'⟩ := hz
  obtain ⟨fd, td, σ, e1, e2, e3, e4, nzc, _⟩ := build_facts hops
  obtain ⟨_, _, _, _, _, _, _, nza, _⟩ := build_facts hops'
  obtain ⟨a1, a2⟩ := dimObj_of ha
  obtain ⟨c1, c2⟩ := dimObj_of hc
  rw [a1] at e1; cases e1
  rw [c1] at e3; cases e3
  have hl' : Link (.dimensionality d1') (.dimensionality d2') σ := by
    rw [link_proper a2 c2] at e4
    rw [link_proper (dimObj_of u1).2 (dimObj_of u2).2]
    cases σ with
    | true => exact dsub_eq s1 s2 e4
    | false =>
      refine ⟨fun hne => ?_, dsub_neg s1 s2 e4.2⟩
      rcases hd with hd | hd
      · exact e4.1 hd
      · apply hd
        have hopp := dsub_neg s1 s2 e4.2
        have hz : ∀ s, Dims.power s d1' = 0 := fun s => by
          have h1 : Dims.power s d1' = Dims.power s d2' := hne s
          have h2 := hopp s
          omega
        have he : d1' = [] := by
          obtain ⟨w1, w2⟩ := dims_wf u1.2
          exact List.isEmpty_iff.1 ((Dims.isEmpty_iff w1 w2).2 hz)
        have hu := u1.2
        subst he
        obtain ⟨⟨n, e, refs, he⟩, _⟩ := u1
        rw [he] at hu ⊢
        simp only [UObj.isDimensionless, UObj.dimObj, Ref.dimObj, hu, bind, Except.bind]
        rfl
  obtain ⟨q, E, q', E', b1, b2, hrel⟩ := (convert_iff a1 a2 c1 e4 nza nzc x v).1 h
  obtain ⟨F, g1, g2⟩ := base_rebase (b := b) hR hsp hM hM0 ca b1
  obtain ⟨F', g3, g4⟩ := base_rebase (b := b) hR hsp hM hM0 cc b2
  refine (convert_iff (dimObj_of u1).1 (dimObj_of u1).2 (dimObj_of u2).1 hl' (Rebase.nonZero hR hsp hM hM0 ca nza)
    (Rebase.nonZero hR hsp hM hM0 cc nzc) x v).2 ⟨_, F, _, F', g1, g3, ?_⟩
  cases σ with
  | true =>
    obtain ⟨rfl, rfl⟩ := hrel
    exact ⟨rfl, funext fun s => by rw [g2, g4]⟩
  | false =>
    obtain ⟨r1, rfl, rfl⟩ := hrel
    refine ⟨mul_ne_zero r1 (zpow_ne_zero _ hMr), ?_, funext fun s => ?_⟩
    · rw [mul_inv, ← zpow_neg]
    · rw [g4, g2]; split <;> ring

/-! ## Every unit that a system returns meets the hypotheses -/

theorem Rebase.closedAll_of : ∀ {l : List (Str × Ref)}, (∀ q ∈ l, q.2.Closed) → Ref.ClosedAll l
  | [], _ => trivial
  | _ :: _, h => ⟨h _ (List.mem_cons_self ..), Rebase.closedAll_of fun q hq => h q (List.mem_cons_of_mem _ hq)⟩

theorem Rebase.dimensionalAll_of {b : Str} : ∀ {l : List (Str × Ref)}, (∀ q ∈ l, q.2.Dimensional b) → Ref.DimensionalAll b l
  | [], _ => trivial
  | _ :: _, h => ⟨h _ (List.mem_cons_self ..), Rebase.dimensionalAll_of fun q hq => h q (List.mem_cons_of_mem _ hq)⟩

theorem Rebase.hereditary (b : Str) : Hereditary fun r => r.Closed ∧ r.Dimensional b where
  pre _ := ⟨trivial, trivial⟩
  unit names e refs h _ hr := by
    refine ⟨?_, ?_⟩
    · rw [Ref.Closed]; exact ⟨h, closedAll_of fun q hq => (hr q hq).1⟩
    · rw [Ref.Dimensional]; exact dimensionalAll_of fun q hq => (hr q hq).2

/-- **C82.** The hypotheses about `a` and `c` hold for all units of a system in which `b` was not declared dimensionless. -/
theorem C82_units_of_a_system (b : Str) (env : Env) (hord : ∀ l x, x ∈ env.order l ↔ x ∈ l) (s : System)
    (hs : Spec.BuiltFrom (fun r => r.Closed ∧ r.Dimensional b) env s) (fuel : Nat) (text : Str) (a : Ref)
    (h : (System.unit env fuel text s).1 = .ok (.unit a)) : a.Closed ∧ a.Dimensional b :=
  (keeps_unit (Rebase.hereditary b) hord fuel text s (builtFrom_all (Rebase.hereditary b) hord hs)).2 _ h

/-! ## Where it stops, and non-vacuity -/

/-- a dimensionless unit: 1 -/
def Demo.one : Ref := .unit none (.number (.int 1) none) []

/-- **C82** (why "not dimensionless"). If the second is defined as the number 1 (a system of units may do that), seconds and hertz
become the same dimensionless unit, and 2 s, which was 0.5 Hz, becomes 2 Hz. -/
theorem C82_dimensionless_refuted :
    MayDefine Demo.one ∧ UnitWithDims Demo.s [(Demo.second, 1)] ∧ UnitWithDims Demo.hz [(Demo.second, -1)] ∧
    Demo.s.Closed ∧ Demo.hz.Closed ∧ Demo.s.Dimensional c!"second" ∧ Demo.hz.Dimensional c!"second" ∧
    convert (.unit Demo.s) (.unit Demo.hz) 2 = .ok 2⁻¹ ∧
    convert (.unit (Demo.s.rebase c!"second" Demo.one)) (.unit (Demo.hz.rebase c!"second" Demo.one)) 2 = .ok 2 := by
  refine ⟨⟨⟨[], by decide +kernel⟩, .number (.int 1) none, ⟨1, []⟩, by decide +kernel, trivial, by decide +kernel, by decide⟩,
    ⟨⟨_, _, _, rfl⟩, by decide +kernel⟩, ⟨⟨_, _, _, rfl⟩, by decide +kernel⟩, ?_, ?_, ?_, ?_, ?_, ?_⟩
  · simp [Demo.s, Demo.u, Ref.Closed, Demo.ref2, Ref.ClosedAll, Node.identifiers, Dict.keys]
  · simp [Demo.hz, Demo.u, Ref.Closed, Demo.ref2, Ref.ClosedAll, Node.identifiers, Dict.keys, mem_setUnion, Demo.int]
  · simp [Demo.s, Demo.u, Ref.Dimensional, Demo.ref2, Ref.DimensionalAll]; decide
  · simp [Demo.hz, Demo.u, Ref.Dimensional, Demo.ref2, Ref.DimensionalAll]; decide
  · rw [convert_runs (ops := [.recip, .scale ⟨1, []⟩]) (ops' := [.recip, .scale ⟨1, []⟩])
      (by decide +kernel) (by decide +kernel) (by decide +kernel)]
    simp [runOps, COp.run, bind, Except.bind]
  · rw [convert_runs (ops := [.scale ⟨1, []⟩]) (ops' := [.scale ⟨1, []⟩])
      (by decide +kernel) (by decide +kernel) (by decide +kernel)]
    simp [runOps, COp.run, bind, Except.bind]

/-- the second as the time light takes for 299 792 458 m -/
def Demo.lightSecond : Ref := Demo.u (.mul (Demo.int 299792458) (.ident c!"m"))

theorem Demo.closed {e : Node} (h : ∀ n ∈ e.identifiers, n ∈ [c!"m", c!"s", c!"K"]) : (Demo.u e).Closed := by
  unfold Demo.u Demo.ref2
  simp only [Ref.Closed, Ref.ClosedAll, and_true]
  exact h

theorem Demo.dimensional {e : Node} : (Demo.u e).Dimensional c!"second" := by
  unfold Demo.u Demo.ref2
  simp only [Ref.Dimensional, Ref.DimensionalAll, and_true]
  decide

/-- Non-vacuity: the second may be defined by the metre; seconds and hertz, degrees Celsius and kelvin, meet the hypotheses. -/
example : MayDefine Demo.lightSecond ∧ Demo.s.Closed ∧ Demo.hz.Closed ∧ Demo.degC.Closed ∧ Demo.s.Dimensional c!"second" ∧
    Demo.hz.Dimensional c!"second" ∧ Demo.degC.Dimensional c!"second" ∧
    UnitWithDims Demo.s [(Demo.second, 1)] ∧ UnitWithDims Demo.hz [(Demo.second, -1)] ∧
    Constructible (.unit Demo.hz) (.unit Demo.s) ∧ convert (.unit Demo.s) (.unit Demo.hz) 2 = .ok 2⁻¹ ∧
    (UObj.unit (Demo.s.rebase c!"second" Demo.lightSecond)).isDimensionless ≠ .ok true ∧
    (Demo.s.rebase c!"second" Demo.lightSecond).symDef = .ok ([], ⟨299792458, [(c!"metre", 1)]⟩) ∧
    Demo.s.symDef = .ok ([], ⟨1, [(c!"second", 1)]⟩) :=
  ⟨⟨⟨[(Demo.metre, 1)], by decide +kernel⟩, .mul (Demo.int 299792458) (.ident c!"metre"), ⟨299792458, [(c!"metre", 1)]⟩,
      by decide +kernel, ⟨trivial, trivial⟩, by decide +kernel, by decide +kernel⟩,
    Demo.closed (by decide), Demo.closed (by decide), Demo.closed (by decide), Demo.dimensional, Demo.dimensional, Demo.dimensional,
    ⟨⟨_, _, _, rfl⟩, by decide +kernel⟩, ⟨⟨_, _, _, rfl⟩, by decide +kernel⟩, ⟨[.recip, .scale ⟨1, []⟩], by decide +kernel⟩,
    C82_dimensionless_refuted.2.2.2.2.2.2.2.1, by decide +kernel, by decide +kernel, by decide +kernel⟩

/-- … what was not convertible may become so: seconds and metres. -/
example : (UObj.unit Demo.s).isConvertibleTo (.unit Demo.m) = .ok false ∧
    (UObj.unit (Demo.s.rebase c!"second" Demo.lightSecond)).isConvertibleTo (.unit (Demo.m.rebase c!"second" Demo.lightSecond)) = .ok true := by
  constructor <;> decide +kernel

/-- … and the systems: the demo system, in which only the radian is dimensionless. -/
example : Spec.BuiltFrom (fun r => r.Closed ∧ r.Dimensional c!"second") Demo.env Demo.sys := by
  have hb : ∀ b : Basis, b ∈ [Demo.metre, Demo.second, Demo.kelvin, Demo.radian] → (Ref.basis b).Closed ∧ (Ref.basis b).Dimensional c!"second" := by
    intro b hb
    refine ⟨trivial, ?_⟩
    rw [Ref.Dimensional]
    simp only [List.mem_cons, List.not_mem_nil, or_false] at hb
    rcases hb with rfl | rfl | rfl | rfl <;> decide
  have basis : ∀ {s : System}, Spec.BuiltFrom (fun r => r.Closed ∧ r.Dimensional c!"second") Demo.env s → ∀ b,
      b ∈ [Demo.metre, Demo.second, Demo.kelvin, Demo.radian] →
      Spec.BuiltFrom (fun r => r.Closed ∧ r.Dimensional c!"second") Demo.env (Demo.addBasis b s) :=
    fun h b hm => .addUnit (.basis b) false (hb b hm) h
  have lazy' : ∀ {s : System}, Spec.BuiltFrom (fun r => r.Closed ∧ r.Dimensional c!"second") Demo.env s → ∀ d ref,
      Spec.BuiltFrom (fun r => r.Closed ∧ r.Dimensional c!"second") Demo.env (Demo.addLazy d ref s) := by
    intro s h d ref
    exact .addLazy s.heap.length false (by simp [System.alloc]) (.newLazy d ref h)
  exact lazy' (lazy' (lazy' (basis (basis (basis (basis
      (.addPrefix Demo.milli (.addPrefix Demo.kilo .empty)) Demo.metre (by simp)) Demo.second (by simp)) Demo.kelvin (by simp))
      Demo.radian (by simp)) _ _) _ _) _ _

end Verif
