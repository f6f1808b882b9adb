import Verif.Lemmas.ShippedCheck
import Verif.Spec.ShippedUnits
import Verif.Props.Convert
import Verif.Props.Units
/-!
# Units with the meaning of a row of the table
-/

namespace Verif
open Spec

/-- the unit has the dimensionality and the symbolic definition of a row -/
def Ref.IsRow (r : Ref) (u : ShippedUnit) : Prop :=
  ∃ d m, r.dims? = .ok (some d) ∧ (∀ s, Dims.power s d = u.dim s) ∧
    r.symDef = .ok (scaleOps u.scale, m) ∧ m.coef = u.factor ∧ ∀ s, m.exp s = u.power s

theorem dims_get_all {p : Basis × Int → Bool} : ∀ {d : Dims}, d.all p = true → ∀ s v, Dims.get? s d = some v →
    ∃ b, b.ref = s ∧ p (b, v) = true
  | [], _, s, v, h => by cases h
  | (b, k) :: d, hp, s, v, h => by
    rw [List.all_cons, Bool.and_eq_true] at hp
    unfold Dims.get? at h
    split at h
    · rename_i heq; cases h; exact ⟨b, heq, hp.1⟩
    · exact dims_get_all hp.2 s v h

theorem dimsMatch_sound {d : Dims} {u : ShippedUnit} (h : dimsMatch d u.powers = true) (s : Str) :
    Dims.power s d = u.dim s := by
  unfold dimsMatch at h
  rw [Bool.and_eq_true] at h
  obtain ⟨h1, h2⟩ := h
  unfold ShippedUnit.dim ShippedUnit.power
  cases hg : Dims.get? s d with
  | some v =>
    obtain ⟨b, rfl, hb⟩ := dims_get_all h1 s v hg
    simp only [Bool.and_eq_true, decide_eq_true_eq, beq_iff_eq] at hb
    rw [if_neg hb.1, hb.2]
    unfold Dims.power; rw [hg]; rfl
  | none =>
    have hz : Dims.power s d = 0 := by unfold Dims.power; rw [hg]; rfl
    rw [hz]
    split
    · rfl
    · rename_i hne
      cases hp : Dict.get s u.powers with
      | none => rfl
      | some v =>
        have := List.all_eq_true.1 h2 _ (Dict.get_mem hp)
        simp only [Bool.or_eq_true, decide_eq_true_eq, beq_iff_eq, hne, false_or] at this
        rw [hz] at this
        rw [← this]; rfl

theorem viewMatches_sound {u : ShippedUnit} (hw : (⟨u.factor, u.powers⟩ : Mono).WF) {v : View} (h : viewMatches u v = true)
    {r : Ref} (hr : r.HasView v) : r.IsRow u := by
  unfold viewMatches at h
  cases hd : v.dims with
  | none => rw [hd] at h; cases h
  | some d =>
    rw [hd] at h
    simp only [Bool.and_eq_true] at h
    obtain ⟨⟨h1, _⟩, h2⟩ := h
    cases hs : v.node.symDef with
    | error e => rw [hs] at h2; cases h2
    | ok q =>
      obtain ⟨t, m⟩ := q
      rw [hs] at h2
      simp only [Bool.and_eq_true, decide_eq_true_eq] at h2
      have hm := (Mono.beq_iff (symDef_good hs).2 hw).1 h2.2
      refine ⟨d, m, by rw [hr.2, hd], dimsMatch_sound h1, ?_, hm.1, hm.2⟩
      unfold Ref.symDef
      simp only [bind, Except.bind, hr.1, hs, h2.1]

theorem noTransform_of_check {n : Node} (h : n.noTransformB = true) : NoTransform n := by
  induction n with
  | number v r => trivial
  | ident n => trivial
  | unhandled r => trivial
  | mul l r hl hr => rw [Node.noTransformB, Bool.and_eq_true] at h; exact ⟨hl h.1, hr h.2⟩
  | div l r hl hr => rw [Node.noTransformB, Bool.and_eq_true] at h; exact ⟨hl h.1, hr h.2⟩
  | raise l r hl hr => rw [Node.noTransformB, Bool.and_eq_true] at h; exact ⟨hl h.1, hr h.2⟩
  | shift u f => cases h
  | log fn t => cases h

/-- the expansion has no shift and no logarithm -/
def Ref.Straight (r : Ref) : Prop := ∃ e, r.expand = .ok e ∧ NoTransform e

theorem viewMatches_straight {u : ShippedUnit} {v : View} (h : viewMatches u v = true) {r : Ref} (hr : r.HasView v)
    (hl : u.scale = .linear) : r.Straight := by
  unfold viewMatches at h
  cases hd : v.dims with
  | none => rw [hd] at h; cases h
  | some d =>
    rw [hd] at h
    simp only [Bool.and_eq_true, hl] at h
    exact ⟨_, hr.1, noTransform_of_check (by simpa using h.1.2)⟩

theorem dims_of_some {r : Ref} {d : Dims} (h : r.dims? = .ok (some d)) : r.dims = .ok d := by
  unfold Ref.dims; simp only [bind, Except.bind, h]

/-- `unit(n)` has the meaning of what `n` resolves to -/
theorem isRow_ident {r : Ref} {u : ShippedUnit} (h : r.IsRow u) (names : Option UnitReference) (n : Str) :
    (Ref.unit names (.ident n) [(n, r)]).IsRow u := by
  obtain ⟨d, m, h1, h2, h3, h4, h5⟩ := h
  have hg : Dict.get n [(n, r)] = some r := by rw [Dict.get_cons, if_pos rfl]
  obtain ⟨d', e1, e2⟩ := C09_dimensionality_of_identifier names [(n, r)] n r hg d (dims_of_some h1)
  refine ⟨d', m, ?_, fun s => (e2 s).trans (h2 s), ?_, h4, h5⟩
  · rw [dims_unit] at e1
    rw [Ref.dims?]
    change (do let d ← defnDims [(n, r)] (.ident n); .ok (some d) : Py (Option Dims)) = _
    simp only [bind, Except.bind, e1]
  · unfold Ref.symDef at h3 ⊢
    cases he : r.expand with
    | error e => rw [he] at h3; cases h3
    | ok x =>
      rw [he] at h3
      have : (Ref.unit names (.ident n) [(n, r)]).expand = .ok x := by
        rw [Ref.expand, Ref.expandList]
        simp only [bind, Except.bind, he, Ref.expandList]
        simp [Node.substitute, Dict.get_cons]
      rw [this]; exact h3

theorem scaleOps_undo (u : ShippedUnit) (x : ℝ) : undoAll (scaleOps u.scale) x * u.factor = u.quantity x := by
  unfold ShippedUnit.quantity
  cases u.scale with
  | linear => rfl
  | offset q => rfl
  | log10 => simp [scaleOps, undoAll, TOp.undo, logBaseReal, Scale.value]
  | log2 => simp [scaleOps, undoAll, TOp.undo, logBaseReal, Scale.value]
  | ln => simp [scaleOps, undoAll, TOp.undo, logBaseReal, Scale.value, ← Real.exp_mul]

theorem scaleOps_symFree (s : Scale) : SymFree (scaleOps s) := by
  intro m hm
  cases s <;> simp [scaleOps] at hm

section
variable {a b : Ref} {u v : ShippedUnit}

theorem row_unit (ha : a.IsRow u) (hu : ∃ n e r, a = .unit n e r) : ∃ d, UnitWithDims a d ∧ ∀ s, Dims.power s d = u.dim s := by
  obtain ⟨d, m, h1, h2, _⟩ := ha
  exact ⟨d, ⟨hu, dims_of_some h1⟩, h2⟩

theorem row_base (ha : a.IsRow u) (hf : u.factor ≠ 0) (x q : ℝ) (E : Str → Int) :
    Base (.unit a) x q E ↔ q = u.quantity x ∧ E = u.power := by
  obtain ⟨d, m, _, _, h3, h4, h5⟩ := ha
  rw [base_iff_of_symFree (a := .unit a) h3 (by rw [h4]; exact hf) (scaleOps_symFree _), h4, scaleOps_undo,
    show (fun s => m.exp s) = u.power from funext h5]

theorem row_nonzero (ha : a.IsRow u) (hf : u.factor ≠ 0) : NonZero (.unit a) := by
  obtain ⟨d, m, _, _, h3, h4, _⟩ := ha
  exact ⟨_, m, h3, by rw [h4]; exact hf⟩

theorem convert_row {σ : Bool} (ha : a.IsRow u) (hb : b.IsRow v) (hua : ∃ n e r, a = .unit n e r)
    (hub : ∃ n e r, b = .unit n e r) (hfu : u.factor ≠ 0) (hfv : v.factor ≠ 0)
    (hσ : match σ with
      | true => ∀ s, u.dim s = v.dim s
      | false => (¬ ∀ s, u.dim s = v.dim s) ∧ ∀ s, u.dim s = - v.dim s) (x y : ℝ) :
    convert (.unit a) (.unit b) x = .ok y ↔ Related σ (u.quantity x) u.power (v.quantity y) v.power := by
  obtain ⟨d1, w1, p1⟩ := row_unit ha hua
  obtain ⟨d2, w2, p2⟩ := row_unit hb hub
  obtain ⟨o1, q1⟩ := dimObj_of w1
  obtain ⟨o2, q2⟩ := dimObj_of w2
  have hl : Link (.dimensionality d1) (.dimensionality d2) σ := by
    rw [link_proper q1 q2]
    cases σ with
    | true => intro s; simpa only [DimObj.power, DimObj.items, p1, p2] using hσ s
    | false => simpa only [DimObj.power, DimObj.items, p1, p2] using hσ
  rw [convert_iff o1 q1 o2 hl (row_nonzero ha hfu) (row_nonzero hb hfv)]
  constructor
  · rintro ⟨q, E, q', E', b1, b2, hr⟩
    obtain ⟨rfl, rfl⟩ := (row_base ha hfu _ _ _).1 b1
    obtain ⟨rfl, rfl⟩ := (row_base hb hfv _ _ _).1 b2
    exact hr
  · intro hr
    exact ⟨_, _, _, _, (row_base ha hfu _ _ _).2 ⟨rfl, rfl⟩, (row_base hb hfv _ _ _).2 ⟨rfl, rfl⟩, hr⟩

/-- two compatible units with different radian powers: the symbol `radian` is left over -/
theorem convert_row_leftover {σ : Bool} (ha : a.IsRow u) (hb : b.IsRow v) (hua : ∃ n e r, a = .unit n e r)
    (hub : ∃ n e r, b = .unit n e r) (hfu : u.factor ≠ 0) (hfv : v.factor ≠ 0)
    (hσ : match σ with
      | true => ∀ s, u.dim s = v.dim s
      | false => (¬ ∀ s, u.dim s = v.dim s) ∧ ∀ s, u.dim s = - v.dim s)
    (hne : match σ with
      | true => u.power ≠ v.power
      | false => v.power ≠ fun s => - u.power s) (x : ℝ) :
    convert (.unit a) (.unit b) x = .error .nameError := by
  obtain ⟨d1, w1, p1⟩ := row_unit ha hua
  obtain ⟨d2, w2, p2⟩ := row_unit hb hub
  obtain ⟨o1, q1⟩ := dimObj_of w1
  obtain ⟨o2, q2⟩ := dimObj_of w2
  have hl : Link (.dimensionality d1) (.dimensionality d2) σ := by
    rw [link_proper q1 q2]
    cases σ with
    | true => intro s; simpa only [DimObj.power, DimObj.items, p1, p2] using hσ s
    | false => simpa only [DimObj.power, DimObj.items, p1, p2] using hσ
  obtain ⟨ops, hops⟩ := build_total o1 q1 o2 hl (row_nonzero ha hfu) (row_nonzero hb hfv)
  obtain ⟨fd', td', t1, m1, t2, m2, t1i, link, σ', f1, f2, f3, f4, f5, f6, f7, f8, f9⟩ := build_ops hops
  rw [o1] at f1; cases f1
  rw [o2] at f3; cases f3
  have := link_unique hl f4
  subst this
  obtain ⟨da, ma, ga1, ga2, ga3, ga4, ga5⟩ := ha
  obtain ⟨db, mb, gb1, gb2, gb3, gb4, gb5⟩ := hb
  change a.symDef = _ at f5
  change b.symDef = _ at f6
  rw [ga3] at f5; cases f5
  rw [gb3] at f6; cases f6
  have g1 := obj_symDef_good (u := .unit a) ga3
  have g2 := obj_symDef_good (u := .unit b) gb3
  obtain ⟨l1, a1, a2, a3, a4, a5, a6⟩ := invertAll_spec _ g1.1
  rw [f7] at a1; cases a1
  obtain ⟨l2, b1, b2, b3, b4, b5, b6⟩ := invertAll_spec _ g2.1
  obtain ⟨k1, k2, k3⟩ := link_spec (σ := σ) g1.2 g2.2 (by rw [ga4]; exact hfu) (by rw [gb4]; exact hfv) f9
  have hgood : ∀ o ∈ ops, o.Good := by
    rw [f8]
    intro o ho
    rcases List.mem_append.1 ho with ho | ho
    · rcases List.mem_append.1 ho with ho | ho
      · exact a2 o ho
      · exact k1 o ho
    · exact b3 o ho
  obtain ⟨ops', e1, e2, e3⟩ := simplify_spec ops ⟨1, []⟩ wf_one (by simp) hgood
  refine convert_leftover hops e1 ?_ x
  cases hs : ops'.any COp.hasSymbol with
  | true => rfl
  | false =>
    exfalso
    have hfl := e2.1 hs
    rw [exp_one, f8, flow_append] at hfl
    obtain ⟨w2, hw, hf2⟩ := hfl
    obtain ⟨w1, hf1, hfl⟩ := (flow_append _ _ _ _).1 hw
    have hz1 := flow_det _ hf1 ((a4 _ _).1 (symFree_flow (scaleOps_symFree _)))
    subst hz1
    have hb2 : Flow (fun _ => 0) l2 w2 := (b4 _ _).1 hf2
    have hz2 := flow_det _ hb2 ((b4 _ _).1 (symFree_flow (scaleOps_symFree _)))
    subst hz2
    have hz := (k2 _ _).1 hfl
    cases σ with
    | true =>
      apply hne
      funext s
      have := congrFun hz s
      simp only [linkExp, ga5, gb5] at this
      linarith
    | false =>
      apply hne
      funext s
      have := congrFun hz s
      simp only [linkExp, ga5, gb5] at this
      linarith

end

end Verif
