import Verif.Spec.Algebra
import Verif.Lemmas.InlineUnits
import Verif.Lemmas.Texts
/-! Lemmas for C78: equal by arithmetic, equal as units. -/
namespace Verif.Alg
open Spec

theorem mult_magnitude {r : Ref} (h : Multiplicative r) (ρ : Str → ℝ) :
    ∀ {e : Node}, r.expand = .ok e → Plain e ∧ evalNode ρ e = r.magnitude ρ := by
  induction h with
  | basis b =>
    intro e he
    rw [Ref.expand] at he; cases he
    exact ⟨trivial, by rw [evalNode, Ref.magnitude]⟩
  | pre p =>
    intro e he
    rw [Ref.expand, Prefix.expand] at he
    rw [Ref.magnitude]
    cases h1 : Dec.parse p.value with
    | error x => rw [h1] at he; cases he
    | ok d => rw [h1] at he; cases he; exact ⟨trivial, rfl⟩
  | unit names defn refs hp hr ih =>
    intro e he
    obtain ⟨es, h1, rfl⟩ := expand_unit he
    have key : ∀ k e, Dict.get k es = some e → ∃ r, Dict.get k refs = some r ∧ r.expand = .ok e := by
      intro k e hk
      cases hg : Dict.get k refs with
      | none => rw [get_expandList_none h1 hg] at hk; cases hk
      | some r =>
        obtain ⟨e', a1, a2⟩ := get_expandList h1 hg
        rw [hk] at a2; cases a2
        exact ⟨r, rfl, a1⟩
    refine ⟨substitute_plain hp fun k e hk => ?_, ?_⟩
    · obtain ⟨r, g1, g2⟩ := key k e hk
      exact (ih k r g1 g2).1
    · rw [eval_substitute ρ hp, Ref.magnitude]
      congr 1
      funext k
      rw [get_magnitudes]
      cases hg : Dict.get k refs with
      | none => rw [get_expandList_none h1 hg]; rfl
      | some r =>
        obtain ⟨e', a1, a2⟩ := get_expandList h1 hg
        rw [a2]
        exact (ih k r hg a1).2

theorem mult_symDef {r : Ref} (h : Multiplicative r) {t : List TOp} {m : Mono} (hs : r.symDef = .ok (t, m)) :
    t = [] ∧ (∀ ρ : Str → ℝ, (∀ s, ρ s ≠ 0) → m.value ρ = r.magnitude ρ) := by
  unfold Ref.symDef at hs
  cases he : r.expand with
  | error x => rw [he] at hs; cases hs
  | ok e =>
    rw [he] at hs
    have hp := (mult_magnitude h (fun _ => 1) he).1
    obtain ⟨h1, h2⟩ := (symDef_noTransform (plain_noTransform hp) t m).1 hs
    refine ⟨h1, fun ρ hρ => ?_⟩
    rw [← toMono_value hρ hp h2]
    exact (mult_magnitude h ρ he).2

/-! ## arithmetic -/

theorem eval_congr {σ τ : Str → ℝ} {e : Node} (hp : Plain e) (h : ∀ n ∈ e.identifiers, σ n = τ n) : evalNode σ e = evalNode τ e := by
  induction e with
  | number v r => simp [evalNode]
  | ident n => simp only [evalNode]; exact h n (by simp [Node.identifiers])
  | unhandled r => exact absurd hp (by simp [Plain])
  | mul l r hl hr =>
    rw [evalNode, evalNode, hl hp.1 fun n hn => h n (by simp [Node.identifiers, mem_setUnion, hn]),
      hr hp.2 fun n hn => h n (by simp [Node.identifiers, mem_setUnion, hn])]
  | div l r hl hr =>
    rw [evalNode, evalNode, hl hp.1 fun n hn => h n (by simp [Node.identifiers, mem_setUnion, hn]),
      hr hp.2 fun n hn => h n (by simp [Node.identifiers, mem_setUnion, hn])]
  | raise l r hl hr =>
    obtain ⟨hp1, i, raw, rfl⟩ := hp
    rw [evalNode, evalNode, hl hp1 fun n hn => h n (by simp [Node.identifiers, mem_setUnion, hn])]
  | shift u f => exact absurd hp (by simp [Plain])
  | log fn t => exact absurd hp (by simp [Plain])

/-- where the value is not zero, identifiers that are zero do not matter -/
theorem eval_patch {σ : Str → ℝ} {e : Node} (hp : Plain e) (h : evalNode σ e ≠ 0) :
    evalNode (fun n => if σ n = 0 then 1 else σ n) e = evalNode σ e := by
  induction e with
  | number v r => simp [evalNode]
  | ident n => simp only [evalNode] at h ⊢; rw [if_neg h]
  | unhandled r => exact absurd hp (by simp [Plain])
  | mul l r hl hr =>
    rw [evalNode] at h ⊢
    rw [evalNode, hl hp.1 (left_ne_zero_of_mul h), hr hp.2 (right_ne_zero_of_mul h)]
  | div l r hl hr =>
    rw [evalNode] at h ⊢
    rw [evalNode, hl hp.1 (fun h0 => h (by rw [h0, zero_div])), hr hp.2 (fun h0 => h (by rw [h0, div_zero]))]
  | raise l r hl hr =>
    obtain ⟨hp1, i, raw, rfl⟩ := hp
    rw [evalNode] at h ⊢
    rw [evalNode]
    by_cases hi : i = 0
    · subst hi; rw [zpow_zero, zpow_zero]
    · rw [hl hp1 (fun h0 => h (by rw [h0, zero_zpow _ hi]))]
  | shift u f => exact absurd hp (by simp [Plain])
  | log fn t => exact absurd hp (by simp [Plain])

/-- scaling every identifier by a power of two scales the value by the degree -/
theorem eval_scale {σ : Str → ℝ} (P : Str → Int) {e : Node} (hp : Plain e) :
    evalNode (fun n => σ n * 2 ^ P n) e = evalNode σ e * 2 ^ degree P e := by
  induction e with
  | number v r => simp [evalNode, degree]
  | ident n => simp [evalNode, degree]
  | unhandled r => exact absurd hp (by simp [Plain])
  | mul l r hl hr =>
    simp only [evalNode, degree]
    rw [hl hp.1, hr hp.2, zpow_add₀ (by norm_num)]
    ring
  | div l r hl hr =>
    simp only [evalNode, degree]
    rw [hl hp.1, hr hp.2, zpow_sub₀ (by norm_num), mul_div_mul_comm]
  | raise l r hl hr =>
    obtain ⟨hp1, i, raw, rfl⟩ := hp
    simp only [evalNode, degree]
    rw [hl hp1, mul_zpow, ← zpow_mul, mul_comm i]
  | shift u f => exact absurd hp (by simp [Plain])
  | log fn t => exact absurd hp (by simp [Plain])

theorem same_degree {e1 e2 : Node} (h1 : Plain e1) (h2 : Plain e2) (h : SameArithmetic e1 e2) {σ : Str → ℝ} (hσ : ∀ n, σ n ≠ 0)
    (hv : evalNode σ e1 ≠ 0) (P : Str → Int) : degree P e1 = degree P e2 := by
  have k := h (fun n => σ n * 2 ^ P n) (fun n => mul_ne_zero (hσ n) (zpow_ne_zero _ (by norm_num)))
  rw [eval_scale P h1, eval_scale P h2, ← h σ hσ] at k
  exact zpow_right_injective₀ (by norm_num : (0:ℝ) < 2) (by norm_num) (mul_left_cancel₀ hv k)

/-! ## monomials -/

theorem powProd_pick (s : Str) (d : List (Str × Int)) (hd : (d.map Prod.fst).Nodup) :
    powProd (fun k => if k = s then (2:ℝ) else 1) d = 2 ^ ((Dict.get s d).getD 0) := by
  induction d with
  | nil => simp [powProd, Dict.get]
  | cons q d ih =>
    obtain ⟨k, e⟩ := q
    rw [List.map_cons, List.nodup_cons] at hd
    have : powProd (fun k => if k = s then (2:ℝ) else 1) ((k, e) :: d) =
      (if k = s then (2:ℝ) else 1) ^ e * powProd (fun k => if k = s then (2:ℝ) else 1) d := by
      unfold powProd; rw [List.map_cons, List.prod_cons]
    rw [this, ih hd.2]
    by_cases hk : k = s
    · subst hk
      have hn : Dict.get k d = none := (Dict.get_eq_none_iff k d).2 hd.1
      simp [Dict.get, hn]
    · simp [Dict.get, hk]

theorem mono_ext {a b : Mono} (ha : a.WF) (hb : b.WF) (hc : a.coef ≠ 0)
    (h : ∀ ρ : Str → ℝ, (∀ s, ρ s ≠ 0) → a.value ρ = b.value ρ) : a.coef = b.coef ∧ ∀ s, a.exp s = b.exp s := by
  have h1 := h (fun _ => 1) (fun _ => one_ne_zero)
  rw [value_one, value_one] at h1
  have hco : a.coef = b.coef := by exact_mod_cast h1
  refine ⟨hco, fun s => ?_⟩
  have h2 := h (fun k => if k = s then (2:ℝ) else 1) (fun k => by split <;> norm_num)
  unfold Mono.value at h2
  rw [powProd_pick s _ ha.nodup, powProd_pick s _ hb.nodup, ← hco] at h2
  exact zpow_right_injective₀ (by norm_num : (0:ℝ) < 2) (by norm_num)
    (mul_left_cancel₀ (by exact_mod_cast hc : (a.coef : ℝ) ≠ 0) h2)

/-! ## units with the same powers and the same monomial -/

/-- the same monomial, up to the order of the factors -/
structure Twin (u v : Ref) (a b : Dims) (m k : Mono) : Prop where
  objU : u.dimObj = .ok (.dimensionality a)
  objV : v.dimObj = .ok (.dimensionality b)
  wfU : a.Nodup ∧ a.NoZero
  wfV : b.Nodup ∧ b.NoZero
  pow : ∀ y, Dims.power y a = Dims.power y b
  symU : u.symDef = .ok ([], m)
  symV : v.symDef = .ok ([], k)
  coef : m.coef = k.coef
  exp : ∀ s, m.exp s = k.exp s
  nz : m.coef ≠ 0

theorem Twin.symm {u v : Ref} {a b : Dims} {m k : Mono} (h : Twin u v a b m k) : Twin v u b a k m :=
  ⟨h.objV, h.objU, h.wfV, h.wfU, fun y => (h.pow y).symm, h.symV, h.symU, h.coef.symm, fun s => (h.exp s).symm,
    by rw [← h.coef]; exact h.nz⟩

theorem Twin.base {u v : Ref} {a b : Dims} {m k : Mono} (h : Twin u v a b m k) {x q : ℝ} {E : Str → Int}
    (hb : Base (.unit u) x q E) : Base (.unit v) x q E := by
  obtain ⟨t, d, l, w, y, h1, h2, h3, h4, h5, h6, h7⟩ := hb
  simp only [UObj.symDef] at h1
  rw [h.symU] at h1; cases h1
  exact ⟨[], k, l, w, y, h.symV, by rw [← h.coef]; exact h2, h3, h4, h5, by rw [h6, h.coef], by rw [h7]; funext s; rw [h.exp]⟩

theorem Twin.linkLeft {u v : Ref} {a b : Dims} {m k : Mono} (h : Twin u v a b m k) {o : DimObj} (ho : Inl.Wf o) {σ : Bool}
    (hl : Link (.dimensionality a) o σ) : Link (.dimensionality b) o σ := by
  have hi : ∀ y, Dims.power y a.inverted = Dims.power y b.inverted := by
    intro y; rw [Dims.power_inverted, Dims.power_inverted, h.pow]
  have q1 := Inl.dimObj_eq_left h.wfU h.wfV h.pow ho
  have q2 := Inl.dimObj_eq_left (Inl.inverted_wf h.wfU) (Inl.inverted_wf h.wfV) hi ho
  cases σ with
  | true => show (DimObj.dimensionality b).eq o = true; rw [← q1]; exact hl
  | false =>
    obtain ⟨e1, i, e2, e3⟩ := hl
    cases e2
    exact ⟨by rw [← q1]; exact e1, _, rfl, by rw [← q2]; exact e3⟩

theorem Twin.linkRight {u v : Ref} {a b : Dims} {m k : Mono} (h : Twin u v a b m k) {o : DimObj} (ho : Inl.Wf o) {σ : Bool}
    (hl : Link o (.dimensionality a) σ) : Link o (.dimensionality b) σ := by
  have q1 := Inl.dimObj_eq_right h.wfU h.wfV h.pow ho
  cases σ with
  | true => show o.eq (.dimensionality b) = true; rw [← q1]; exact hl
  | false =>
    obtain ⟨e1, i, e2, e3⟩ := hl
    exact ⟨by rw [← q1]; exact e1, i, e2, by rw [← Inl.dimObj_eq_right h.wfU h.wfV h.pow (Inl.wf_inverted e2 ho)]; exact e3⟩

theorem Twin.to {u v : Ref} {a b : Dims} {m k : Mono} (h : Twin u v a b m k) (w : UObj) (x y : ℝ)
    (hc : convert (.unit u) w x = .ok y) : convert (.unit v) w x = .ok y := by
  obtain ⟨ops, hops⟩ := convert_built hc
  obtain ⟨fd, td, σ, f1, f2, f3, f4, f5, _⟩ := build_facts hops
  simp only [UObj.dimObj] at f1
  rw [h.objU] at f1; cases f1
  have nu : NonZero (.unit u) := ⟨_, _, h.symU, h.nz⟩
  have nv : NonZero (.unit v) := ⟨_, _, h.symV, by rw [← h.coef]; exact h.nz⟩
  obtain ⟨q, E, q', E', b1, b2, r⟩ := (convert_iff (a := .unit u) h.objU f2 f3 f4 nu f5 x y).1 hc
  exact (convert_iff (a := .unit v) h.objV ⟨_, rfl, h.wfV.1, h.wfV.2⟩ f3 (h.linkLeft (Inl.dimObj_wf f3) f4) nv f5 x y).2
    ⟨q, E, q', E', h.base b1, b2, r⟩

theorem zero_div' {d m : Mono} (hd : d.coef = 0) (hm : m.coef ≠ 0) : d.div m = .ok ⟨0, []⟩ := by
  unfold Mono.div
  rw [Mono.inv_ok hm]
  show Except.ok (d.mul _) = _
  unfold Mono.mul Mono.norm
  rw [if_pos (by show d.coef * _ = 0; rw [hd, zero_mul])]

theorem zero_mul_inv {d m : Mono} (hd : d.coef = 0) : (d.mul m).inv = .error .zoo := by
  unfold Mono.inv
  rw [if_pos (by rw [Mono.coef_mul, hd, zero_mul])]

theorem Twin.from {u v : Ref} {a b : Dims} {m k : Mono} (h : Twin u v a b m k) (w : UObj) (x y : ℝ)
    (hc : convert w (.unit u) x = .ok y) : convert w (.unit v) x = .ok y := by
  have nu : NonZero (.unit u) := ⟨_, _, h.symU, h.nz⟩
  have nz' : k.coef ≠ 0 := by rw [← h.coef]; exact h.nz
  have nv : NonZero (.unit v) := ⟨_, _, h.symV, nz'⟩
  obtain ⟨ops, hops⟩ := convert_built hc
  obtain ⟨fd, td, σ, f1, f2, f3, f4, f5, t, d, f6⟩ := build_facts hops
  have f3' := f3
  simp only [UObj.dimObj] at f3'
  rw [h.objU] at f3'; cases f3'
  have ww := Inl.dimObj_wf f1
  by_cases hd : d.coef = 0
  · have hbuild : Converter.build w (.unit v) = Converter.build w (.unit u) := by
      have q1 := Inl.dimObj_eq_right h.wfU h.wfV h.pow ww
      unfold Converter.build
      simp only [f1, f6, bind, Except.bind]
      simp only [UObj.dimObj, UObj.symDef, h.objU, h.objV, h.symU, h.symV]
      cases hv : fd.inverted with
      | error x => rfl
      | ok i =>
        have q2 := Inl.dimObj_eq_right h.wfU h.wfV h.pow (Inl.wf_inverted hv ww)
        simp only [q1, q2, zero_div' hd h.nz, zero_div' hd nz', zero_mul_inv hd]
    unfold convert at hc ⊢
    rw [hbuild]; exact hc
  · have nw : NonZero w := ⟨_, _, f6, hd⟩
    obtain ⟨q, E, q', E', b1, b2, r⟩ := (convert_iff f1 f2 f3 f4 nw nu x y).1 hc
    exact (convert_iff (b := .unit v) f1 f2 h.objV (h.linkRight ww f4) nw nv x y).2 ⟨q, E, q', E', b1, h.base b2, r⟩

theorem Twin.eqTrue {u v : Ref} {a b : Dims} {m k : Mono} (h : Twin u v a b m k) : Ref.eq u v = .ok true := by
  unfold Ref.eq
  split
  · rfl
  · rw [h.symU, h.symV]
    have g1 := (obj_symDef_good (u := .unit u) h.symU).2
    have g2 := (obj_symDef_good (u := .unit v) h.symV).2
    simp only [bind, Except.bind]
    rw [(Mono.beq_iff g1 g2).2 ⟨h.coef, h.exp⟩, transEq_nil]
    rfl

theorem Twin.sameUnit {u v : Ref} {a b : Dims} {m k : Mono} (h : Twin u v a b m k) (da : u.dims = .ok a) (db : v.dims = .ok b)
    : SameUnit u v := by
  have hc : ∀ x, convert (.unit u) (.unit u) x = .ok x := by
    intro x
    have hp : Proper (.dimensionality a) := ⟨_, rfl, h.wfU.1, h.wfU.2⟩
    have nu : NonZero (.unit u) := ⟨_, _, h.symU, h.nz⟩
    have hb : Base (.unit u) x (x * m.coef) (fun s => 0 + m.exp s) :=
      ⟨[], m, [], fun _ => 0, x, h.symU, h.nz, rfl, rfl, rfl, rfl, rfl⟩
    exact (convert_iff (a := .unit u) (b := .unit u) h.objU hp h.objU (link_refl hp) nu nu x x).2 ⟨_, _, _, _, hb, hb, rfl, rfl⟩
  have hi : ∀ y, Dims.power y a.inverted = Dims.power y b.inverted := by
    intro y; rw [Dims.power_inverted, Dims.power_inverted, h.pow]
  refine ⟨h.eqTrue, h.symm.eqTrue, ?_, ?_, ?_, fun w x y => ⟨h.to w x y, h.symm.to w x y⟩,
    fun w x y => ⟨h.from w x y, h.symm.from w x y⟩, fun x => h.from _ _ _ (hc x)⟩
  · simp only [UObj.isDimensionless, da, db]
    show Except.ok _ = Except.ok _
    rw [Inl.empty_eq h.wfU h.wfV h.pow]
  · intro w
    cases w with
    | date r d => rfl
    | unit r =>
      simp only [UObj.isConvertibleTo, h.objU, h.objV, bind, Except.bind]
      cases hw : r.dimObj with
      | error x => rfl
      | ok o =>
        have ww := Inl.dimObj_wf (w := .unit r) hw
        simp only [DimObj.inverted]
        rw [Inl.dimObj_eq_left h.wfU h.wfV h.pow ww, Inl.dimObj_eq_left (Inl.inverted_wf h.wfU) (Inl.inverted_wf h.wfV) hi ww]
  · intro w
    cases w with
    | date r d => rfl
    | unit r =>
      simp only [UObj.isConvertibleTo, bind, Except.bind]
      cases hw : r.dimObj with
      | error x => rfl
      | ok o =>
        have ww := Inl.dimObj_wf (w := .unit r) hw
        simp only [h.objU, h.objV]
        rw [Inl.dimObj_eq_right h.wfU h.wfV h.pow ww]
        cases hv : o.inverted with
        | error x => rfl
        | ok i => simp only; rw [Inl.dimObj_eq_right h.wfU h.wfV h.pow (Inl.wf_inverted hv ww)]

/-! ## equal by arithmetic -/

theorem magnitude_unit (ρ : Str → ℝ) (n : Option UnitReference) (e : Node) (r : List (Str × Ref)) :
    (Ref.unit n e r).magnitude ρ = evalNode (fun k => ((Dict.get k r).map (Ref.magnitude ρ)).getD (ρ k)) e := by
  rw [Ref.magnitude]
  congr 1
  funext k
  rw [get_magnitudes]

theorem twin_of_same {n1 n2 : Option UnitReference} {e1 e2 : Node} {r1 r2 : List (Str × Ref)}
    (ha : Multiplicative (.unit n1 e1 r1)) (hb : Multiplicative (.unit n2 e2 r2))
    (hag : ∀ n ∈ e1.identifiers, n ∈ e2.identifiers → Dict.get n r1 = Dict.get n r2) (hs : SameArithmetic e1 e2)
    {m k : Mono} {t t' : List TOp} (hm : (Ref.unit n1 e1 r1).symDef = .ok (t, m)) (hk : (Ref.unit n2 e2 r2).symDef = .ok (t', k))
    (hm0 : m.coef ≠ 0) (hk0 : k.coef ≠ 0) {a b : Dims} (da : (Ref.unit n1 e1 r1).dims = .ok a) (db : (Ref.unit n2 e2 r2).dims = .ok b) :
    Twin (.unit n1 e1 r1) (.unit n2 e2 r2) a b m k := by
  have p1 : Plain e1 := by cases ha; assumption
  have p2 : Plain e2 := by cases hb; assumption
  obtain ⟨rfl, v1⟩ := mult_symDef ha hm
  obtain ⟨rfl, v2⟩ := mult_symDef hb hk
  have w1 := (obj_symDef_good (u := .unit _) hm).2
  have w2 := (obj_symDef_good (u := .unit _) hk).2
  -- one assignment for both
  have key : ∀ ρ : Str → ℝ, (∀ s, ρ s ≠ 0) → ∃ τ : Str → ℝ, (∀ n, τ n ≠ 0) ∧ evalNode τ e1 = m.value ρ ∧ evalNode τ e2 = k.value ρ ∧
      evalNode τ e1 ≠ 0 := by
    intro ρ hρ
    obtain ⟨σ, hσ⟩ : ∃ σ : Str → ℝ, σ = fun n => if n ∈ e1.identifiers then ((Dict.get n r1).map (Ref.magnitude ρ)).getD (ρ n)
      else ((Dict.get n r2).map (Ref.magnitude ρ)).getD (ρ n) := ⟨_, rfl⟩
    have s1 : evalNode σ e1 = m.value ρ := by
      rw [v1 ρ hρ, magnitude_unit]
      exact eval_congr p1 fun n hn => by rw [hσ]; simp only [if_pos hn]
    have s2 : evalNode σ e2 = k.value ρ := by
      rw [v2 ρ hρ, magnitude_unit]
      refine eval_congr p2 fun n hn => ?_
      rw [hσ]
      by_cases h1 : n ∈ e1.identifiers
      · simp only [if_pos h1, hag n h1 hn]
      · simp only [if_neg h1]
    have z1 : evalNode σ e1 ≠ 0 := by
      rw [s1]; exact mul_ne_zero (by exact_mod_cast hm0) (powProd_ne hρ _)
    have z2 : evalNode σ e2 ≠ 0 := by
      rw [s2]; exact mul_ne_zero (by exact_mod_cast hk0) (powProd_ne hρ _)
    refine ⟨fun n => if σ n = 0 then 1 else σ n, fun n => ?_, ?_, ?_, ?_⟩
    · dsimp only; split
      · exact one_ne_zero
      · assumption
    · rw [eval_patch p1 z1, s1]
    · rw [eval_patch p2 z2, s2]
    · rw [eval_patch p1 z1]; exact z1
  have hval : ∀ ρ : Str → ℝ, (∀ s, ρ s ≠ 0) → m.value ρ = k.value ρ := by
    intro ρ hρ
    obtain ⟨τ, h1, h2, h3, _⟩ := key ρ hρ
    rw [← h2, ← h3]; exact hs τ h1
  obtain ⟨hco, hex⟩ := mono_ext w1 w2 hm0 hval
  obtain ⟨τ, t1, _, _, t4⟩ := key (fun _ => 1) (fun _ => one_ne_zero)
  have hpow : ∀ y, Dims.power y a = Dims.power y b := by
    intro y
    rw [dims_unit] at da db
    rw [(defnDims_plain_inv p1 da).2 y, (defnDims_plain_inv p2 db).2 y]
    have e1' : degree (refPower r1 y) e1 = degree (fun n => if n ∈ e1.identifiers then refPower r1 y n else refPower r2 y n) e1 :=
      degree_congr' fun n hn => by simp only [if_pos hn]
    have e2' : degree (refPower r2 y) e2 = degree (fun n => if n ∈ e1.identifiers then refPower r1 y n else refPower r2 y n) e2 :=
      degree_congr' fun n hn => by
        by_cases h1 : n ∈ e1.identifiers
        · simp only [if_pos h1]; unfold refPower; rw [hag n h1 hn]
        · simp only [if_neg h1]
    rw [e1', e2']
    exact same_degree p1 p2 hs t1 t4 _
  have oa : (Ref.unit n1 e1 r1).dimObj = .ok (.dimensionality a) := by
    show (do .ok (DimObj.dimensionality (← (Ref.unit n1 e1 r1).dims)) : Py DimObj) = _; rw [da]; rfl
  have ob : (Ref.unit n2 e2 r2).dimObj = .ok (.dimensionality b) := by
    show (do .ok (DimObj.dimensionality (← (Ref.unit n2 e2 r2).dims)) : Py DimObj) = _; rw [db]; rfl
  exact ⟨oa, ob, dims_wf da, dims_wf db, hpow, hm, hk, hco, hex, hm0⟩

theorem sameUnit_of_same {n1 n2 : Option UnitReference} {e1 e2 : Node} {r1 r2 : List (Str × Ref)}
    (ha : Multiplicative (.unit n1 e1 r1)) (hb : Multiplicative (.unit n2 e2 r2))
    (hag : ∀ n ∈ e1.identifiers, n ∈ e2.identifiers → Dict.get n r1 = Dict.get n r2) (hs : SameArithmetic e1 e2)
    (ca : Constructible (.unit (.unit n1 e1 r1)) (.unit (.unit n1 e1 r1)))
    (cb : Constructible (.unit (.unit n2 e2 r2)) (.unit (.unit n2 e2 r2))) : SameUnit (.unit n1 e1 r1) (.unit n2 e2 r2) := by
  have facts : ∀ {n e r}, Constructible (.unit (.unit n e r)) (.unit (.unit n e r)) →
      ∃ d t m, (Ref.unit n e r).dims = .ok d ∧ (Ref.unit n e r).symDef = .ok (t, m) ∧ m.coef ≠ 0 := by
    intro n e r ⟨ops, h⟩
    obtain ⟨fd, td, σ, f1, f2, f3, f4, ⟨t, m, f5, f6⟩, _⟩ := build_facts h
    simp only [UObj.dimObj] at f1
    cases hd : (Ref.unit n e r).dims with
    | error x => simp only [Ref.dimObj, hd] at f1; cases f1
    | ok d => exact ⟨d, t, m, rfl, f5, f6⟩
  obtain ⟨a, t, m, da, hm, hm0⟩ := facts ca
  obtain ⟨b, t', k, db, hk, hk0⟩ := facts cb
  exact (twin_of_same ha hb hag hs hm hk hm0 hk0 da db).sameUnit da db

end Verif.Alg
