import Verif.Lemmas.Mono
import Verif.Lemmas.Dims
/-!
# What a converter computes
-/

namespace Verif

/-! ## The inverse of a value transformation -/

theorem TOp.invert_spec {o : TOp} (h : o.Good) :
    ∃ c, o.invert = .ok c ∧ c.Good ∧ o.forward.Good ∧
      (∀ w v, Flow w [o.forward] v ↔ Flow v [c] w) ∧
      (∀ x, ∃ y, c.run1 x = .ok y) ∧
      (∀ x y, o.forward.run1 x = .ok y ↔ c.run1 y = .ok x) := by
  cases o with
  | scale m =>
    obtain ⟨k, hi⟩ : ∃ k, m.inv = .ok k := ⟨_, Mono.inv_ok h.2⟩
    obtain ⟨_, i2, i3, i4, i5⟩ := Mono.inv_spec h.1 hi
    have hc : (m.coef : ℝ) ≠ 0 := by exact_mod_cast h.2
    refine ⟨.scale k, by simp only [TOp.invert, hi]; rfl, ⟨i4, i3⟩, h, ?_, fun x => ⟨_, rfl⟩, ?_⟩
    · intro w v
      simp only [TOp.forward, Flow]
      constructor
      · intro e; funext s; rw [← e]; simp only [i5]; ring
      · intro e; funext s; rw [← e]; simp only [i5]; ring
    · intro x y
      simp only [TOp.forward, COp.run1, i2]
      push_cast
      constructor
      · intro e; cases e; congr 1; field_simp
      · intro e; cases e; congr 1; field_simp
  | sub q =>
    refine ⟨.add q, rfl, trivial, trivial, ?_, fun x => ⟨_, rfl⟩, ?_⟩
    · intro w v
      simp only [TOp.forward, Flow]
      constructor
      · rintro ⟨h1, h2⟩; exact ⟨h2.symm, h1.symm⟩
      · rintro ⟨h1, h2⟩; exact ⟨h2.symm, h1.symm⟩
    · intro x y
      simp only [TOp.forward, COp.run1, COp.run]
      push_cast
      constructor
      · intro e; cases e; congr 1; ring
      · intro e; cases e; congr 1; ring
  | log b =>
    have hb : lnBase b ≠ 0 := h
    refine ⟨.exp b, rfl, trivial, trivial, ?_, fun x => ⟨_, rfl⟩, ?_⟩
    · intro w v
      simp only [TOp.forward, Flow]
      constructor
      · rintro ⟨h1, h2⟩; exact ⟨h2.symm, h1.symm⟩
      · rintro ⟨h1, h2⟩; exact ⟨h2.symm, h1.symm⟩
    · intro x y
      simp only [TOp.forward, COp.run1, COp.run]
      constructor
      · intro e
        by_cases hx : 0 < x
        · rw [if_pos hx] at e
          cases e
          congr 1
          rw [div_mul_cancel₀ _ hb, Real.exp_log hx]
        · rw [if_neg hx] at e; cases e
      · intro e
        cases e
        rw [if_pos (Real.exp_pos _), Real.log_exp]
        congr 1
        field_simp

theorem run1_single (op : COp) (x : ℝ) : run1 [op] x = op.run1 x := by
  simp only [run1]
  cases op.run1 x <;> rfl

theorem invertAll_spec (t : List TOp) (h : ∀ o ∈ t, o.Good) :
    ∃ l, invertAll t = .ok l ∧ (∀ o ∈ l, o.Good) ∧ (∀ o ∈ t.map TOp.forward, o.Good) ∧
      (∀ w v, Flow w (t.map TOp.forward) v ↔ Flow v l w) ∧
      (∀ x, ∃ y, run1 l x = .ok y) ∧
      (∀ x y, run1 (t.map TOp.forward) x = .ok y ↔ run1 l y = .ok x) := by
  induction t with
  | nil =>
    refine ⟨[], rfl, by simp, by simp, fun w v => ⟨fun h => h.symm, fun h => h.symm⟩, fun x => ⟨x, rfl⟩, fun x y => ?_⟩
    constructor
    · intro h; cases h; rfl
    · intro h; cases h; rfl
  | cons o t ih =>
    obtain ⟨l, a1, a2, a3, a4, a5, a6⟩ := ih fun o ho => h o (List.mem_cons_of_mem _ ho)
    obtain ⟨c, c1, c2, c3, c4, c5, c6⟩ := TOp.invert_spec (h o (List.mem_cons_self ..))
    refine ⟨l ++ [c], ?_, ?_, ?_, ?_, ?_, ?_⟩
    · simp only [invertAll, a1]
      change (do .ok (l ++ [← o.invert]) : Py (List COp)) = _
      rw [c1]; rfl
    · intro x hx
      rcases List.mem_append.1 hx with hx | hx
      · exact a2 x hx
      · simp at hx; subst hx; exact c2
    · intro x hx
      rw [List.map_cons] at hx
      rcases List.mem_cons.1 hx with rfl | hx
      · exact c3
      · exact a3 x hx
    · intro w v
      rw [List.map_cons, ← List.singleton_append, flow_append, flow_append]
      constructor
      · rintro ⟨u, h1, h2⟩; exact ⟨u, (a4 u v).1 h2, (c4 w u).1 h1⟩
      · rintro ⟨u, h1, h2⟩; exact ⟨u, (c4 w u).2 h2, (a4 u v).2 h1⟩
    · intro x
      obtain ⟨y, hy⟩ := a5 x
      obtain ⟨z, hz⟩ := c5 y
      refine ⟨z, ?_⟩
      rw [run1_append, hy]
      change run1 [c] y = _
      rw [run1_single, hz]
    · intro x y
      rw [List.map_cons, ← List.singleton_append, run1_append, run1_append, run1_single]
      constructor
      · intro e
        cases hz : o.forward.run1 x with
        | error err => rw [hz] at e; cases e
        | ok z =>
          rw [hz] at e
          have e' : run1 (t.map TOp.forward) z = .ok y := e
          rw [(a6 z y).1 e']
          change run1 [c] z = _
          rw [run1_single]; exact (c6 x z).1 hz
      · intro e
        cases hz : run1 l y with
        | error err => rw [hz] at e; cases e
        | ok z =>
          rw [hz] at e
          have e' : run1 [c] z = .ok x := e
          rw [run1_single] at e'
          rw [(c6 x z).2 e']
          exact (a6 z y).2 hz

/-! ## Directness of a conversion -/

theorem dimObj_cases {u : UObj} {o : DimObj} (h : u.dimObj = .ok o) :
    (∃ d, o = .dimensionality d ∧ d.Nodup ∧ d.NoZero) ∨ (∃ d, o = .dict d ∧ d.Nodup ∧ d.NoZero) := by
  have key : ∀ r : Ref, r.dimObj = .ok o →
      (∃ d, o = .dimensionality d ∧ d.Nodup ∧ d.NoZero) ∨ (∃ d, o = .dict d ∧ d.Nodup ∧ d.NoZero) := by
    intro r h
    cases r with
    | basis b =>
      cases h
      refine Or.inr ⟨_, rfl, ?_⟩
      split
      · exact ⟨by simp [Dims.Nodup], by intro q hq; cases hq⟩
      · exact ⟨by simp [Dims.Nodup], by intro q hq; simp at hq; subst hq; simp⟩
    | pre p => cases h
    | unit n e r =>
      simp only [Ref.dimObj] at h
      cases hd : (Ref.unit n e r).dims with
      | error x => rw [hd] at h; cases h
      | ok d => rw [hd] at h; cases h; exact Or.inl ⟨d, rfl, dims_wf hd⟩
  cases u with
  | unit r => exact key r h
  | date r _ => exact key r h

/-- how two units are convertible: `true` directly, `false` by reciprocal -/
def Link (a b : DimObj) : Bool → Prop
  | true => a.eq b = true
  | false => a.eq b = false ∧ ∃ i, a.inverted = .ok i ∧ i.eq b = true

/-- a `Dimensionality` object (as opposed to a plain dict) holding a proper map -/
def Proper (o : DimObj) : Prop := ∃ d, o = .dimensionality d ∧ d.Nodup ∧ d.NoZero

theorem link_unique {a b : DimObj} {σ τ : Bool} (h1 : Link a b σ) (h2 : Link a b τ) : σ = τ := by
  cases σ <;> cases τ
  · rfl
  · have := h1.1; rw [show a.eq b = true from h2] at this; cases this
  · have := h2.1; rw [show a.eq b = true from h1] at this; cases this
  · rfl

/-- the powers listed -/
def DimObj.power (x : Str) (o : DimObj) : Int := Dims.power x o.items

theorem eq_proper {a b : DimObj} (ha : Proper a) (hb : Proper b) :
    a.eq b = true ↔ ∀ x, a.power x = b.power x := by
  obtain ⟨d, rfl, h1, h2⟩ := ha
  obtain ⟨e, rfl, h3, h4⟩ := hb
  exact Dims.eq_iff h1 h2 h3 h4

theorem proper_inverted {a : DimObj} (ha : Proper a) :
    ∃ i, a.inverted = .ok i ∧ Proper i ∧ ∀ x, i.power x = - a.power x := by
  obtain ⟨d, rfl, h1, h2⟩ := ha
  exact ⟨_, rfl, ⟨_, rfl, Dims.inverted_nodup h1, Dims.inverted_noZero h2⟩, fun x => Dims.power_inverted x d⟩

theorem link_proper {a b : DimObj} (ha : Proper a) (hb : Proper b) (σ : Bool) :
    Link a b σ ↔ match σ with
      | true => ∀ x, a.power x = b.power x
      | false => (¬ ∀ x, a.power x = b.power x) ∧ ∀ x, a.power x = - b.power x := by
  obtain ⟨i, i1, i2, i3⟩ := proper_inverted ha
  cases σ with
  | true => exact eq_proper ha hb
  | false =>
    simp only [Link]
    rw [← eq_proper ha hb, Bool.not_eq_true]
    constructor
    · rintro ⟨h1, j, hj, h2⟩
      rw [i1] at hj; cases hj
      rw [eq_proper i2 hb] at h2
      exact ⟨h1, fun x => by rw [← h2 x, i3, Int.neg_neg]⟩
    · rintro ⟨h1, h2⟩
      refine ⟨h1, i, i1, ?_⟩
      rw [eq_proper i2 hb]
      intro x; rw [i3, h2, Int.neg_neg]

theorem link_refl {a : DimObj} (ha : Proper a) : Link a a true := (eq_proper ha ha).2 fun _ => rfl

theorem link_symm {a b : DimObj} (ha : Proper a) (hb : Proper b) {σ : Bool} (h : Link a b σ) : Link b a σ := by
  rw [link_proper ha hb] at h
  rw [link_proper hb ha]
  cases σ with
  | true => exact fun x => (h x).symm
  | false => exact ⟨fun h' => h.1 fun x => (h' x).symm, fun x => by rw [h.2 x, Int.neg_neg]⟩

theorem link_dict {a : DimObj} (ha : Proper a) {d : Dims} {σ : Bool} (h : Link a (.dict d) σ) :
    σ = true ∧ a.items = [] ∧ d = [] := by
  obtain ⟨e, rfl, h1, h2⟩ := ha
  cases σ with
  | true =>
    simp only [Link, DimObj.eq, Bool.and_eq_true, List.isEmpty_iff] at h
    exact ⟨rfl, h.1, h.2⟩
  | false =>
    obtain ⟨h3, i, hi, h4⟩ := h
    cases hi
    simp only [DimObj.eq, Bool.and_eq_true, List.isEmpty_iff] at h4
    simp only [DimObj.eq] at h3
    have : e = [] := by
      have := h4.1
      unfold Dims.inverted at this
      exact List.map_eq_nil_iff.1 this
    rw [this, h4.2] at h3
    cases h3

theorem link_trans {a b c : DimObj} (ha : Proper a) (hb : Proper b)
    (hc : Proper c ∨ ∃ d, c = .dict d) {σ τ : Bool} (h1 : Link a b σ) (h2 : Link b c τ) : Link a c (σ == τ) := by
  rcases hc with hc | ⟨d, rfl⟩
  · rw [link_proper ha hb] at h1
    rw [link_proper hb hc] at h2
    rw [link_proper ha hc]
    cases σ <;> cases τ
    · exact fun x => by rw [h1.2, h2.2, Int.neg_neg]
    · refine ⟨fun h => h1.1 fun x => by rw [h x, h2 x], fun x => by rw [h1.2, h2 x]⟩
    · refine ⟨fun h => h2.1 fun x => by rw [← h1 x, h x], fun x => by rw [h1 x, h2.2]⟩
    · exact fun x => (h1 x).trans (h2 x)
  · obtain ⟨rfl, e1, rfl⟩ := link_dict hb h2
    obtain ⟨db, rfl, b1, b2⟩ := hb
    simp only [DimObj.items] at e1
    subst e1
    have ha0 : a.items = [] := by
      obtain ⟨da, rfl, a1, a2⟩ := ha
      have hp : ∀ x, Dims.power x da = 0 := by
        rw [link_proper ⟨da, rfl, a1, a2⟩ ⟨_, rfl, b1, b2⟩] at h1
        intro x
        cases σ with
        | true => exact h1 x
        | false => have := h1.2 x; simpa [DimObj.power, DimObj.items, Dims.power, Dims.get?] using this
      exact List.isEmpty_iff.1 ((Dims.isEmpty_iff a1 a2).2 hp)
    have hσ : σ = true := by
      cases σ with
      | true => rfl
      | false =>
        rw [link_proper ha ⟨_, rfl, b1, b2⟩] at h1
        refine absurd (fun x => ?_) h1.1
        unfold DimObj.power; rw [ha0]; rfl
    subst hσ
    obtain ⟨da, rfl, a1, a2⟩ := ha
    simp only [DimObj.items] at ha0
    subst ha0
    rfl

/-! ## What a value denotes -/

/-- `x` in unit `a` is the quantity `q · Π symbol^E`: undo the value transformation, then multiply by
the unit's definition. -/
def Base (a : UObj) (x q : ℝ) (E : Str → Int) : Prop :=
  ∃ t d l w y, a.symDef = .ok (t, d) ∧ d.coef ≠ 0 ∧ invertAll t = .ok l ∧ Flow (fun _ => 0) l w ∧
    run1 l x = .ok y ∧ q = y * (d.coef : ℝ) ∧ E = fun s => w s + d.exp s

theorem Base.unique {a : UObj} {x q q' : ℝ} {E E' : Str → Int} (h : Base a x q E) (h' : Base a x q' E') :
    q = q' ∧ E = E' := by
  obtain ⟨t, d, l, w, y, h1, h2, h3, h4, h5, h6, h7⟩ := h
  obtain ⟨t', d', l', w', y', g1, g2, g3, g4, g5, g6, g7⟩ := h'
  rw [h1] at g1; cases g1
  rw [h3] at g3; cases g3
  rw [h5] at g5; cases g5
  have := flow_det l h4 g4
  subst this
  exact ⟨h6.trans g6.symm, h7.trans g7.symm⟩

theorem Base.injective {a : UObj} {x x' q : ℝ} {E E' : Str → Int} (h : Base a x q E) (h' : Base a x' q E') :
    x = x' := by
  obtain ⟨t, d, l, w, y, h1, h2, h3, h4, h5, h6, h7⟩ := h
  obtain ⟨t', d', l', w', y', g1, g2, g3, g4, g5, g6, g7⟩ := h'
  rw [h1] at g1; cases g1
  rw [h3] at g3; cases g3
  obtain ⟨l2, a1, _, _, _, _, a6⟩ := invertAll_spec t (obj_symDef_good h1).1
  rw [h3] at a1; cases a1
  have hc : (d.coef : ℝ) ≠ 0 := by exact_mod_cast h2
  have hy : y = y' := mul_right_cancel₀ hc (h6.symm.trans g6)
  subst hy
  have e1 := (a6 y x).2 h5
  have e2 := (a6 y x').2 g5
  rw [e1] at e2
  exact Except.ok.inj e2

/-- the unit's factor is defined and not zero -/
def NonZero (a : UObj) : Prop := ∃ t d, a.symDef = .ok (t, d) ∧ d.coef ≠ 0

theorem build_inv {a b : UObj} {ops : List COp} (h : Converter.build a b = .ok ops) :
    ∃ fd td t1 d1 t2 d2 t1i link σ, a.dimObj = .ok fd ∧ Proper fd ∧ b.dimObj = .ok td ∧ Link fd td σ ∧
      a.symDef = .ok (t1, d1) ∧ b.symDef = .ok (t2, d2) ∧ invertAll t1 = .ok t1i ∧
      ops = t1i ++ link ++ t2.map TOp.forward ∧
      (match σ with
        | true => ∃ k, d1.div d2 = .ok k ∧ link = [COp.scale k]
        | false => ∃ k, (d1.mul d2).inv = .ok k ∧ link = [COp.recip, COp.scale k]) := by
  unfold Converter.build at h
  cases h1 : a.dimObj with
  | error e => rw [h1] at h; cases h
  | ok fd =>
    rw [h1] at h
    cases h2 : b.dimObj with
    | error e => rw [h2] at h; cases h
    | ok td =>
      rw [h2] at h
      cases h3 : fd.inverted with
      | error e => simp only [bind, Except.bind, h3] at h; cases h
      | ok inv =>
        have hp : Proper fd := by
          rcases dimObj_cases h1 with hp | ⟨d, rfl, _⟩
          · exact hp
          · cases h3
        simp only [bind, Except.bind, h3] at h
        by_cases hd : (!(fd.eq td || inv.eq td)) = true
        · rw [if_pos hd] at h; cases h
        · rw [if_neg hd] at h
          cases h4 : a.symDef with
          | error e => rw [h4] at h; cases h
          | ok q1 =>
            obtain ⟨t1, d1⟩ := q1
            rw [h4] at h
            cases h5 : b.symDef with
            | error e => rw [h5] at h; cases h
            | ok q2 =>
              obtain ⟨t2, d2⟩ := q2
              rw [h5] at h
              simp only at h
              cases h6 : invertAll t1 with
              | error e => rw [h6] at h; cases h
              | ok t1i =>
                rw [h6] at h
                simp only at h
                cases h7 : fd.eq td with
                | true =>
                  rw [h7] at h
                  simp only [if_true] at h
                  cases h8 : d1.div d2 with
                  | error e => rw [h8] at h; cases h
                  | ok k =>
                    rw [h8] at h
                    cases h
                    exact ⟨fd, td, t1, d1, t2, d2, t1i, _, true, rfl, hp, rfl, h7, rfl, rfl, h6, rfl, k, h8, rfl⟩
                | false =>
                  rw [h7] at h
                  simp only [Bool.false_eq_true, if_false] at h
                  cases h8 : (d1.mul d2).inv with
                  | error e => rw [h8] at h; cases h
                  | ok k =>
                    rw [h8] at h
                    cases h
                    refine ⟨fd, td, t1, d1, t2, d2, t1i, _, false, rfl, hp, rfl, ⟨h7, inv, h3, ?_⟩, rfl, rfl, h6, rfl, k, h8, rfl⟩
                    rw [h7] at hd
                    simpa using hd

theorem build_total {a b : UObj} {fd td : DimObj} (h1 : a.dimObj = .ok fd) (hp : Proper fd) (h2 : b.dimObj = .ok td)
    {σ : Bool} (hl : Link fd td σ) (ha : NonZero a) (hb : NonZero b) : ∃ ops, Converter.build a b = .ok ops := by
  obtain ⟨t1, d1, s1, c1⟩ := ha
  obtain ⟨t2, d2, s2, c2⟩ := hb
  obtain ⟨inv, i1, i2, i3⟩ := proper_inverted hp
  obtain ⟨l, a1, _⟩ := invertAll_spec t1 (obj_symDef_good s1).1
  unfold Converter.build
  simp only [bind, Except.bind, h1, h2, i1]
  have hd : ¬ (!(fd.eq td || inv.eq td)) = true := by
    cases σ with
    | true => have : fd.eq td = true := hl; simp [this]
    | false =>
      obtain ⟨_, j, hj, h⟩ := hl
      rw [i1] at hj; cases hj; simp [h]
  rw [if_neg hd]
  simp only [s1, s2, a1]
  cases h7 : fd.eq td with
  | true =>
    obtain ⟨k, hk⟩ := Mono.div_total (a := d1) c2
    simp only [if_true, hk]
    exact ⟨_, rfl⟩
  | false =>
    simp only [Bool.false_eq_true, if_false]
    rw [Mono.inv_ok (by rw [Mono.coef_mul]; exact mul_ne_zero c1 c2)]
    exact ⟨_, rfl⟩

/-- what the link of a conversion does to the quantity -/
def Related : Bool → ℝ → (Str → Int) → ℝ → (Str → Int) → Prop
  | true, q, E, q', E' => q' = q ∧ E' = E
  | false, q, E, q', E' => q ≠ 0 ∧ q' = q⁻¹ ∧ E' = fun s => - E s

/-- exponents after the link step -/
def linkExp : Bool → (Str → Int) → (Str → Int) → (Str → Int) → (Str → Int)
  | true, w, e1, e2 => fun s => w s + e1 s - e2 s
  | false, w, e1, e2 => fun s => - (w s + e1 s) - e2 s

/-- values before and after the link step -/
def LinkVal : Bool → ℝ → ℝ → ℝ → ℝ → Prop
  | true, y, z, c1, c2 => z * c2 = y * c1
  | false, y, z, c1, c2 => y * c1 ≠ 0 ∧ z * c2 = (y * c1)⁻¹

/-- the step linking the two definitions: factor `d1/d2`, or reciprocal and factor `1/(d1·d2)` -/
def IsLink (d1 d2 : Mono) (link : List COp) : Bool → Prop
  | true => ∃ k, d1.div d2 = .ok k ∧ link = [COp.scale k]
  | false => ∃ k, (d1.mul d2).inv = .ok k ∧ link = [COp.recip, COp.scale k]

theorem link_spec {d1 d2 : Mono} {link : List COp} {σ : Bool} (w1 : d1.WF) (w2 : d2.WF) (c1 : d1.coef ≠ 0)
    (c2 : d2.coef ≠ 0) (e9 : IsLink d1 d2 link σ) : (∀ o ∈ link, o.Good) ∧
    (∀ w w', Flow w link w' ↔ w' = linkExp σ w d1.exp d2.exp) ∧
    (∀ y z, run1 link y = .ok z ↔ LinkVal σ y z d1.coef d2.coef) := by
  have r1 : (d1.coef : ℝ) ≠ 0 := by exact_mod_cast c1
  have r2 : (d2.coef : ℝ) ≠ 0 := by exact_mod_cast c2
  cases σ with
  | true =>
    obtain ⟨k, k1, rfl⟩ := e9
    obtain ⟨_, k2, k3, k4⟩ := Mono.div_spec w1 w2 k1
    refine ⟨?_, ?_, ?_⟩
    · intro o ho; simp at ho; subst ho
      exact ⟨k3, by rw [k2]; exact div_ne_zero c1 c2⟩
    · intro w w'
      simp only [Flow, linkExp]
      constructor
      · intro h; rw [← h]; funext s; rw [k4 c1]; ring
      · intro h; rw [h]; funext s; rw [k4 c1]; ring
    · intro y z
      rw [run1_single]
      simp only [COp.run1, k2, LinkVal]
      push_cast
      constructor
      · intro h; cases h; field_simp
      · intro h
        congr 1
        field_simp
        linarith
  | false =>
    obtain ⟨k, k1, rfl⟩ := e9
    have hm : (d1.mul d2).WF := Mono.wf_mul _ w1
    obtain ⟨_, k2, k3, k4, k5⟩ := Mono.inv_spec hm k1
    rw [Mono.coef_mul] at k2
    refine ⟨?_, ?_, ?_⟩
    · intro o ho
      simp at ho
      rcases ho with rfl | rfl
      · trivial
      · exact ⟨k4, k3⟩
    · intro w w'
      simp only [Flow, linkExp]
      have hk : ∀ s, k.exp s = -(d1.exp s + d2.exp s) := fun s => by
        rw [k5, Mono.exp_mul w1 w2 c1 c2]
      constructor
      · intro h; rw [← h]; funext s; rw [hk]; ring
      · intro h; rw [h]; funext s; rw [hk]; ring
    · intro y z
      simp only [run1, COp.run1, COp.run, LinkVal]
      by_cases hy : y = 0
      · subst hy
        simp only [if_true]
        constructor
        · intro h; cases h
        · rintro ⟨h, _⟩; exact absurd (zero_mul _) h
      · rw [if_neg hy]
        change (Except.ok ((k.coef : ℝ) * y⁻¹) : Py ℝ) = .ok z ↔ _
        rw [k2]
        push_cast
        constructor
        · intro h; cases h
          exact ⟨mul_ne_zero hy r1, by field_simp⟩
        · rintro ⟨_, h⟩
          congr 1
          have hz : z = (y * (d1.coef : ℝ))⁻¹ / d2.coef := by
            rw [eq_div_iff r2]; exact h
          rw [hz]; field_simp

/-- **Main lemma.** For units with non-zero factors, `convert` maps `x` to `v` exactly when both denote
the same quantity (or reciprocal quantities, for an inverted conversion). -/
theorem convert_iff {a b : UObj} {fd td : DimObj} (h1 : a.dimObj = .ok fd) (hp : Proper fd) (h2 : b.dimObj = .ok td)
    {σ : Bool} (hl : Link fd td σ) (ha : NonZero a) (hb : NonZero b) (x v : ℝ) :
    convert a b x = .ok v ↔ ∃ q E q' E', Base a x q E ∧ Base b v q' E' ∧ Related σ q E q' E' := by
  obtain ⟨ops, hops⟩ := build_total h1 hp h2 hl ha hb
  have hb' := build_inv hops
  obtain ⟨fd', td', t1, d1, t2, d2, t1i, link, σ', e1, e2, e3, e4, e5, e6, e7, e8, e9⟩ := hb'
  rw [h1] at e1; cases e1
  rw [h2] at e3; cases e3
  have := link_unique hl e4
  subst this
  have c1 : d1.coef ≠ 0 := by
    obtain ⟨t, d, s, c⟩ := ha; rw [e5] at s; cases s; exact c
  have c2 : d2.coef ≠ 0 := by
    obtain ⟨t, d, s, c⟩ := hb; rw [e6] at s; cases s; exact c
  have r1 : (d1.coef : ℝ) ≠ 0 := by exact_mod_cast c1
  have r2 : (d2.coef : ℝ) ≠ 0 := by exact_mod_cast c2
  have g1 := obj_symDef_good e5
  have g2 := obj_symDef_good e6
  obtain ⟨l1, a1, a2, a3, a4, a5, a6⟩ := invertAll_spec t1 g1.1
  rw [e7] at a1; cases a1
  obtain ⟨l2, b1, b2, b3, b4, b5, b6⟩ := invertAll_spec t2 g2.1
  unfold convert
  rw [hops]
  change Converter.convert ops x = .ok v ↔ _
  -- the link step
  have hlink := link_spec (σ := σ) g1.2 g2.2 c1 c2 (link := link) (by cases σ <;> exact e9)
  obtain ⟨m1, m2, m3⟩ := hlink
  have hgood : ∀ o ∈ ops, o.Good := by
    rw [e8]
    intro o ho
    rcases List.mem_append.1 ho with ho | ho
    · rcases List.mem_append.1 ho with ho | ho
      · exact a2 o ho
      · exact m1 o ho
    · exact b3 o ho
  rw [convert_ok_iff hgood, e8, flow_append, run1_append]
  constructor
  · rintro ⟨⟨w2, hw, hf2⟩, hrun⟩
    obtain ⟨w1, hf1, hfl⟩ := (flow_append _ _ _ _).1 hw
    rw [run1_append] at hrun
    obtain ⟨y, hy⟩ := a5 x
    rw [hy] at hrun
    cases hz : run1 link y with
    | error e =>
      change (do let y ← run1 link y; run1 (t2.map TOp.forward) y) = _ at hrun
      rw [hz] at hrun; cases hrun
    | ok z =>
      change (do let y ← run1 link y; run1 (t2.map TOp.forward) y) = _ at hrun
      rw [hz] at hrun
      have hrun' : run1 (t2.map TOp.forward) z = .ok v := hrun
      refine ⟨y * d1.coef, fun s => w1 s + d1.exp s, z * d2.coef, fun s => w2 s + d2.exp s,
        ⟨t1, d1, t1i, w1, y, e5, c1, e7, hf1, hy, rfl, rfl⟩,
        ⟨t2, d2, l2, w2, z, e6, c2, b1, (b4 _ _).1 hf2, (b6 _ _).1 hrun', rfl, rfl⟩, ?_⟩
      have hw2 := (m2 _ _).1 hfl
      have hz2 := (m3 _ _).1 hz
      cases σ with
      | true =>
        refine ⟨hz2, ?_⟩
        funext s; rw [hw2]; simp only [linkExp]; ring
      | false =>
        refine ⟨hz2.1, hz2.2, ?_⟩
        funext s; rw [hw2]; simp only [linkExp]; ring
  · rintro ⟨q, E, q', E', ⟨t1', d1', l1', w1, y, f1, f2, f3, f4, f5, f6, f7⟩,
      ⟨t2', d2', l2', w2, z, k1, k2, k3, k4, k5, k6, k7⟩, hr⟩
    rw [e5] at f1; cases f1
    rw [e6] at k1; cases k1
    rw [e7] at f3; cases f3
    rw [b1] at k3; cases k3
    have hw : w2 = linkExp σ w1 d1.exp d2.exp := by
      cases σ with
      | true =>
        have h := hr.2; rw [k7, f7] at h
        funext s; have := congrFun h s; simp only [linkExp] at this ⊢; linarith
      | false =>
        have h := hr.2.2; rw [k7, f7] at h
        funext s; have := congrFun h s; simp only [linkExp] at this ⊢; linarith
    have hz : run1 link y = .ok z := by
      rw [m3]
      cases σ with
      | true => have h := hr.1; rw [k6, f6] at h; exact h
      | false => have h := hr; rw [k6, f6] at h; exact ⟨h.1, h.2.1⟩
    refine ⟨⟨w2, (flow_append _ _ _ _).2 ⟨w1, f4, (m2 _ _).2 hw⟩, (b4 _ _).2 k4⟩, ?_⟩
    rw [run1_append, f5]
    change (do let y ← run1 link y; run1 (t2.map TOp.forward) y) = _
    rw [hz]
    exact (b6 _ _).2 k5

/-- from a built converter: the facts needed by `convert_iff` -/
theorem build_ops {a b : UObj} {ops : List COp} (h : Converter.build a b = .ok ops) :
    ∃ fd td t1 d1 t2 d2 t1i link σ, a.dimObj = .ok fd ∧ Proper fd ∧ b.dimObj = .ok td ∧ Link fd td σ ∧
      a.symDef = .ok (t1, d1) ∧ b.symDef = .ok (t2, d2) ∧ invertAll t1 = .ok t1i ∧
      ops = t1i ++ link ++ t2.map TOp.forward ∧ IsLink d1 d2 link σ := by
  obtain ⟨fd, td, t1, d1, t2, d2, t1i, link, σ, e1, e2, e3, e4, e5, e6, e7, e8, e9⟩ := build_inv h
  exact ⟨fd, td, t1, d1, t2, d2, t1i, link, σ, e1, e2, e3, e4, e5, e6, e7, e8, by cases σ <;> exact e9⟩

theorem build_facts {a b : UObj} {ops : List COp} (h : Converter.build a b = .ok ops) :
    ∃ fd td σ, a.dimObj = .ok fd ∧ Proper fd ∧ b.dimObj = .ok td ∧ Link fd td σ ∧ NonZero b ∧
      ∃ t d, a.symDef = .ok (t, d) := by
  obtain ⟨fd, td, t1, d1, t2, d2, t1i, link, σ, e1, e2, e3, e4, e5, e6, e7, e8, e9⟩ := build_inv h
  refine ⟨fd, td, σ, e1, e2, e3, e4, ⟨t2, d2, e6, ?_⟩, t1, d1, e5⟩
  cases σ with
  | true =>
    obtain ⟨k, k1, _⟩ := e9
    exact (Mono.div_spec (obj_symDef_good e5).2 (obj_symDef_good e6).2 k1).1
  | false =>
    obtain ⟨k, k1, _⟩ := e9
    have := (Mono.inv_spec (Mono.wf_mul d2 (obj_symDef_good e5).2) k1).1
    rw [Mono.coef_mul] at this
    exact right_ne_zero_of_mul this

theorem convert_built {a b : UObj} {x v : ℝ} (h : convert a b x = .ok v) : ∃ ops, Converter.build a b = .ok ops := by
  unfold convert at h
  cases hb : Converter.build a b with
  | error e => rw [hb] at h; cases h
  | ok ops => exact ⟨ops, rfl⟩

end Verif
