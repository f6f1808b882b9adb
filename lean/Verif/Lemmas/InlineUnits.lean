import Verif.Lemmas.Inline
import Verif.Lemmas.Equality
import Verif.Props.Lookup
import Verif.Props.Units
/-! Lemmas for C77: units with the same expansion and the same dimensionality. -/
namespace Verif.Inl
open Spec

/-! ## equality -/

/-- a factor in normal form -/
def Fine : TOp → Prop
  | .scale m => m.WF
  | _ => True

theorem canonT_fine (t : List TOp) : ∀ p : Mono, p.WF → (∀ o ∈ canonT p t, Fine o) := by
  induction t with
  | nil =>
    intro p hp o ho
    simp only [canonT] at ho
    split at ho
    · cases ho
    · rw [List.mem_singleton] at ho; subst ho; exact hp
  | cons a t ih =>
    intro p hp o ho
    have h1 := ih ⟨1, []⟩ wf_one
    cases a with
    | scale m => exact ih _ (Mono.wf_mul m hp) o ho
    | sub q =>
      simp only [canonT] at ho
      have h2 : ∀ o ∈ (if q = 0 then canonT ⟨1, []⟩ t else .sub q :: canonT ⟨1, []⟩ t), Fine o := by
        intro o ho
        split at ho
        · exact h1 o ho
        · rcases List.mem_cons.1 ho with rfl | ho
          · trivial
          · exact h1 o ho
      split at ho
      · exact h2 o ho
      · rcases List.mem_cons.1 ho with rfl | ho
        · exact hp
        · exact h2 o ho
    | log b =>
      simp only [canonT] at ho
      have h2 : ∀ o ∈ (.log b :: canonT ⟨1, []⟩ t : List TOp), Fine o := by
        intro o ho
        rcases List.mem_cons.1 ho with rfl | ho
        · trivial
        · exact h1 o ho
      split at ho
      · exact h2 o ho
      · rcases List.mem_cons.1 ho with rfl | ho
        · exact hp
        · exact h2 o ho

theorem go_refl : ∀ l : List TOp, (∀ o ∈ l, Fine o) → transEq.go l l = true
  | [], _ => rfl
  | o :: l, h => by
    unfold transEq.go
    rw [go_refl l fun o ho => h o (by simp [ho]), Bool.and_true]
    have ho := h o (by simp)
    cases o with
    | scale m => exact Mono.beq_self ho
    | sub q => simp [TOp.beq]
    | log b => simp [TOp.beq]

theorem transEq_refl (t : List TOp) : transEq t t = true := go_refl _ (canonT_fine t _ wf_one)

theorem eq_of_expand {u v : Ref} (h : u.expand = v.expand) : ∀ b, Ref.eq u v = .ok b → b = true := by
  intro b hb
  unfold Ref.eq at hb
  have hs : u.symDef = v.symDef := by unfold Ref.symDef; rw [h]
  split at hb
  · cases hb; rfl
  · rw [hs] at hb
    cases hq : v.symDef with
    | error e => rw [hq] at hb; cases hb
    | ok q =>
      obtain ⟨t, m⟩ := q
      rw [hq] at hb
      simp only [bind, Except.bind] at hb
      have hm : m.WF := (obj_symDef_good (u := .unit v) hq).2
      rw [transEq_refl, Mono.beq_self hm] at hb
      cases hb; rfl

theorem eq_true_of_expand {u v : Ref} (h : u.expand = v.expand) {q : List TOp × Mono} (hq : u.symDef = .ok q) :
    Ref.eq u v = .ok true := by
  cases hb : Ref.eq u v with
  | ok b => rw [eq_of_expand h b hb]
  | error e =>
    have hs : v.symDef = .ok q := by rw [← hq]; unfold Ref.symDef; rw [h]
    unfold Ref.eq at hb
    split at hb
    · cases hb
    · obtain ⟨t, m⟩ := q
      rw [hq, hs] at hb
      cases hb

/-! ## dimensionality objects -/

/-- the object lists distinct basis units with non-zero powers -/
def Wf : DimObj → Prop
  | .dimensionality d => d.Nodup ∧ d.NoZero
  | .dict d => d.Nodup ∧ d.NoZero

theorem dimObj_wf {w : UObj} {o : DimObj} (h : w.dimObj = .ok o) : Wf o := by
  have key : ∀ r : Ref, r.dimObj = .ok o → Wf o := by
    intro r h
    cases r with
    | basis b =>
      cases h
      show Dims.Nodup _ ∧ Dims.NoZero _
      cases b.dimensionless with
      | true => exact ⟨by simp [Dims.Nodup], by intro q hq; cases hq⟩
      | false => exact ⟨by simp [Dims.Nodup], by intro q hq; simp at hq; rw [hq]; exact Int.one_ne_zero⟩
    | pre p => cases h
    | unit n e refs =>
      unfold Ref.dimObj at h
      cases hd : (Ref.unit n e refs).dims with
      | error x => simp only [bind, Except.bind, hd] at h; cases h
      | ok d => simp only [bind, Except.bind, hd] at h; cases h; exact dims_wf hd
  cases w with
  | unit r => exact key r h
  | date r _ => exact key r h

theorem eq_left {a b d : Dims} (ha : a.Nodup ∧ a.NoZero) (hb : b.Nodup ∧ b.NoZero) (hd : d.Nodup ∧ d.NoZero)
    (h : ∀ y, Dims.power y a = Dims.power y b) : Dims.eq a d = Dims.eq b d := by
  rw [Bool.eq_iff_iff, Dims.eq_iff ha.1 ha.2 hd.1 hd.2, Dims.eq_iff hb.1 hb.2 hd.1 hd.2]
  exact ⟨fun g y => by rw [← h, g], fun g y => by rw [h, g]⟩

theorem eq_right {a b d : Dims} (ha : a.Nodup ∧ a.NoZero) (hb : b.Nodup ∧ b.NoZero) (hd : d.Nodup ∧ d.NoZero)
    (h : ∀ y, Dims.power y a = Dims.power y b) : Dims.eq d a = Dims.eq d b := by
  rw [Bool.eq_iff_iff, Dims.eq_iff hd.1 hd.2 ha.1 ha.2, Dims.eq_iff hd.1 hd.2 hb.1 hb.2]
  exact ⟨fun g y => by rw [← h, g], fun g y => by rw [h, g]⟩

theorem empty_eq {a b : Dims} (ha : a.Nodup ∧ a.NoZero) (hb : b.Nodup ∧ b.NoZero)
    (h : ∀ y, Dims.power y a = Dims.power y b) : a.isEmpty = b.isEmpty := by
  rw [Bool.eq_iff_iff, Dims.isEmpty_iff ha.1 ha.2, Dims.isEmpty_iff hb.1 hb.2]
  exact ⟨fun g y => by rw [← h, g], fun g y => by rw [h, g]⟩

theorem inverted_wf {a : Dims} (ha : a.Nodup ∧ a.NoZero) : a.inverted.Nodup ∧ a.inverted.NoZero :=
  ⟨Dims.inverted_nodup ha.1, Dims.inverted_noZero ha.2⟩

theorem inverted_empty (a : Dims) : a.inverted.isEmpty = a.isEmpty := by cases a <;> rfl

theorem dimObj_eq_left {a b : Dims} (ha : a.Nodup ∧ a.NoZero) (hb : b.Nodup ∧ b.NoZero) (h : ∀ y, Dims.power y a = Dims.power y b)
    {o : DimObj} (ho : Wf o) : (DimObj.dimensionality a).eq o = (DimObj.dimensionality b).eq o := by
  cases o with
  | dimensionality d => exact eq_left ha hb ho h
  | dict d => simp only [DimObj.eq]; rw [empty_eq ha hb h]

theorem dimObj_eq_right {a b : Dims} (ha : a.Nodup ∧ a.NoZero) (hb : b.Nodup ∧ b.NoZero) (h : ∀ y, Dims.power y a = Dims.power y b)
    {o : DimObj} (ho : Wf o) : o.eq (.dimensionality a) = o.eq (.dimensionality b) := by
  cases o with
  | dimensionality d => exact eq_right ha hb ho h
  | dict d => simp only [DimObj.eq]; rw [empty_eq ha hb h]

theorem wf_inverted {o i : DimObj} (h : o.inverted = .ok i) (ho : Wf o) : Wf i := by
  cases o with
  | dimensionality d => cases h; exact inverted_wf ho
  | dict d => cases h

/-- the same powers and the same expansion make two units interchangeable -/
theorem interchangeable {u v : Ref} {n1 n2 : Option UnitReference} {e1 e2 : Node} {r1 r2 : List (Str × Ref)}
    (hu : u = .unit n1 e1 r1) (hv : v = .unit n2 e2 r2) {a b : Dims} (ha : u.dims = .ok a) (hb : v.dims = .ok b)
    (h : ∀ y, Dims.power y a = Dims.power y b) (hx : u.expand = v.expand) : Interchangeable (.unit u) (.unit v) := by
  have wa := dims_wf ha
  have wb := dims_wf hb
  have hi : ∀ y, Dims.power y a.inverted = Dims.power y b.inverted := by
    intro y; rw [Dims.power_inverted, Dims.power_inverted, h]
  have hs : u.symDef = v.symDef := by unfold Ref.symDef; rw [hx]
  have oa : u.dimObj = .ok (.dimensionality a) := by subst hu; show (do .ok (DimObj.dimensionality (← (Ref.unit n1 e1 r1).dims)) : Py DimObj) = _; rw [ha]; rfl
  have ob : v.dimObj = .ok (.dimensionality b) := by subst hv; show (do .ok (DimObj.dimensionality (← (Ref.unit n2 e2 r2).dims)) : Py DimObj) = _; rw [hb]; rfl
  have bt : ∀ w, Converter.build (.unit u) w = Converter.build (.unit v) w := by
    intro w
    unfold Converter.build
    simp only [UObj.dimObj, UObj.symDef, oa, ob, hs, bind, Except.bind, DimObj.inverted]
    cases hw : w.dimObj with
    | error x =>
      cases w with
      | unit r => simp only [UObj.dimObj] at hw; simp only [hw]
      | date r _ => simp only [UObj.dimObj] at hw; simp only [hw]
    | ok o =>
      have ww := dimObj_wf hw
      have q1 := dimObj_eq_left wa wb h ww
      have q2 := dimObj_eq_left (inverted_wf wa) (inverted_wf wb) hi ww
      cases w with
      | unit r => simp only [UObj.dimObj] at hw; simp only [hw, q1, q2]
      | date r _ => simp only [UObj.dimObj] at hw; simp only [hw, q1, q2]
  have bf : ∀ w, Converter.build w (.unit u) = Converter.build w (.unit v) := by
    intro w
    unfold Converter.build
    cases hw : w.dimObj with
    | error x => rfl
    | ok o =>
      have ww := dimObj_wf hw
      have q1 := dimObj_eq_right wa wb h ww
      simp only [UObj.dimObj, UObj.symDef, oa, ob, hs, bind, Except.bind]
      cases hv : o.inverted with
      | error x => rfl
      | ok i =>
        have q2 := dimObj_eq_right wa wb h (wf_inverted hv ww)
        simp only [q1, q2]
  refine ⟨?_, ?_, ?_, ?_, ?_, ?_⟩
  · simp only [UObj.expanded, hx]
  · simp only [UObj.isDimensionless, ha, hb]
    show Except.ok _ = Except.ok _
    rw [empty_eq wa wb h]
  · intro w
    cases w with
    | date r d => rfl
    | unit r =>
      simp only [UObj.isConvertibleTo, oa, ob, bind, Except.bind]
      cases hw : r.dimObj with
      | error x => rfl
      | ok o =>
        have ww := dimObj_wf (w := .unit r) hw
        simp only [DimObj.inverted]
        rw [dimObj_eq_left wa wb h ww, dimObj_eq_left (inverted_wf wa) (inverted_wf wb) hi ww]
  · intro w
    cases w with
    | date r d => rfl
    | unit r =>
      simp only [UObj.isConvertibleTo, bind, Except.bind]
      cases hw : r.dimObj with
      | error x => rfl
      | ok o =>
        have ww := dimObj_wf (w := .unit r) hw
        simp only [oa, ob]
        rw [dimObj_eq_right wa wb h ww]
        cases hv : o.inverted with
        | error x => rfl
        | ok i => simp only; rw [dimObj_eq_right wa wb h (wf_inverted hv ww)]
  · intro w x; unfold convert; rw [bt]
  · intro w x; unfold convert; rw [bf]

/-- all of it alike, failures included -/
theorem interchangeable' {u v : Ref} (hd : u.dims = v.dims) (ho : u.dimObj = v.dimObj) (hx : u.expand = v.expand) :
    Interchangeable (.unit u) (.unit v) := by
  have hs : u.symDef = v.symDef := by unfold Ref.symDef; rw [hx]
  have bt : ∀ w, Converter.build (.unit u) w = Converter.build (.unit v) w := by
    intro w; unfold Converter.build; simp only [UObj.dimObj, UObj.symDef, ho, hs]
  have bf : ∀ w, Converter.build w (.unit u) = Converter.build w (.unit v) := by
    intro w; unfold Converter.build; simp only [UObj.dimObj, UObj.symDef, ho, hs]
  refine ⟨?_, ?_, ?_, ?_, ?_, ?_⟩
  · simp only [UObj.expanded, hx]
  · simp only [UObj.isDimensionless, hd]
  · intro w; cases w <;> simp only [UObj.isConvertibleTo, ho]
  · intro w; cases w <;> simp only [UObj.isConvertibleTo, ho]
  · intro w x; unfold convert; rw [bt]
  · intro w x; unfold convert; rw [bf]

end Verif.Inl
