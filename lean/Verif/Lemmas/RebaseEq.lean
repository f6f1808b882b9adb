import Verif.Lemmas.RebaseDims
/-!
# Redefining a basis unit: equality
-/

namespace Verif.Rebase
open Verif

variable {b : Str} {M : Mono}

theorem sub_fun {m n m' n' : Mono} (h1 : Sub b M m m') (h2 : Sub b M n n') (wm' : m'.WF) (wn' : n'.WF) (wm : m.WF) (wn : n.WF)
    (h : m.beq n = true) : m'.beq n' = true := by
  obtain ⟨hc, he⟩ := (Mono.beq_iff wm wn).1 h
  refine (Mono.beq_iff wm' wn').2 ⟨?_, fun s => ?_⟩
  · rw [h1.coef, h2.coef, hc, he]
  · rw [h1.exp, h2.exp, he s, he b]

theorem eq_one_of_beq {m : Mono} (w : m.WF) (h : m.beq ⟨1, []⟩ = true) : m = ⟨1, []⟩ := by
  obtain ⟨hc, he⟩ := (Mono.beq_iff w wf_one).1 h
  have : m.exps = [] := (Mono.exps_nil_iff w).2 fun s => by rw [he]; rfl
  cases m with | mk c e => simp only at hc this; rw [hc, this]

theorem sub_one : Sub b M ⟨1, []⟩ ⟨1, []⟩ := by
  have hz : ∀ s, Mono.exp ⟨1, []⟩ s = 0 := fun _ => rfl
  exact ⟨by rw [hz]; simp, fun s => by rw [hz, hz]; simp⟩

theorem one_of_sub {m : Mono} (w : m.WF) (h : Sub b M ⟨1, []⟩ m) : m = ⟨1, []⟩ := by
  refine eq_one_of_beq w ((Mono.beq_iff w wf_one).2 ⟨?_, fun s => ?_⟩)
  · rw [h.coef]; simp [Mono.exp, Dict.get]
  · rw [h.exp]; simp [Mono.exp, Dict.get]

/-- a canonical chain, and what it becomes: factors that become 1 disappear -/
inductive G (b : Str) (M : Mono) : List TOp → List TOp → Prop
  | nil : G b M [] []
  | scale {m m' : Mono} {l l' : List TOp} : m.WF → m'.WF → Sub b M m m' → m' ≠ ⟨1, []⟩ → G b M l l' → G b M (.scale m :: l) (.scale m' :: l')
  | one {m : Mono} {l l' : List TOp} : m.WF → Sub b M m ⟨1, []⟩ → G b M l l' → G b M (.scale m :: l) l'
  | sub (q : Rat) {l l' : List TOp} : G b M l l' → G b M (.sub q :: l) (.sub q :: l')
  | log (k : Option Nat) {l l' : List TOp} : G b M l l' → G b M (.log k :: l) (.log k :: l')

/-- a factor in front, unless it is 1 -/
def front (p : Mono) (l : List TOp) : List TOp := if p = ⟨1, []⟩ then l else .scale p :: l

theorem g_front {p p' : Mono} (w : p.WF) (w' : p'.WF) (hs : Sub b M p p') {l l' : List TOp} (h : G b M l l') :
    G b M (front p l) (front p' l') := by
  unfold front
  by_cases hp : p = ⟨1, []⟩
  · subst hp
    rw [if_pos rfl, if_pos (one_of_sub w' hs)]; exact h
  · rw [if_neg hp]
    by_cases hp' : p' = ⟨1, []⟩
    · subst hp'; rw [if_pos rfl]; exact .one w hs h
    · rw [if_neg hp']; exact .scale w w' hs hp' h

theorem canonT_g (hM : M.coef ≠ 0) {l l' : List TOp} (h : List.Forall₂ (SubOp b M) l l') (g : ∀ o ∈ l, o.Good) (g' : ∀ o ∈ l', o.Good) :
    ∀ {p p' : Mono}, p.WF → p'.WF → Sub b M p p' → G b M (canonT p l) (canonT p' l') := by
  induction h with
  | nil =>
    intro p p' w w' hs
    exact g_front w w' hs .nil
  | cons ho _ ih =>
    rename_i o o' l l' _
    intro p p' w w' hs
    have ih : ∀ {p p' : Mono}, p.WF → p'.WF → Sub b M p p' → G b M (canonT p l) (canonT p' l') := ih (fun o ho => g o (List.mem_cons_of_mem _ ho)) (fun o ho => g' o (List.mem_cons_of_mem _ ho))
    cases ho with
    | scale hm =>
      rename_i m m'
      have gm : (TOp.scale m).Good := g _ (List.mem_cons_self ..)
      have gm' : (TOp.scale m').Good := g' _ (List.mem_cons_self ..)
      exact ih (Mono.wf_mul _ w) (Mono.wf_mul _ w') (sub_mul hM w w' gm.1 gm'.1 hs hm)
    | sub q =>
      have h1 : G b M (if q = 0 then canonT ⟨1, []⟩ l else .sub q :: canonT ⟨1, []⟩ l)
          (if q = 0 then canonT ⟨1, []⟩ l' else .sub q :: canonT ⟨1, []⟩ l') := by
        by_cases hq : q = 0
        · rw [if_pos hq, if_pos hq]; exact ih wf_one wf_one sub_one
        · rw [if_neg hq, if_neg hq]; exact .sub q (ih wf_one wf_one sub_one)
      exact g_front w w' hs h1
    | log k => exact g_front w w' hs (.log k (ih wf_one wf_one sub_one))

theorem go_g {x x' : List TOp} (hx : G b M x x') : ∀ {y y' : List TOp}, G b M y y' → transEq.go x y = true → transEq.go x' y' = true := by
  induction hx with
  | nil =>
    intro y y' hy h
    cases hy with
    | nil => rfl
    | scale => cases h
    | one => cases h
    | sub => cases h
    | log => cases h
  | scale wm wm' hs hne _ ih =>
    intro y y' hy h
    cases hy with
    | nil => cases h
    | scale wn wn' hs' hne' hl =>
      simp only [transEq.go, Bool.and_eq_true] at h ⊢
      exact ⟨sub_fun hs hs' wm' wn' wm wn h.1, ih hl h.2⟩
    | one wn hs' hl =>
      simp only [transEq.go, Bool.and_eq_true] at h
      exact absurd (eq_one_of_beq wm' (sub_fun hs hs' wm' wf_one wm wn h.1)) hne
    | sub => simp only [transEq.go, Bool.and_eq_true, TOp.beq] at h; cases h.1
    | log => simp only [transEq.go, Bool.and_eq_true, TOp.beq] at h; cases h.1
  | one wm hs _ ih =>
    intro y y' hy h
    cases hy with
    | nil => cases h
    | scale wn wn' hs' hne' hl =>
      simp only [transEq.go, Bool.and_eq_true] at h
      have h1 := sub_fun hs hs' wf_one wn' wm wn h.1
      rw [Mono.beq_iff wf_one wn'] at h1
      exact absurd (eq_one_of_beq wn' ((Mono.beq_iff wn' wf_one).2 ⟨h1.1.symm, fun s => (h1.2 s).symm⟩)) hne'
    | one wn hs' hl =>
      simp only [transEq.go, Bool.and_eq_true] at h
      exact ih hl h.2
    | sub => simp only [transEq.go, Bool.and_eq_true, TOp.beq] at h; cases h.1
    | log => simp only [transEq.go, Bool.and_eq_true, TOp.beq] at h; cases h.1
  | sub q _ ih =>
    intro y y' hy h
    cases hy with
    | nil => cases h
    | scale => simp only [transEq.go, Bool.and_eq_true, TOp.beq] at h; cases h.1
    | one => simp only [transEq.go, Bool.and_eq_true, TOp.beq] at h; cases h.1
    | sub q' hl =>
      simp only [transEq.go, Bool.and_eq_true] at h ⊢
      exact ⟨h.1, ih hl h.2⟩
    | log => simp only [transEq.go, Bool.and_eq_true, TOp.beq] at h; cases h.1
  | log k _ ih =>
    intro y y' hy h
    cases hy with
    | nil => cases h
    | scale => simp only [transEq.go, Bool.and_eq_true, TOp.beq] at h; cases h.1
    | one => simp only [transEq.go, Bool.and_eq_true, TOp.beq] at h; cases h.1
    | sub => simp only [transEq.go, Bool.and_eq_true, TOp.beq] at h; cases h.1
    | log k' hl =>
      simp only [transEq.go, Bool.and_eq_true] at h ⊢
      exact ⟨h.1, ih hl h.2⟩

theorem transEq_sub (hM : M.coef ≠ 0) {s s' t t' : List TOp} (hs : List.Forall₂ (SubOp b M) s s') (ht : List.Forall₂ (SubOp b M) t t')
    (g1 : ∀ o ∈ s, o.Good) (g2 : ∀ o ∈ s', o.Good) (g3 : ∀ o ∈ t, o.Good) (g4 : ∀ o ∈ t', o.Good)
    (h : transEq s t = true) : transEq s' t' = true :=
  go_g (canonT_g hM hs g1 g2 wf_one wf_one sub_one) (canonT_g hM ht g3 g4 wf_one wf_one sub_one) h

theorem symDef_rebase {R : Node} {r : Ref} (hr : r.expand = .ok R) (hp : ∀ root, R.split root = .ok (none, R)) (hR : R.toMono = .ok M)
    (hM : M.coef ≠ 0) {a : Ref} (hc : a.Closed) {t : List TOp} {d : Mono} (h : a.symDef = .ok (t, d)) :
    ∃ t' d', (a.rebase b r).symDef = .ok (t', d') ∧ List.Forall₂ (SubOp b M) t t' ∧ Sub b M d d' := by
  unfold Ref.symDef at h
  cases he : a.expand with
  | error e => rw [he] at h; cases h
  | ok e =>
    rw [he] at h
    obtain ⟨t', d', e1, f1, f2⟩ := symDef_inline (b := b) hM hR hp (show e.symDef = .ok (t, d) from h)
    refine ⟨t', d', ?_, f1, f2⟩
    unfold Ref.symDef
    rw [expand_rebase hr a hc he]; exact e1

theorem good_of {a : Ref} {t : List TOp} {d : Mono} (h : a.symDef = .ok (t, d)) : (∀ o ∈ t, o.Good) ∧ d.WF :=
  obj_symDef_good (u := .unit a) h

theorem eq_rebase {R : Node} {r : Ref} (hr : r.expand = .ok R) (hp : ∀ root, R.split root = .ok (none, R)) (hR : R.toMono = .ok M)
    (hM : M.coef ≠ 0) {n1 n2 : Option UnitReference} {e1 e2 : Node} {r1 r2 : List (Str × Ref)}
    (h1 : (Ref.unit n1 e1 r1).Closed) (h2 : (Ref.unit n2 e2 r2).Closed)
    (h : Ref.eq (.unit n1 e1 r1) (.unit n2 e2 r2) = .ok true) :
    Ref.eq ((Ref.unit n1 e1 r1).rebase b r) ((Ref.unit n2 e2 r2).rebase b r) = .ok true := by
  have d1 : ((Ref.unit n1 e1 r1).rebase b r).defn = e1 := by rw [Ref.rebase]; rfl
  have d2 : ((Ref.unit n2 e2 r2).rebase b r).defn = e2 := by rw [Ref.rebase]; rfl
  unfold Ref.eq at h ⊢
  rw [d1, d2]
  by_cases hs : e2.str = e1.str
  · rw [if_pos hs]
  · rw [if_neg hs]
    have hs' : ¬ (Ref.unit n2 e2 r2).defn.str = (Ref.unit n1 e1 r1).defn.str := hs
    rw [if_neg hs'] at h
    cases ha : (Ref.unit n1 e1 r1).symDef with
    | error e => rw [ha] at h; cases h
    | ok p =>
      obtain ⟨ta, da⟩ := p
      cases hb : (Ref.unit n2 e2 r2).symDef with
      | error e => rw [ha, hb] at h; cases h
      | ok q =>
        obtain ⟨tb, db⟩ := q
        rw [ha, hb] at h
        have h' : (da.beq db && transEq ta tb) = true := Except.ok.inj h
        rw [Bool.and_eq_true] at h'
        obtain ⟨ta', da', a1, a2, a3⟩ := symDef_rebase (b := b) hr hp hR hM h1 ha
        obtain ⟨tb', db', b1, b2, b3⟩ := symDef_rebase (b := b) hr hp hR hM h2 hb
        rw [a1, b1]
        change Except.ok (da'.beq db' && transEq ta' tb') = _
        rw [sub_fun a3 b3 (good_of a1).2 (good_of b1).2 (good_of ha).2 (good_of hb).2 h'.1,
          transEq_sub hM a2 b2 (good_of ha).1 (good_of a1).1 (good_of hb).1 (good_of b1).1 h'.2]
        rfl

end Verif.Rebase
