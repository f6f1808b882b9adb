import Verif.Lemmas.Symbolic
/-!
# Which exceptions conversions can raise; the closed formula
-/

namespace Verif

theorem decParse_err {s : Str} {e : PyErr} (h : Dec.parse s = .error e) : e = .invalidOperation := by
  unfold Dec.parse at h
  simp only at h
  repeat' split at h
  all_goals first
    | exact (Except.error.inj h).symm
    | cases h

mutual
theorem expand_err : ∀ (r : Ref) {e : PyErr}, r.expand = .error e → e = .invalidOperation
  | .basis b, e, h => by rw [Ref.expand] at h; cases h
  | .pre p, e, h => by
    rw [Ref.expand, Prefix.expand] at h
    cases h1 : Dec.parse p.value with
    | error x => rw [h1] at h; cases h; exact decParse_err h1
    | ok d => rw [h1] at h; cases h
  | .unit n d refs, e, h => by
    rw [Ref.expand] at h
    cases h1 : Ref.expandList refs with
    | error x => rw [h1] at h; cases h; exact expandList_err refs h1
    | ok d => rw [h1] at h; cases h
theorem expandList_err : ∀ (l : List (Str × Ref)) {e : PyErr}, Ref.expandList l = .error e → e = .invalidOperation
  | [], e, h => by rw [Ref.expandList] at h; cases h
  | (n, r) :: l, e, h => by
    rw [Ref.expandList] at h
    cases h1 : r.expand with
    | error x => rw [h1] at h; cases h; exact expand_err r h1
    | ok d =>
      rw [h1] at h
      cases h2 : Ref.expandList l with
      | error x => simp only [bind, Except.bind, h2] at h; cases h; exact expandList_err l h2
      | ok d => simp only [bind, Except.bind, h2] at h; cases h
end

theorem split_err (n : Node) : ∀ root {e : PyErr}, n.split root = .error e → e = .assertionError ∨ e = .twoTransforms := by
  induction n with
  | number v r => intro _ e h; cases h
  | ident n => intro _ e h; cases h
  | unhandled r => intro _ e h; cases h
  | mul l r hl hr =>
    intro _ e h
    simp only [Node.split] at h
    cases h1 : l.split false with
    | error x => rw [h1] at h; cases h; exact hl _ h1
    | ok q1 =>
      rw [h1] at h
      cases h2 : r.split false with
      | error x => rw [h2] at h; cases h; exact hr _ h2
      | ok q2 =>
        rw [h2] at h
        obtain ⟨t1, d1⟩ := q1
        obtain ⟨t2, d2⟩ := q2
        cases t1 <;> cases t2 <;> cases h
        exact Or.inr rfl
  | div l r hl hr =>
    intro _ e h
    simp only [Node.split] at h
    cases h1 : l.split false with
    | error x => rw [h1] at h; cases h; exact hl _ h1
    | ok q1 =>
      rw [h1] at h
      cases h2 : r.split false with
      | error x => rw [h2] at h; cases h; exact hr _ h2
      | ok q2 =>
        rw [h2] at h
        obtain ⟨t1, d1⟩ := q1
        obtain ⟨t2, d2⟩ := q2
        cases t1 <;> cases t2 <;> cases h
        exact Or.inr rfl
  | raise l r hl hr =>
    intro _ e h
    simp only [Node.split] at h
    cases h1 : l.split false with
    | error x => rw [h1] at h; cases h; exact hl _ h1
    | ok q1 =>
      rw [h1] at h
      cases h2 : r.split false with
      | error x => rw [h2] at h; cases h; exact hr _ h2
      | ok q2 =>
        rw [h2] at h
        obtain ⟨t1, d1⟩ := q1
        obtain ⟨t2, d2⟩ := q2
        cases t2 <;> cases h
        exact Or.inl rfl
  | shift u f hu hf =>
    intro root e h
    simp only [Node.split] at h
    cases h1 : u.split false with
    | error x => rw [h1] at h; cases h; exact hu _ h1
    | ok q1 =>
      rw [h1] at h
      cases root <;> cases h
  | log fn t ht =>
    intro _ e h
    simp only [Node.split] at h
    cases h1 : t.split false with
    | error x => rw [h1] at h; cases h; exact ht _ h1
    | ok q1 => rw [h1] at h; cases h

/-- errors that can come out of symbolic evaluation -/
def SymErr (e : PyErr) : Prop :=
  e = .assertionError ∨ e = .twoTransforms ∨ e = .invalidOperation ∨ e = .unmodelled ∨ e = .notImplemented ∨
    e = .zoo ∨ e = .keyError

theorem toRat_err {v : Num} {e : PyErr} (h : v.toRat = .error e) : SymErr e := by
  cases v with
  | int i => cases h
  | dec d => cases h
  | str s =>
    simp only [Num.toRat] at h
    split at h
    · cases h
    · cases h; simp [SymErr]

theorem asExponent_err {n : Node} {e : PyErr} (h : n.asExponent = .error e) : SymErr e := by
  unfold Node.asExponent at h
  split at h
  · cases h
  · split at h
    · cases h
    · cases h; simp [SymErr]
  · cases h; simp [SymErr]

theorem inv_err {m : Mono} {e : PyErr} (h : m.inv = .error e) : SymErr e := by
  unfold Mono.inv at h
  split at h
  · cases h; simp [SymErr]
  · cases h

theorem toMono_err {n : Node} : ∀ {e : PyErr}, n.toMono = .error e → SymErr e := by
  induction n with
  | number v r =>
    intro e h
    simp only [Node.toMono] at h
    cases h1 : v.toRat with
    | error x => rw [h1] at h; cases h; exact toRat_err h1
    | ok q => rw [h1] at h; cases h
  | ident n => intro e h; cases h
  | unhandled r => intro e h; cases h; simp [SymErr]
  | mul l r hl hr =>
    intro e h
    simp only [Node.toMono] at h
    cases h1 : l.toMono with
    | error x => rw [h1] at h; cases h; exact hl h1
    | ok a =>
      rw [h1] at h
      cases h2 : r.toMono with
      | error x => rw [h2] at h; cases h; exact hr h2
      | ok b => rw [h2] at h; cases h
  | div l r hl hr =>
    intro e h
    simp only [Node.toMono] at h
    cases h1 : l.toMono with
    | error x => rw [h1] at h; cases h; exact hl h1
    | ok a =>
      rw [h1] at h
      cases h2 : r.toMono with
      | error x => rw [h2] at h; cases h; exact hr h2
      | ok b =>
        rw [h2] at h
        have h' : a.div b = .error e := h
        unfold Mono.div at h'
        cases h3 : b.inv with
        | error x => rw [h3] at h'; cases h'; exact inv_err h3
        | ok c => rw [h3] at h'; cases h'
  | raise l r hl hr =>
    intro e h
    simp only [Node.toMono] at h
    cases h1 : l.toMono with
    | error x => rw [h1] at h; cases h; exact hl h1
    | ok a =>
      rw [h1] at h
      cases h2 : r.asExponent with
      | error x => rw [h2] at h; cases h; exact asExponent_err h2
      | ok n =>
        rw [h2] at h
        have h' : a.pow n = .error e := h
        unfold Mono.pow at h'
        cases n with
        | ofNat k => cases h'
        | negSucc k =>
          simp only at h'
          cases h3 : a.inv with
          | error x => rw [h3] at h'; cases h'; exact inv_err h3
          | ok c => rw [h3] at h'; cases h'
  | shift u f => intro e h; cases h; simp [SymErr]
  | log fn t => intro e h; cases h; simp [SymErr]

theorem mkScale_err {m : Mono} {e : PyErr} (h : TOp.mkScale m = .error e) : SymErr e := by
  unfold TOp.mkScale at h
  split at h
  · cases h; simp [SymErr]
  · cases h

theorem logBase_err {fn : Str} {e : PyErr} (h : logBase fn = .error e) : SymErr e := by
  unfold logBase at h
  repeat' split at h
  all_goals cases h
  simp [SymErr]

theorem ops_err {t : Trans} : ∀ {e : PyErr}, t.ops = .error e → SymErr e := by
  induction t with
  | value => intro e h; cases h
  | shift t f ih =>
    intro e h
    simp only [Trans.ops] at h
    cases h1 : t.ops with
    | error x => rw [h1] at h; cases h; exact ih h1
    | ok o =>
      rw [h1] at h
      cases f with
      | number v r =>
        change (do .ok (o ++ [.sub (← v.toRat)]) : Py (List TOp)) = _ at h
        cases h2 : v.toRat with
        | error x => rw [h2] at h; cases h; exact toRat_err h2
        | ok q => rw [h2] at h; cases h
      | unhandled r => cases h; simp [SymErr]
      | _ => cases h; simp [SymErr]
  | mulR t d ih =>
    intro e h
    simp only [Trans.ops] at h
    cases h1 : t.ops with
    | error x => rw [h1] at h; cases h; exact ih h1
    | ok o =>
      rw [h1] at h
      cases h2 : d.toMono with
      | error x => simp only [bind, Except.bind, h2] at h; cases h; exact toMono_err h2
      | ok m =>
        simp only [bind, Except.bind, h2] at h
        cases h3 : TOp.mkScale m with
        | error x => rw [h3] at h; cases h; exact mkScale_err h3
        | ok s => rw [h3] at h; cases h
  | mulL d t ih =>
    intro e h
    simp only [Trans.ops] at h
    cases h2 : d.toMono with
    | error x => rw [h2] at h; cases h; exact toMono_err h2
    | ok m =>
      rw [h2] at h
      cases h1 : t.ops with
      | error x => simp only [bind, Except.bind, h1] at h; cases h; exact ih h1
      | ok o =>
        simp only [bind, Except.bind, h1] at h
        cases h3 : TOp.mkScale m with
        | error x => rw [h3] at h; cases h; exact mkScale_err h3
        | ok s => rw [h3] at h; cases h
  | log fn t ih =>
    intro e h
    simp only [Trans.ops] at h
    cases h2 : logBase fn with
    | error x => rw [h2] at h; cases h; exact logBase_err h2
    | ok b =>
      rw [h2] at h
      cases h1 : t.ops with
      | error x => simp only [bind, Except.bind, h1] at h; cases h; exact ih h1
      | ok o => simp only [bind, Except.bind, h1] at h; cases h

theorem symDef_err {n : Node} {e : PyErr} (h : n.symDef = .error e) : SymErr e := by
  rw [symDef_eq] at h
  cases h1 : n.split true with
  | error x =>
    rw [h1] at h; cases h
    rcases split_err n true h1 with rfl | rfl <;> simp [SymErr]
  | ok q =>
    rw [h1] at h
    cases h2 : opsOf q.1 with
    | error x =>
      simp only [bind, Except.bind, h2] at h
      cases h
      obtain ⟨ot, b⟩ := q
      cases ot with
      | none => cases h2
      | some t => exact ops_err h2
    | ok o =>
      simp only [bind, Except.bind, h2] at h
      cases h3 : q.2.toMono with
      | error x => rw [h3] at h; cases h; exact toMono_err h3
      | ok m => rw [h3] at h; cases h

theorem obj_symDef_err {u : UObj} {e : PyErr} (h : u.symDef = .error e) : SymErr e := by
  have key : ∀ r : Ref, r.symDef = .error e → SymErr e := by
    intro r h
    unfold Ref.symDef at h
    cases h1 : r.expand with
    | error x => rw [h1] at h; cases h; rw [expand_err r h1]; simp [SymErr]
    | ok n => rw [h1] at h; exact symDef_err h
  cases u with
  | unit r => exact key r h
  | date r _ => exact key r h

theorem not_symErr_incompatible : ¬ SymErr .incompatible := by
  unfold SymErr; simp

/-- `IncompatibleUnitsError` is raised exactly when neither link exists. -/
theorem build_incompatible_iff {a b : UObj} {fd td : DimObj} (h1 : a.dimObj = .ok fd) (hp : Proper fd)
    (h2 : b.dimObj = .ok td) :
    Converter.build a b = .error .incompatible ↔ ¬ Link fd td true ∧ ¬ Link fd td false := by
  obtain ⟨inv, i1, i2, i3⟩ := proper_inverted hp
  have hl : (¬ Link fd td true ∧ ¬ Link fd td false) ↔ (!(fd.eq td || inv.eq td)) = true := by
    simp only [Link, i1]
    cases fd.eq td <;> cases h : inv.eq td <;> simp [h]
  rw [hl]
  unfold Converter.build
  simp only [bind, Except.bind, h1, h2, i1]
  constructor
  · intro h
    by_cases hd : (!(fd.eq td || inv.eq td)) = true
    · exact hd
    · rw [if_neg hd] at h
      exfalso
      cases h4 : a.symDef with
      | error e => rw [h4] at h; cases h; exact not_symErr_incompatible (obj_symDef_err h4)
      | ok q1 =>
        obtain ⟨t1, d1⟩ := q1
        rw [h4] at h
        cases h5 : b.symDef with
        | error e => rw [h5] at h; cases h; exact not_symErr_incompatible (obj_symDef_err h5)
        | ok q2 =>
          obtain ⟨t2, d2⟩ := q2
          rw [h5] at h
          simp only at h
          obtain ⟨l, a1, _⟩ := invertAll_spec t1 (obj_symDef_good h4).1
          rw [a1] at h
          simp only at h
          cases h7 : fd.eq td with
          | true =>
            rw [h7] at h
            simp only [if_true] at h
            cases h8 : d1.div d2 with
            | error e =>
              rw [h8] at h; cases h
              unfold Mono.div at h8
              cases h9 : d2.inv with
              | error x => rw [h9] at h8; cases h8; exact not_symErr_incompatible (inv_err h9)
              | ok c => rw [h9] at h8; cases h8
            | ok k => rw [h8] at h; cases h
          | false =>
            rw [h7] at h
            simp only [Bool.false_eq_true, if_false] at h
            cases h8 : (d1.mul d2).inv with
            | error e => rw [h8] at h; cases h; exact not_symErr_incompatible (inv_err h8)
            | ok k => rw [h8] at h; cases h
  · intro hd
    rw [if_pos hd]

/-! ## Closed formula -/

theorem exp_lnBase {b : Option Nat} (h : lnBase b ≠ 0) (x : ℝ) : Real.exp (x * lnBase b) = logBaseReal b ^ x := by
  cases b with
  | none => simp [lnBase, logBaseReal, Real.exp_one_rpow]
  | some n =>
    have hn : (0 : ℝ) < n := by
      rcases Nat.eq_zero_or_pos n with rfl | hn
      · simp [lnBase] at h
      · exact_mod_cast hn
    simp only [lnBase, logBaseReal]
    rw [Real.rpow_def_of_pos hn, mul_comm]

theorem run1_invertAll (t : List TOp) (h : ∀ o ∈ t, o.Good) {l : List COp} (hl : invertAll t = .ok l) (x : ℝ) :
    run1 l x = .ok (undoAll t x) := by
  induction t generalizing l with
  | nil => cases hl; rfl
  | cons o t ih =>
    simp only [invertAll] at hl
    cases h1 : invertAll t with
    | error e => rw [h1] at hl; cases hl
    | ok l' =>
      rw [h1] at hl
      cases h2 : o.invert with
      | error e => simp only [bind, Except.bind, h2] at hl; cases hl
      | ok c =>
        simp only [bind, Except.bind, h2] at hl
        cases hl
        rw [run1_append, ih (fun o ho => h o (List.mem_cons_of_mem _ ho)) h1]
        change run1 [c] (undoAll t x) = _
        rw [run1_single, undoAll]
        have ho := h o (List.mem_cons_self ..)
        cases o with
        | scale m =>
          simp only [TOp.invert] at h2
          rw [Mono.inv_ok ho.2] at h2
          cases h2
          simp only [COp.run1, TOp.undo]
          congr 1
          push_cast
          rw [div_eq_inv_mul]
        | sub q => cases h2; rfl
        | log b =>
          cases h2
          simp only [COp.run1, COp.run, TOp.undo]
          rw [exp_lnBase ho]

theorem symFree_flow {t : List TOp} (h : SymFree t) : Flow (fun _ => 0) (t.map TOp.forward) (fun _ => 0) := by
  induction t with
  | nil => rfl
  | cons o t ih =>
    have ht : SymFree t := fun m hm => h m (List.mem_cons_of_mem _ hm)
    cases o with
    | scale m =>
      have he : m.exps = [] := h m (List.mem_cons_self ..)
      simp only [List.map_cons, TOp.forward, Flow]
      have : (fun s => (0 : Int) + m.exp s) = fun _ => 0 := by
        funext s; unfold Mono.exp; rw [he]; rfl
      rw [this]; exact ih ht
    | sub q => exact ⟨rfl, ih ht⟩
    | log b => exact ⟨rfl, ih ht⟩

theorem base_iff_of_symFree {a : UObj} {t : List TOp} {d : Mono} (h : a.symDef = .ok (t, d)) (hc : d.coef ≠ 0)
    (hf : SymFree t) (x q : ℝ) (E : Str → Int) :
    Base a x q E ↔ q = undoAll t x * d.coef ∧ E = fun s => d.exp s := by
  have hg := (obj_symDef_good h).1
  obtain ⟨l, a1, _, _, a4, _, _⟩ := invertAll_spec t hg
  have hfl : Flow (fun _ => 0) l (fun _ => 0) := (a4 _ _).1 (symFree_flow hf)
  have hr := run1_invertAll t hg a1 x
  constructor
  · rintro ⟨t', d', l', w, y, g1, g2, g3, g4, g5, g6, g7⟩
    rw [h] at g1; cases g1
    rw [a1] at g3; cases g3
    rw [hr] at g5; cases g5
    have := flow_det l hfl g4
    subst this
    refine ⟨g6, g7.trans ?_⟩
    funext s; simp
  · rintro ⟨rfl, rfl⟩
    refine ⟨t, d, l, fun _ => 0, _, h, hc, a1, hfl, hr, rfl, ?_⟩
    funext s; simp

/-! ## Errors when running -/

theorem forward_good {o : TOp} (h : o.Good) : o.forward.Good := by
  cases o with
  | scale m => exact h
  | sub q => trivial
  | log b => trivial

theorem convert_eq_run1 {ops : List COp} (hg : ∀ o ∈ ops, o.Good) (hf : Flow (fun _ => 0) ops (fun _ => 0)) (x : ℝ) :
    Converter.convert ops x = run1 ops x := by
  obtain ⟨ops', e1, e2, e3⟩ := simplify_spec ops ⟨1, []⟩ wf_one (by simp) hg
  unfold Converter.convert
  rw [e1]
  have hs := e2.2 hf
  change (if ops'.any COp.hasSymbol then .error .nameError else runOps ops' x : Py ℝ) = _
  rw [hs]
  simp only [Bool.false_eq_true, if_false]
  rw [e3 hs]
  simp

theorem run1_err (ops : List COp) : ∀ (x : ℝ) {e : PyErr}, run1 ops x = .error e → e = .zeroDivision ∨ e = .domainError := by
  induction ops with
  | nil => intro x e h; cases h
  | cons op ops ih =>
    intro x e h
    simp only [run1] at h
    cases h1 : op.run1 x with
    | ok y => rw [h1] at h; exact ih y h
    | error e' =>
      rw [h1] at h
      cases h
      cases op with
      | scale m => cases h1
      | add q => cases h1
      | exp b => cases h1
      | log b =>
        simp only [COp.run1, COp.run] at h1
        split at h1
        · cases h1
        · cases h1; exact Or.inr rfl
      | recip =>
        simp only [COp.run1, COp.run] at h1
        split at h1
        · cases h1; exact Or.inl rfl
        · cases h1

end Verif
