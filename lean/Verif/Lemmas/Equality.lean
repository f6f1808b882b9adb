import Verif.Lemmas.Magnitude
import Verif.Lemmas.Units
/-!
# Unit equality
-/

namespace Verif

theorem Mono.beq_symm (a b : Mono) : a.beq b = b.beq a := by
  unfold Mono.beq
  rw [Bool.and_assoc, Bool.and_assoc, Bool.and_comm (a.exps.all _), BEq.comm (a := a.coef)]

theorem Mono.beq_self {a : Mono} (h : a.WF) : a.beq a = true := (Mono.beq_iff h h).2 ⟨rfl, fun _ => rfl⟩

theorem TOp.beq_symm (a b : TOp) : a.beq b = b.beq a := by
  cases a <;> cases b <;> simp only [TOp.beq]
  · exact Mono.beq_symm _ _
  · exact BEq.comm
  · exact BEq.comm

theorem go_symm : ∀ a b : List TOp, transEq.go a b = transEq.go b a
  | [], [] => rfl
  | [], _ :: _ => rfl
  | _ :: _, [] => rfl
  | x :: xs, y :: ys => by
    simp only [transEq.go]
    rw [TOp.beq_symm, go_symm xs ys]

theorem transEq_symm (a b : List TOp) : transEq a b = transEq b a := go_symm _ _

/-- scaling factors are not zero -/
def NZ (t : List TOp) : Prop := ∀ m, TOp.scale m ∈ t → m.coef ≠ 0

theorem undoAll_canonT (t : List TOp) : ∀ p : Mono, p.coef ≠ 0 → NZ t → ∀ x,
    undoAll (canonT p t) x = undoAll t x / p.coef := by
  have one : ∀ p : Mono, p = ⟨1, []⟩ → ∀ y : ℝ, y = y / (p.coef : ℝ) := by
    rintro p rfl y; simp
  induction t with
  | nil =>
    intro p hp _ x
    rw [canonT]
    split
    · rename_i h; exact one p h x
    · rfl
  | cons o t ih =>
    intro p hp hz x
    have hz' : NZ t := fun m hm => hz m (List.mem_cons_of_mem _ hm)
    cases o with
    | scale m =>
      rw [canonT, ih _ (by rw [Mono.coef_mul]; exact mul_ne_zero hp (hz m (List.mem_cons_self ..))) hz', Mono.coef_mul]
      simp only [undoAll, TOp.undo]
      push_cast
      rw [div_div, mul_comm]
    | sub q =>
      have ht : undoAll (if q = 0 then canonT ⟨1, []⟩ t else .sub q :: canonT ⟨1, []⟩ t) x = undoAll (.sub q :: t) x := by
        have h1 := ih ⟨1, []⟩ (by simp) hz' x
        simp only [Rat.cast_one, div_one] at h1
        split
        · rename_i h0; subst h0
          simp only [undoAll, TOp.undo, h1]; simp
        · simp only [undoAll, h1]
      rw [canonT]
      split
      · rename_i h; rw [ht]; exact one p h _
      · rw [undoAll, ht]; rfl
    | log b =>
      have ht : undoAll (.log b :: canonT ⟨1, []⟩ t) x = undoAll (.log b :: t) x := by
        have h1 := ih ⟨1, []⟩ (by simp) hz' x
        simp only [Rat.cast_one, div_one] at h1
        simp only [undoAll, h1]
      rw [canonT]
      split
      · rename_i h; rw [ht]; exact one p h _
      · rw [undoAll, ht]; rfl

theorem undoAll_go : ∀ a b : List TOp, transEq.go a b = true → ∀ x, undoAll a x = undoAll b x
  | [], [] => fun _ _ => rfl
  | [], _ :: _ => fun h => by cases h
  | _ :: _, [] => fun h => by cases h
  | a :: as, b :: bs => by
    intro h x
    simp only [transEq.go, Bool.and_eq_true] at h
    have ih := undoAll_go as bs h.2 x
    simp only [undoAll, ih]
    have h1 := h.1
    cases a <;> cases b <;> simp only [TOp.beq] at h1 <;> try cases h1
    · simp only [Mono.beq, Bool.and_eq_true, beq_iff_eq] at h1
      simp only [TOp.undo, h1.1.1]
    · rw [beq_iff_eq] at h1; subst h1; rfl
    · rw [beq_iff_eq] at h1; subst h1; rfl

theorem undoAll_transEq {a b : List TOp} (ha : NZ a) (hb : NZ b) (h : transEq a b = true) (x : ℝ) :
    undoAll a x = undoAll b x := by
  have := undoAll_go _ _ h x
  rw [undoAll_canonT a _ (by simp) ha, undoAll_canonT b _ (by simp) hb] at this
  simpa using this

theorem nz_of_good {t : List TOp} (h : ∀ o ∈ t, o.Good) : NZ t := fun m hm => (h _ hm).2

/-- what `a == b` computes once the definitions print differently -/
theorem eq_true_inv {a b : Ref} (hne : a.defn.str ≠ b.defn.str) (h : Ref.eq a b = .ok true) :
    ∃ ta da tb db, a.symDef = .ok (ta, da) ∧ b.symDef = .ok (tb, db) ∧ da.beq db = true ∧ transEq ta tb = true := by
  unfold Ref.eq at h
  rw [if_neg (fun h => hne h.symm)] at h
  cases ha : a.symDef with
  | error e => rw [ha] at h; cases h
  | ok p =>
    obtain ⟨ta, da⟩ := p
    simp only [bind, Except.bind, ha] at h
    cases hb : b.symDef with
    | error e => rw [hb] at h; cases h
    | ok p =>
      obtain ⟨tb, db⟩ := p
      rw [hb] at h
      simp only [Except.ok.injEq, Bool.and_eq_true] at h
      exact ⟨ta, da, tb, db, rfl, rfl, h.1, h.2⟩

theorem eq_of_symDef {a b : Ref} {ta tb : List TOp} {da db : Mono} (ha : a.symDef = .ok (ta, da))
    (hb : b.symDef = .ok (tb, db)) (h : da.beq db = true ∧ transEq ta tb = true) : Ref.eq a b = .ok true := by
  unfold Ref.eq
  split
  · rfl
  · simp only [bind, Except.bind, ha, hb, h.1, h.2]; rfl

theorem transEq_nil : transEq [] [] = true := by decide +kernel

/-- definitions without transformation carry none after expansion -/
theorem linearUnit_symDef {r : Ref} (h : LinearUnit r) {t : List TOp} {m : Mono} (hs : r.symDef = .ok (t, m)) :
    t = [] := (linear_symDef h hs).1

end Verif
