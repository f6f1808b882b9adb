import Verif.Lemmas.Renaming
import Verif.Model.Names
/-! # Lemmas: the Converter's own names -/

namespace Verif

/-- the value is not among the symbols of the factors -/
def ValueFree (o : List COp) : Prop := ∀ m, COp.scale m ∈ o → ∀ q ∈ m.exps, q.1 ≠ valueName

theorem ValueFree.tail {op : COp} {o : List COp} (h : ValueFree (op :: o)) : ValueFree o :=
  fun m hm => h m (List.mem_cons_of_mem _ hm)

theorem exp_of_free {m : Mono} (h : ∀ q ∈ m.exps, q.1 ≠ valueName) : m.exp valueName = 0 := by
  unfold Mono.exp
  have : ∀ d : Dict Str Int, (∀ q ∈ d, q.1 ≠ valueName) → Dict.get valueName d = none := by
    intro d
    induction d with
    | nil => intro _; rfl
    | cons q d ih =>
      intro h
      obtain ⟨k, v⟩ := q
      rw [Dict.get, if_neg (h (k, v) (List.mem_cons_self ..))]
      exact ih fun q hq => h q (List.mem_cons_of_mem _ hq)
  rw [this _ h]; rfl

theorem hasOther_of_free {o : List COp} (h : ValueFree o) : o.any COp.hasOther = o.any COp.hasSymbol := by
  induction o with
  | nil => rfl
  | cons op o ih =>
    rw [List.any_cons, List.any_cons, ih h.tail]
    congr 1
    cases op with
    | scale m =>
      have := h m (List.mem_cons_self ..)
      simp only [COp.hasOther, COp.hasSymbol]
      cases he : m.exps with
      | nil => rfl
      | cons q l =>
        have := this q (by rw [he]; exact List.mem_cons_self ..)
        simp [this]
    | _ => rfl

theorem powerOf_zero (c : Rat) (x : ℝ) : powerOf c x 0 = .ok (c : ℝ) := by
  simp [powerOf]

theorem powerOf_one (c : Rat) (x : ℝ) : powerOf c x 1 = .ok ((c : ℝ) * x) := by
  simp [powerOf]

theorem exps_nil {m : Mono} (h : (COp.scale m).hasSymbol = false) : m.exps = [] := by
  simpa [COp.hasSymbol] using h

theorem runNamed_free {x : ℝ} : ∀ {o : List COp}, o.any COp.hasSymbol = false → ∀ y, runNamed x o y = runOps o y
  | [], _, _ => rfl
  | op :: o, h, y => by
    rw [List.any_cons, Bool.or_eq_false_iff] at h
    have ih := fun y => runNamed_free (x := x) h.2 y
    cases op with
    | scale m =>
      have he := exps_nil h.1
      have h0 : m.exp valueName = 0 := exp_of_free (by rw [he]; intro q hq; cases hq)
      simp only [runNamed, runOps, COp.run, h0, powerOf_zero, he, if_true, bind, Except.bind]
      exact ih _
    | _ =>
      simp only [runNamed, runOps, bind, Except.bind]
      split
      · rfl
      · exact ih _

/-- an operation that is neither a factor nor the reciprocal -/
def COp.isStep : COp → Bool
  | .add _ | .log _ | .exp _ => true
  | _ => false

/-- how a simplified expression begins -/
def Begins (o : List COp) : Prop :=
  (∃ m r, o = .scale m :: r ∧ (∀ op r', r = op :: r' → op.isStep = true)) ∨ ∃ r, o = .recip :: r

theorem simplify_begins : ∀ (ops : List COp) (p : Mono) (o : List COp), simplifyOps p ops = .ok o → Begins o
  | [], p, o, h => by
    simp only [simplifyOps] at h
    cases h
    exact .inl ⟨p, [], rfl, fun _ _ h => by cases h⟩
  | .scale m :: r, p, o, h => simplify_begins r (p.mul m) o h
  | .recip :: r, p, o, h => by
    simp only [simplifyOps, bind, Except.bind] at h
    split at h
    · cases h
    · split at h
      · cases h
      · cases h; exact .inr ⟨_, rfl⟩
  | .add q :: r, p, o, h => by
    simp only [simplifyOps, bind, Except.bind] at h
    split at h
    · cases h
    · cases h; exact .inl ⟨_, _, rfl, fun _ _ h => by cases h; rfl⟩
  | .log q :: r, p, o, h => by
    simp only [simplifyOps, bind, Except.bind] at h
    split at h
    · cases h
    · cases h; exact .inl ⟨_, _, rfl, fun _ _ h => by cases h; rfl⟩
  | .exp q :: r, p, o, h => by
    simp only [simplifyOps, bind, Except.bind] at h
    split at h
    · cases h
    · cases h; exact .inl ⟨_, _, rfl, fun _ _ h => by cases h; rfl⟩

theorem simplify_recip : ∀ (ops : List COp) (p : Mono) (r : List COp), simplifyOps p ops = .ok (.recip :: r) → Begins r
  | [], p, o, h => by simp only [simplifyOps] at h; cases h
  | .scale m :: r, p, o, h => simplify_recip r (p.mul m) o h
  | .recip :: r, p, o, h => by
    simp only [simplifyOps, bind, Except.bind] at h
    split at h
    · cases h
    · split at h
      · cases h
      · cases h; exact simplify_begins _ _ _ (by assumption)
  | .add q :: r, p, o, h => by
    simp only [simplifyOps, bind, Except.bind] at h
    split at h <;> cases h
  | .log q :: r, p, o, h => by
    simp only [simplifyOps, bind, Except.bind] at h
    split at h <;> cases h
  | .exp q :: r, p, o, h => by
    simp only [simplifyOps, bind, Except.bind] at h
    split at h <;> cases h

theorem lead_step {k : Int} {c : Rat} {r : List COp} (h : ∀ op r', r = op :: r' → op.isStep = true) :
    leadScales k c r = (k, c, r) := by
  cases r with
  | nil => rfl
  | cons op r =>
    have := h op r rfl
    cases op <;> first | rfl | cases this

theorem runProduct_free {x : ℝ} {ops o : List COp} {p : Mono} (hs : simplifyOps p ops = .ok o)
    (h : o.any COp.hasSymbol = false) : runProduct x o = runOps o x := by
  rcases simplify_begins _ _ _ hs with ⟨m, r, rfl, hr⟩ | ⟨r, rfl⟩
  · rw [List.any_cons, Bool.or_eq_false_iff] at h
    have he := exps_nil h.1
    have h0 : m.exp valueName = 0 := exp_of_free (by rw [he]; intro q hq; cases hq)
    have hl : leadScales 1 1 (.scale m :: r) = (1, 1 * m.coef, r) := by
      rw [leadScales, h0, lead_step hr]; rfl
    have hrun : (do runNamed x r (← powerOf (1 * m.coef) x 1)) = runOps (.scale m :: r) x := by
      rw [powerOf_one]
      simp only [runOps, COp.run, he, if_true, bind, Except.bind, one_mul]
      exact runNamed_free h.2 _
    unfold runProduct
    rw [hl]
    cases r with
    | nil => exact hrun
    | cons op r =>
      have := hr op r rfl
      cases op <;> first | exact hrun | cases this
  · rw [List.any_cons, Bool.or_eq_false_iff] at h
    have hb := simplify_recip _ _ _ hs
    have hl : leadScales 1 1 (.recip :: r) = (1, 1, .recip :: r) := rfl
    unfold runProduct
    rw [hl]
    rcases hb with ⟨m, r', rfl, hr⟩ | ⟨r', rfl⟩
    · have h2 := h.2
      rw [List.any_cons, Bool.or_eq_false_iff] at h2
      have he := exps_nil h2.1
      have h0 : m.exp valueName = 0 := exp_of_free (by rw [he]; intro q hq; cases hq)
      have hl : leadScales (-1) 1⁻¹ (.scale m :: r') = (-1, 1⁻¹ * m.coef, r') := by
        rw [leadScales, h0, lead_step hr]; rfl
      simp only [hl]
      simp only [runOps, COp.run, he, if_true, bind, Except.bind, powerOf]
      by_cases hx : x = 0
      · simp [hx]
      · simp only [hx, and_false, if_false]
        rw [runNamed_free h2.2]
        simp
    · have hl : leadScales (-1) 1⁻¹ (COp.recip :: r') = (-1, 1⁻¹, .recip :: r') := rfl
      simp only [hl]
      have h2 := h.2
      simp only [runOps, bind, Except.bind, powerOf]
      by_cases hx : x = 0
      · simp [hx, COp.run]
      · simp only [hx, and_false, if_false, COp.run]
        rw [runNamed_free h2]
        simp [runOps, COp.run, bind, Except.bind]

end Verif
