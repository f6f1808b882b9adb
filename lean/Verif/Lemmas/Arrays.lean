import Verif.Model.Arrays
import Verif.Lemmas.Convert
/-!
# Converting arrays
-/

namespace Verif.Np

/-- all operations on one element -/
noncomputable def elemRun (ops : List COp) : Elem → Elem
  | none => none
  | some x => (runOps ops x).toOption

theorem elemRun_nil (x : Elem) : elemRun [] x = x := by cases x <;> rfl

theorem elemRun_cons (op : COp) (ops : List COp) (x : Elem) : elemRun (op :: ops) x = elemRun ops (step op x) := by
  cases x with
  | none => rfl
  | some x =>
    simp only [elemRun, runOps, step, bind, Except.bind]
    cases op.run x <;> rfl

/-- an operation sympy drops -/
def Dropped : COp → Prop
  | .scale m => m.coef = 1
  | .add q => q = 0
  | _ => False

/-- a factor 0 -/
def Zero : COp → Prop
  | .scale m => m.coef = 0
  | _ => False

theorem dropped_run {op : COp} (h : Dropped op) (hs : op.hasSymbol = false) (x : ℝ) : op.run x = .ok x := by
  cases op with
  | scale m =>
    have h : m.coef = 1 := h
    have he : m.exps = [] := by simpa [COp.hasSymbol] using hs
    rw [COp.run, if_pos he, h]
    simp
  | add q =>
    have h : q = 0 := h
    rw [COp.run, h]
    simp
  | _ => cases h

theorem dropped_step {op : COp} (h : Dropped op) (hs : op.hasSymbol = false) (x : Elem) : step op x = x := by
  cases x with
  | none => rfl
  | some x => simp only [step, dropped_run h hs, Except.toOption]

theorem run_cons_dropped {op : COp} (h : Dropped op) (ops : List COp) (v : Val) (mem : Mem) : run (op :: ops) v mem = run ops v mem := by
  rw [run.eq_def]
  cases op with
  | scale m => simp only; rw [if_pos (show m.coef = 1 from h)]
  | add q => simp only; rw [if_pos (show q = 0 from h)]
  | _ => cases h

theorem run_cons {op : COp} (h : ¬ Dropped op) (h0 : ¬ Zero op) (ops : List COp) (v : Val) (mem : Mem) :
    run (op :: ops) v mem = (do let (v, mem) ← apply op v mem; run ops v mem) := by
  rw [run.eq_def]
  cases op with
  | scale m => simp only; rw [if_neg (show ¬ m.coef = 1 from h), if_neg (show ¬ m.coef = 0 from h0)]
  | add q => simp only; rw [if_neg (show ¬ q = 0 from h)]
  | _ => rfl

theorem run_cons_zero {op : COp} (h0 : Zero op) (ops : List COp) (v : Val) (mem : Mem) :
    run (op :: ops) v mem = run ops (.num (some 0)) mem := by
  rw [run.eq_def]
  cases op with
  | scale m =>
    have : m.coef = 0 := h0
    simp only
    rw [if_neg (by rw [this]; decide), if_pos this]
  | _ => cases h0

/-- nothing is ever written to an array that exists -/
theorem run_grows {ops : List COp} : ∀ {v v' : Val} {mem mem' : Mem}, run ops v mem = .ok (v', mem') → ∃ new, mem' = mem ++ new := by
  induction ops with
  | nil => intro v v' mem mem' h; cases h; exact ⟨[], by simp⟩
  | cons op ops ih =>
    intro v v' mem mem' h
    by_cases hd : Dropped op
    · rw [run_cons_dropped hd] at h; exact ih h
    · by_cases h0 : Zero op
      · rw [run_cons_zero h0] at h; exact ih h
      · rw [run_cons hd h0] at h
        simp only [bind, Except.bind] at h
        cases v with
        | num x => exact ih h
        | ref i =>
          simp only [apply] at h
          cases hm : mem[i]? with
          | none => rw [hm] at h; cases h
          | some a =>
            rw [hm] at h
            obtain ⟨new, hn⟩ := ih h
            exact ⟨[⟨a.shape, a.elems.map (step op)⟩] ++ new, by rw [hn, List.append_assoc]⟩

theorem run_num {ops : List COp} : ∀ (x : Elem) (mem : Mem), ∃ y, run ops (.num x) mem = .ok (.num y, mem) := by
  induction ops with
  | nil => intro x mem; exact ⟨x, rfl⟩
  | cons op ops ih =>
    intro x mem
    by_cases hd : Dropped op
    · rw [run_cons_dropped hd]; exact ih x mem
    · by_cases h0 : Zero op
      · rw [run_cons_zero h0]; exact ih _ mem
      · rw [run_cons hd h0]; exact ih _ mem

/-- without a factor 0, the array is converted element by element -/
theorem run_ref {ops : List COp} (hs : ∀ op ∈ ops, op.hasSymbol = false) (hz : ∀ op ∈ ops, ¬ Zero op) :
    ∀ {i : Nat} {mem : Mem} {a : Arr}, mem[i]? = some a →
    ∃ (j : Nat) (mem' : Mem), run ops (.ref i) mem = .ok (.ref j, mem') ∧ mem'[j]? = some ⟨a.shape, a.elems.map (elemRun ops)⟩ ∧
      ((j = i ∧ ∀ op ∈ ops, Dropped op) ∨ mem.length ≤ j) := by
  induction ops with
  | nil =>
    intro i mem a h
    refine ⟨i, mem, rfl, ?_, .inl ⟨rfl, by simp⟩⟩
    rw [h]
    have : a.elems.map (elemRun []) = a.elems := by
      rw [show elemRun [] = id from funext elemRun_nil, List.map_id]
    rw [this]
  | cons op ops ih =>
    intro i mem a h
    have hs' : ∀ op ∈ ops, op.hasSymbol = false := fun o h => hs o (List.mem_cons_of_mem _ h)
    have hz' : ∀ op ∈ ops, ¬ Zero op := fun o h => hz o (List.mem_cons_of_mem _ h)
    have hmap : ∀ xs : List Elem, (xs.map (step op)).map (elemRun ops) = xs.map (elemRun (op :: ops)) := by
      intro xs
      rw [List.map_map]
      exact List.map_congr_left fun x _ => (elemRun_cons op ops x).symm
    by_cases hd : Dropped op
    · obtain ⟨j, mem', h1, h2, h3⟩ := ih hs' hz' h
      refine ⟨j, mem', by rw [run_cons_dropped hd]; exact h1, ?_, ?_⟩
      · rw [h2, ← hmap]
        have : a.elems.map (step op) = a.elems := by
          rw [show step op = id from funext (dropped_step hd (hs op (List.mem_cons_self ..))), List.map_id]
        rw [this]
      · rcases h3 with ⟨e, h4⟩ | h3
        · refine .inl ⟨e, ?_⟩
          intro o ho
          rcases List.mem_cons.1 ho with rfl | ho
          · exact hd
          · exact h4 o ho
        · exact .inr h3
    · have h0 := hz op (List.mem_cons_self ..)
      have hnew : (mem ++ [(⟨a.shape, a.elems.map (step op)⟩ : Arr)])[mem.length]? = some ⟨a.shape, a.elems.map (step op)⟩ := by simp
      obtain ⟨j, mem', h1, h2, h3⟩ := ih hs' hz' hnew
      refine ⟨j, mem', ?_, by rw [h2, ← hmap], ?_⟩
      · rw [run_cons hd h0]
        simp only [bind, Except.bind, apply, h]
        exact h1
      · right
        rcases h3 with ⟨e, -⟩ | h3
        · omega
        · simp at h3; omega

/-- a factor 0 makes a conversion constant -/
theorem zero_constant {ops : List COp} (hz : ∃ op ∈ ops, Zero op) : ∀ {x y r s : ℝ}, runOps ops x = .ok r → runOps ops y = .ok s → r = s := by
  induction ops with
  | nil => obtain ⟨op, h, -⟩ := hz; cases h
  | cons op ops ih =>
    intro x y r s hx hy
    simp only [runOps, bind, Except.bind] at hx hy
    cases hx1 : op.run x with
    | error e => rw [hx1] at hx; cases hx
    | ok x1 =>
      cases hy1 : op.run y with
      | error e => rw [hy1] at hy; cases hy
      | ok y1 =>
        rw [hx1] at hx
        rw [hy1] at hy
        simp only at hx hy
        obtain ⟨o, ho, hzo⟩ := hz
        rcases List.mem_cons.1 ho with rfl | ho
        · cases o with
          | scale m =>
            have hm : m.coef = 0 := hzo
            simp only [COp.run] at hx1 hy1
            split at hx1
            · rename_i he
              rw [if_pos he] at hy1
              cases hx1; cases hy1
              rw [hm] at hx hy
              simp only [Rat.cast_zero, zero_mul] at hx hy
              rw [hx] at hy
              exact Except.ok.inj hy
            · cases hx1
          | _ => cases hzo
        · exact ih ⟨o, ho, hzo⟩ hx hy

/-- what a factor 0 leaves is a number -/
theorem run_zero {ops : List COp} (hz : ∃ op ∈ ops, Zero op) :
    ∀ {i : Nat} {mem : Mem}, i < mem.length → ∃ y mem', run ops (.ref i) mem = .ok (.num y, mem') := by
  induction ops with
  | nil => obtain ⟨op, h, -⟩ := hz; cases h
  | cons op ops ih =>
    intro i mem hi
    obtain ⟨o, ho, hzo⟩ := hz
    by_cases h0 : Zero op
    · obtain ⟨y, hy⟩ := run_num (ops := ops) (some 0) mem
      exact ⟨y, mem, by rw [run_cons_zero h0]; exact hy⟩
    · rcases List.mem_cons.1 ho with rfl | ho
      · exact absurd hzo h0
      · by_cases hd : Dropped op
        · obtain ⟨y, mem', h⟩ := ih ⟨o, ho, hzo⟩ hi
          exact ⟨y, mem', by rw [run_cons_dropped hd]; exact h⟩
        · obtain ⟨a, ha⟩ : ∃ a, mem[i]? = some a := ⟨mem[i], List.getElem?_eq_getElem hi⟩
          obtain ⟨y, mem', h⟩ := ih ⟨o, ho, hzo⟩ (i := mem.length) (mem := mem ++ [⟨a.shape, a.elems.map (step op)⟩]) (by simp)
          refine ⟨y, mem', ?_⟩
          rw [run_cons hd h0]
          simp only [bind, Except.bind, apply, ha]
          exact h

theorem dropped_all {ops : List COp} (hs : ∀ op ∈ ops, op.hasSymbol = false) (hd : ∀ op ∈ ops, Dropped op) (x : ℝ) :
    runOps ops x = .ok x := by
  induction ops with
  | nil => rfl
  | cons op ops ih =>
    simp only [runOps, dropped_run (hd op (List.mem_cons_self ..)) (hs op (List.mem_cons_self ..)), bind, Except.bind]
    exact ih (fun o h => hs o (List.mem_cons_of_mem _ h)) (fun o h => hd o (List.mem_cons_of_mem _ h))

/-- either both functions fail, always, or both run the same operations -/
theorem convert_ops (a b : UObj) :
    (∃ e, (∀ x, Verif.convert a b x = .error e) ∧ ∀ v mem, convert a b v mem = .error e) ∨
    ∃ ops, (∀ op ∈ ops, op.hasSymbol = false) ∧ (∀ x, Verif.convert a b x = runOps ops x) ∧ ∀ v mem, convert a b v mem = run ops v mem := by
  unfold Verif.convert Converter.convert convert
  cases hb : Converter.build a b with
  | error e => exact .inl ⟨e, fun _ => rfl, fun _ _ => rfl⟩
  | ok ops =>
    simp only [bind, Except.bind]
    cases hs : simplifyOps ⟨1, []⟩ ops with
    | error e => exact .inl ⟨e, fun _ => rfl, fun _ _ => rfl⟩
    | ok ops' =>
      simp only
      cases hany : ops'.any COp.hasSymbol with
      | true => exact .inl ⟨.nameError, fun _ => by simp, fun _ _ => by simp⟩
      | false =>
        refine .inr ⟨ops', ?_, fun _ => by simp, fun _ _ => by simp⟩
        intro op hop
        exact Bool.eq_false_iff.2 fun h => by
          have := List.any_eq_true.2 ⟨op, hop, h⟩
          rw [hany] at this
          cases this

end Verif.Np
