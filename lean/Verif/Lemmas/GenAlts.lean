import Verif.Lemmas.GenRules
/-!
# Predicted decisions with any number of alternatives
-/

namespace Verif.PSim
open ParserTable
set_option maxRecDepth 100000

section
variable {τ α : Type} {N k : Nat} {r : Int} {Wq : Cond} {Rel : τ → α → Prop} {γ : List Nat} {ts : List Token}

/-- one of the states -/
def orWs : List (Nat × P α) → Cond
  | [] => fun _ _ => False
  | [x] => V x.1
  | x :: l => orW (V x.1) (orWs l)

/-- the results of the parsers in order -/
def orPs : List (Nat × P α) → P α
  | [] => P.fail
  | [x] => x.2
  | x :: l => P.or x.2 (orPs l)

/-- each alternative does what its parser does -/
def AllAlts (N : Nat) (r : Int) (k : Nat) (Wq : Cond) (Rel : τ → α → Prop) (f : Nat → G τ) : Nat → List (Nat × P α) → Prop
  | _, [] => True
  | n, x :: l => (Sim N r k (V x.1) Wq (f n) x.2 Rel ∧ Sound (V x.1) Wq x.2) ∧ AllAlts N r k Wq Rel f (n + 1) l

theorem orWs_iff {l : List (Nat × P α)} : orWs l γ ts ↔ ∃ x ∈ l, V x.1 γ ts := by
  induction l with
  | nil => simp [orWs]
  | cons x l ih =>
    cases l with
    | nil => simp [orWs]
    | cons y l =>
      show V x.1 γ ts ∨ orWs (y :: l) γ ts ↔ _
      rw [ih]; simp

theorem allAlts_get {f : Nat → G τ} {l : List (Nat × P α)} : ∀ {n : Nat}, AllAlts N r k Wq Rel f n l → ∀ (j : Nat) (x : Nat × P α),
    l[j]? = some x → Sim N r k (V x.1) Wq (f (n + j)) x.2 Rel ∧ Sound (V x.1) Wq x.2 := by
  induction l with
  | nil => intro n _ j x h; simp at h
  | cons y l ih =>
    intro n hA j x h
    cases j with
    | zero => simp only [List.getElem?_cons_zero, Option.some.injEq] at h; subst h; exact hA.1
    | succ j =>
      rw [List.getElem?_cons_succ] at h
      have := ih hA.2 j x h
      rwa [show n + (j + 1) = n + 1 + j by omega]

theorem res_choice {res : CProg (GRes τ)} : ∀ {l : List (Nat × P α)} {j : Nat} {x : Nat × P α}, l[j]? = some x →
    ResOk k (V x.1) Wq x.2 Rel γ ts res →
    (∀ (i : Nat) (y : Nat × P α), l[i]? = some y → V y.1 γ ts → V x.1 γ ts ∧ j ≤ i) →
    (∀ y ∈ l, Sound (V y.1) Wq y.2) → ResOk k (orWs l) Wq (orPs l) Rel γ ts res := by
  intro l
  induction l with
  | nil => intro j x h; simp at h
  | cons y l ih =>
    intro j x hj hres hlow hs
    cases l with
    | nil =>
      cases j with
      | zero => simp only [List.getElem?_cons_zero, Option.some.injEq] at hj; subst hj; exact hres
      | succ j => simp at hj
    | cons z l =>
      show ResOk k (orW (V y.1) (orWs (z :: l))) Wq (P.or y.2 (orPs (z :: l))) Rel γ ts res
      cases j with
      | zero =>
        simp only [List.getElem?_cons_zero, Option.some.injEq] at hj
        subst hj
        refine res_orL hres ?_
        intro hw
        obtain ⟨u, hu, hv⟩ := orWs_iff.1 hw
        obtain ⟨i, hi⟩ := List.getElem?_of_mem hu
        exact (hlow (i + 1) u (by rw [List.getElem?_cons_succ]; exact hi) hv).1
      | succ j =>
        rw [List.getElem?_cons_succ] at hj
        refine res_orR (ih hj hres ?_ ?_) ?_ (hs y (List.mem_cons_self ..))
        · intro i u hu hv
          have := hlow (i + 1) u (by rw [List.getElem?_cons_succ]; exact hu) hv
          exact ⟨this.1, by omega⟩
        · intro u hu; exact hs u (List.mem_cons_of_mem _ hu)
        · intro hv
          have := (hlow 0 y rfl hv).2
          omega

/-- a predicted decision -/
theorem sim_alts {dec p : Nat} (hmem : (dec, p) ∈ predicted) (hdec : atn.decisions[dec]? = some p)
    (hgood : GoodDecision atn p (stateAt p)) (hr : (stateAt p).rule = r) {l : List (Nat × P α)}
    (hl : altTargets (stateAt p) = (l.map (·.1)).zipIdx 1) {f : Nat → G τ} (h : AllAlts N r k Wq Rel f 1 l) :
    Sim N r k (orWs l) Wq (G.predict dec >>= f) (orPs l) Rel := by
  subst hr
  have hget : ∀ q i, (q, i) ∈ altTargets (stateAt p) → ∃ j x, i = 1 + j ∧ l[j]? = some x ∧ x.1 = q := by
    intro q i hm
    rw [hl] at hm
    obtain ⟨j, hj, e⟩ := List.mem_iff_getElem.1 hm
    simp only [List.getElem_zipIdx, List.getElem_map, Prod.mk.injEq] at e
    simp only [List.length_zipIdx, List.length_map] at hj
    exact ⟨j, l[j], e.2.symm, List.getElem?_eq_getElem hj, e.1⟩
  have hput : ∀ (j : Nat) x, l[j]? = some x → (x.1, 1 + j) ∈ altTargets (stateAt p) := by
    intro j x hx
    rw [hl]
    obtain ⟨hj, e⟩ := List.getElem?_eq_some_iff.1 hx
    rw [List.mem_iff_getElem]
    refine ⟨j, by simpa using hj, ?_⟩
    simp [e]
  refine sim_predict hmem hdec hgood ?_ ?_
  · intro γ ts hw
    obtain ⟨x, hx, hv⟩ := orWs_iff.1 hw
    obtain ⟨j, hj⟩ := List.getElem?_of_mem hx
    exact ⟨1 + j, x.1, hput j x hj, hv⟩
  · intro j rec stack ts hlen hcv hst halt hlow
    obtain ⟨q, hq⟩ := halt
    obtain ⟨j', x, rfl, hx, rfl⟩ := hget _ _ hq
    have hall := fun (j : Nat) x hx => allAlts_get (l := l) h j x hx
    refine res_choice hx ((hall j' x hx).1 rec stack ts hlen hcv hst) ?_ ?_
    · intro i y hy hv
      obtain ⟨⟨q', h1, h2⟩, h3⟩ := hlow _ _ (hput i y hy) hv
      obtain ⟨j2, x2, e, hx2, rfl⟩ := hget _ _ h1
      have : j2 = j' := by omega
      subst this
      rw [hx] at hx2; cases hx2
      exact ⟨h2, by omega⟩
    · intro y hy
      obtain ⟨i, hi⟩ := List.getElem?_of_mem hy
      exact (hall i y hi).2
end

end Verif.PSim
