import Verif.Lemmas.Size
import Verif.Props.Objects
/-!
# C74: how long `expanded()` can be

Definitions refer to each other, so that a short system of definitions can stand for a very long expression; `expanded`,
equality and conversions write it out.
-/

namespace Verif.Objects
open Spec.Objects

/-- **C74**, the bound.  If no name, prefix value or definition has more than `M` characters, then `expanded()` of the unit that
was created as number `i` has at most `M^(i+1)`. -/
theorem C74_expanded_length (limit : Nat) (evs : List Event) (hs : Settled limit evs) (M : Nat) (hM : 1 ≤ M)
    (hshort : ∀ c ∈ (Pool.run limit {} evs).store.cells, Short M c) (n i : Nat) (s : Str)
    (hdate : ∀ u r, (Pool.run limit {} evs).store.cells[i]? ≠ some (.date u r))
    (h : Finished (Pool.run limit {} evs) n (.expanded i) (.ok (.text s))) : s.length ≤ M ^ (i + 1) := by
  have ha := C73_methods_answer_from_definitions limit evs hs n (.expanded i) rfl _ h
  simp only [answer] at ha
  have hload : (Pool.run limit {} evs).store.load limit i = (do .ok (.unit (← (Pool.run limit {} evs).store.follow limit i))) := by
    unfold Store.load
    split
    · rename_i u r hu; exact absurd hu (hdate u r)
    · rfl
  rw [hload] at ha
  cases hr : (Pool.run limit {} evs).store.follow limit i with
  | error e => rw [hr] at ha; cases ha
  | ok r =>
    rw [hr] at ha
    simp only [bind, Except.bind, UObj.expanded] at ha
    cases hx : r.expand with
    | error e => rw [hx] at ha; cases ha
    | ok x =>
      rw [hx] at ha
      cases ha
      exact expand_bound (Created.run evs hs) hM hshort i limit r x hr hx

def noEmpty : Node → Bool
  | .ident n => !n.isEmpty
  | .number _ _ => true
  | .unhandled _ => true
  | .mul l r => noEmpty l && noEmpty r
  | .div l r => noEmpty l && noEmpty r
  | .raise l r => noEmpty l && noEmpty r
  | .shift u f => noEmpty u && noEmpty f
  | .log _ t => noEmpty t

theorem noEmpty_spec (n : Node) (h : noEmpty n = true) : NoEmptyIdentifier n := by
  induction n with
  | ident n => cases n with
    | nil => cases h
    | cons a l => exact List.cons_ne_nil a l
  | number v r => trivial
  | unhandled r => trivial
  | log fn t ih => exact ih h
  | mul l r ihl ihr | div l r ihl ihr | raise l r ihl ihr | shift l r ihl ihr =>
    have h' := Bool.and_eq_true_iff.1 h
    exact ⟨ihl h'.1, ihr h'.2⟩

def shortCheck (M : Nat) : Cell → Bool
  | .basis b => decide (b.ref.length ≤ M)
  | .pre p => match p.expand with
    | .ok e => decide (e.str.length ≤ M)
    | .error _ => true
  | .unit _ defn _ => decide (defn.str.length ≤ M) && noEmpty defn
  | .date _ _ => true

theorem short_of_check {M : Nat} (c : Cell) (h : shortCheck M c = true) : Short M c := by
  cases c with
  | basis b => exact (of_decide_eq_true h : b.ref.length ≤ M)
  | pre p =>
    intro e he
    simp only [shortCheck, he] at h
    exact of_decide_eq_true h
  | unit names defn m =>
    have h' := Bool.and_eq_true_iff.1 h
    exact ⟨of_decide_eq_true h'.1, noEmpty_spec defn h'.2⟩
  | date u r => trivial

/-- the hypotheses are met -/
example : Settled 9 Demo.use ∧ (∀ c ∈ (Pool.run 9 {} Demo.use).store.cells, Short 6 c) ∧
    Demo.result (Pool.run 9 {} (Demo.use ++ [.call (.expanded 5), .run 12])) 12 = some (.ok (.text c!"1E+3·metre")) := by
  refine ⟨settled_of_check _ (by decide +kernel), ?_, by decide +kernel⟩
  intro c hc
  exact short_of_check c (List.all_eq_true.1 (by decide +kernel : (Pool.run 9 {} Demo.use).store.cells.all (shortCheck 6) = true) c hc)

/-- **C74**, it does happen: `n` units, each defined as `x·x` where `x` is the one before, are quickly written; `expanded()` of the
last has `2^(n+1) - 1` characters. -/
theorem C74_doubling (n : Nat) : ∃ evs s, Settled (n + 1) evs ∧ written evs = 7 * n + 4 ∧
    Finished (Pool.run (n + 1) {} evs) (2 * n + 1) (.expanded n) (.ok (.text s)) ∧ s.length = 2 * 2 ^ n - 1 := by
  obtain ⟨x, hx, hlen⟩ := power_expand n
  refine ⟨chain n ++ [.call (.expanded n), .run (2 * n + 1)], x.str,
    settled_chain (n + 1) n _ (fun m k i h => by simp at h), ?_, ?_, hlen⟩
  · have : written (chain n ++ [.call (.expanded n), .run (2 * n + 1)]) = written (chain n) + 2 := by
      simp [written, writtenIn]
    rw [this, written_chain]
  have hst := chain_run (n + 1) n (by omega)
  have hth : (Pool.run (n + 1) {} (chain n)).threads.length = 2 * n + 1 := by
    have key : ∀ k ≤ n, (Pool.run (n + 1) {} (chain k)).threads.length = 2 * k + 1 := by
      intro k
      induction k with
      | zero => intro _; rfl
      | succ k ih =>
        intro hk
        have hrun : Pool.run (n + 1) {} (chain (k + 1)) =
            ((Pool.run (n + 1) {} (chain k)).step (n + 1) (.call (.newMap [(c!"x", k)]))).step (n + 1)
              (.call (.newUnit none square k)) := by simp [chain, Pool.run]
        have hstk := chain_run (n + 1) k (by omega)
        have ihk := ih (by omega)
        rw [hrun]
        generalize Pool.run (n + 1) {} (chain k) = p at hstk ihk
        obtain ⟨st, ts⟩ := p
        simp only at hstk ihk
        subst hstk
        have hm1 : (Call.newMap [(c!"x", k)]).mentions (chainStore k) = true := by
          simp [Call.mentions, chainStore]
        have hm2 : (Call.newUnit none square k).mentions
            { chainStore k with maps := (chainStore k).maps ++ [[(c!"x", k)]] } = true := by
          simp [Call.mentions, chainStore]
        unfold Pool.step
        simp only [hm1, if_true, Call.isMethod, Bool.false_eq_true, if_false, Call.construct, hm2, List.length_append,
          List.length_cons, List.length_nil, ihk]
        omega
    exact key n (Nat.le_refl n)
  have hrun : Pool.run (n + 1) {} (chain n ++ [.call (.expanded n), .run (2 * n + 1)]) =
      ((Pool.run (n + 1) {} (chain n)).step (n + 1) (.call (.expanded n))).step (n + 1) (.run (2 * n + 1)) := by
    simp [Pool.run]
  rw [hrun]
  generalize Pool.run (n + 1) {} (chain n) = p at hst hth
  obtain ⟨st, ts⟩ := p
  simp only at hst hth
  subst hst
  have hm : (Call.expanded n).mentions (chainStore n) = true := by simp [Call.mentions, chainStore]
  have h1 : ({ store := chainStore n, threads := ts } : Pool).step (n + 1) (.call (.expanded n)) =
      { store := chainStore n, threads := ts ++ [⟨.expanded n, some ((Call.expanded n).prog (n + 1))⟩] } := by
    unfold Pool.step
    simp only [hm, if_true, Call.isMethod]
  rw [h1]
  have hg : (ts ++ [(⟨.expanded n, some ((Call.expanded n).prog (n + 1))⟩ : Thread)])[2 * n + 1]? =
      some ⟨.expanded n, some ((Call.expanded n).prog (n + 1))⟩ := by
    rw [List.getElem?_append_right (by omega), hth]; simp
  have hload : (chainStore n).load (n + 1) n = .ok (.unit (power n)) := by
    unfold Store.load
    split
    · rename_i u r hu
      exfalso
      cases n with
      | zero => cases hu
      | succ k => simp [chainStore, List.getElem?_map, List.getElem?_range (by omega : k < k + 1)] at hu
    · rw [chainStore_follow n (n + 1) n (Nat.le_refl n) (by omega)]; rfl
  have hlt := lt_of_get hg
  unfold Pool.step Finished
  simp only [hg]
  rw [List.getElem?_set_self hlt]
  simp only [Call.prog, Prog.step, hload, bind, Except.bind, UObj.expanded, hx]

/-- **C74**, no polynomial bound: what `expanded()` returns (and what comparing and converting work with) is not bounded by any
polynomial in what has been written. -/
theorem C74_polynomial_refuted :
    ¬ ∃ c d, ∀ (limit : Nat) (evs : List Event), Settled limit evs → ∀ n i s,
      Finished (Pool.run limit {} evs) n (.expanded i) (.ok (.text s)) → s.length ≤ c * (written evs) ^ d := by
  rintro ⟨c, d, h⟩
  obtain ⟨n, hn⟩ := outgrow c d
  obtain ⟨evs, s, hs, hw, hf, hlen⟩ := C74_doubling n
  have hb := h (n + 1) evs hs _ _ _ hf
  rw [hw, hlen] at hb
  have : 1 ≤ 2 ^ n := Nat.pow_pos (by omega)
  omega

end Verif.Objects
