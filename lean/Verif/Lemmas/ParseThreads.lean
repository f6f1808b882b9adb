import Verif.Lemmas.CacheProg
import Verif.Model.ParseThreads
/-!
# Threads that parse at the same time: all values written are right
-/

namespace Verif.PSim
open ParserTable
set_option maxRecDepth 100000

theorem mem_valuesAt {k : Key} {v : k.Val} {ws : List Write} (h : v ∈ valuesAt k ws) : ⟨k, v⟩ ∈ ws := by
  unfold valuesAt at h
  rw [List.mem_filterMap] at h
  obtain ⟨⟨k', v'⟩, hm, he⟩ := h
  dsimp only at he
  split at he
  next hk => subst hk; cases he; exact hm
  · cases he

/-- all values written are right -/
def AllRight (ws : List Write) : Prop := ∀ w ∈ ws, Right w.1 w.2

theorem step_safe {α : Type} {Q : α → Prop} {ws : List Write} (hw : AllRight ws) (sees : Option Nat) {p : CProg α}
    (hp : Safe Q p) : Safe Q (p.step sees ws).1 ∧ AllRight (p.step sees ws).2 := by
  cases p with
  | done a => exact ⟨hp, hw⟩
  | read k c =>
    cases sees with
    | none => exact ⟨hp.1, hw⟩
    | some j =>
      refine ⟨?_, hw⟩
      show Safe Q (c (valuesAt k ws)[j]?)
      cases hv : (valuesAt k ws)[j]? with
      | none => exact hp.1
      | some v => exact hp.2 v (hw _ (mem_valuesAt (List.mem_of_getElem? hv)))
  | write k v c =>
    refine ⟨hp.2, ?_⟩
    intro w hm
    rcases List.mem_append.1 hm with hm | hm
    · exact hw w hm
    · obtain rfl := List.mem_singleton.1 hm
      exact hp.1

/-- what holds of a process -/
structure Process.Ok (P : Process) : Prop where
  written : AllRight P.written
  threads : ∀ t ∈ P.threads, Safe (· = some (parse t.text)) t.prog

theorem step_access {P : Process} {i : Nat} {t : PThread} (hi : P.threads[i]? = some t) (sees : Option Nat) :
    P.step (.access i sees) = ⟨(t.prog.step sees P.written).2, P.threads.set i ⟨t.text, (t.prog.step sees P.written).1⟩⟩ := by
  simp only [Process.step, hi]

theorem Process.init_ok : Process.init.Ok := ⟨fun _ h => (by cases h), fun _ h => (by cases h)⟩

theorem Process.Ok.step {P : Process} (h : P.Ok) (e : Event) : (P.step e).Ok := by
  cases e with
  | call rec s =>
    refine ⟨h.written, ?_⟩
    intro t ht
    rcases List.mem_append.1 ht with ht | ht
    · exact h.threads t ht
    · obtain rfl := List.mem_singleton.1 ht
      exact parse_safe rec s
  | access i sees =>
    cases hi : P.threads[i]? with
    | none =>
      have e : P.step (.access i sees) = P := by simp only [Process.step, hi]
      rw [e]; exact h
    | some t =>
      have hs := step_safe h.written sees (h.threads t (List.mem_of_getElem? hi))
      rw [step_access hi]
      refine ⟨hs.2, ?_⟩
      intro t' ht'
      rcases List.mem_or_eq_of_mem_set ht' with ht' | rfl
      · exact h.threads t' ht'
      · exact hs.1

theorem Process.Ok.run {P : Process} (h : P.Ok) (es : List Event) : (P.run es).Ok := by
  induction es generalizing P with
  | nil => exact h
  | cons e es ih => exact ih (h.step e)

/-! ## A thread that keeps running ends -/

/-- an event that is not its own leaves a thread as it is -/
theorem step_other {P : Process} {i : Nat} {t : PThread} (hi : P.threads[i]? = some t) {e : Event}
    (he : ∀ sees, e ≠ .access i sees) : (P.step e).threads[i]? = some t := by
  cases e with
  | call rec s =>
    show (P.threads ++ [_])[i]? = some t
    rw [List.getElem?_append_left (List.getElem?_eq_some_iff.1 hi).1]
    exact hi
  | access j sees =>
    have hne : j ≠ i := fun h => he sees (by rw [h])
    cases hj : P.threads[j]? with
    | none =>
      have e : P.step (.access j sees) = P := by simp only [Process.step, hj]
      rw [e]; exact hi
    | some t' =>
      rw [step_access hj]
      show (P.threads.set j _)[i]? = some t
      rw [List.getElem?_set_ne hne]
      exact hi

/-- an own event makes the program go on -/
theorem step_own {P : Process} {i : Nat} {t : PThread} (hi : P.threads[i]? = some t) (sees : Option Nat) :
    (P.step (.access i sees)).threads[i]? = some ⟨t.text, (t.prog.step sees P.written).1⟩ := by
  rw [step_access hi]
  show (P.threads.set i _)[i]? = _
  rw [List.getElem?_set_self (List.getElem?_eq_some_iff.1 hi).1]

/-- the first `n` events of an endless sequence -/
def firsts (e : Nat → Event) : Nat → List Event
  | 0 => []
  | n + 1 => firsts e n ++ [e n]

theorem run_succ {P : Process} {e : Nat → Event} {n : Nat} : P.run (firsts e (n + 1)) = (P.run (firsts e n)).step (e n) := by
  unfold Process.run
  rw [show firsts e (n + 1) = firsts e n ++ [e n] from rfl, List.foldl_append]; rfl

/-- the next own event -/
theorem next_own {P : Process} {e : Nat → Event} {i : Nat} {t : PThread} : ∀ (d n : Nat),
    (P.run (firsts e n)).threads[i]? = some t → (∃ sees, e (n + d) = .access i sees) →
    ∃ m sees, n ≤ m ∧ e m = .access i sees ∧ (P.run (firsts e m)).threads[i]? = some t := by
  intro d
  induction d with
  | zero => rintro n h ⟨sees, he⟩; exact ⟨n, sees, Nat.le_refl _, he, h⟩
  | succ d ih =>
    intro n h he
    by_cases hn : ∃ sees, e n = .access i sees
    · obtain ⟨sees, hs⟩ := hn
      exact ⟨n, sees, Nat.le_refl _, hs, h⟩
    · have h' : (P.run (firsts e (n + 1))).threads[i]? = some t := by
        rw [run_succ]
        exact step_other h fun sees hs => hn ⟨sees, hs⟩
      obtain ⟨m, sees, hm, r⟩ := ih (n + 1) h' (by rwa [Nat.add_assoc, Nat.add_comm 1 d])
      exact ⟨m, sees, by omega, r⟩

theorem ends_of_fair {P : Process} {e : Nat → Event} {i : Nat} (hf : ∀ n, ∃ d sees, e (n + d) = .access i sees) {s : Str} :
    ∀ (p : CProg (Option (Py Node))) (n : Nat), (P.run (firsts e n)).threads[i]? = some ⟨s, p⟩ →
    ∃ m r, n ≤ m ∧ (P.run (firsts e m)).threads[i]? = some ⟨s, .done r⟩ := by
  intro p
  induction p with
  | done a => intro n h; exact ⟨n, a, Nat.le_refl _, h⟩
  | read k c ih =>
    intro n h
    obtain ⟨d, hd⟩ := hf n
    obtain ⟨m, sees, hm, he, hr⟩ := next_own d n h hd
    have h' := step_own hr sees
    rw [← he, ← run_succ] at h'
    cases sees with
    | none =>
      obtain ⟨m', r, hm', hr'⟩ := ih none (m + 1) h'
      exact ⟨m', r, by omega, hr'⟩
    | some j =>
      obtain ⟨m', r, hm', hr'⟩ := ih _ (m + 1) h'
      exact ⟨m', r, by omega, hr'⟩
  | write k v c ih =>
    intro n h
    obtain ⟨d, hd⟩ := hf n
    obtain ⟨m, sees, hm, he, hr⟩ := next_own d n h hd
    have h' := step_own hr sees
    rw [← he, ← run_succ] at h'
    obtain ⟨m', r, hm', hr'⟩ := ih (m + 1) h'
    exact ⟨m', r, by omega, hr'⟩

end Verif.PSim
