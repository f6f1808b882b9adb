import Verif.Lemmas.Threads
import Verif.Spec.Threads
import Verif.Props.Lookup
/-!
# C62–C64: every schedule and every crash point

A unit system shared by any number of threads, each making calls, interleaved access by access in any
way, any of them abandoned at any point.
-/

namespace Verif
open Spec (Pristine ConflictFree answer limit alone Finished atTime IsQuery OnlyQueries)

section
variable {env : Env} {S0 : System}

theorem Within.map {α β} {p : Nat → Py α} {f : Nat} {r : Py α} (g : α → β) (h : Within p f r) :
    Within (fun F => (p F).map g) f (r.map g) := by
  have : ∀ {a b : Py α}, Le a b → Le (a.map g) (b.map g) := by
    intro a b h
    rcases h with h | h
    · rw [h]; exact Le.bot _
    · rw [h]; exact Le.refl _
  obtain ⟨⟨F, hF⟩, hf⟩ := h
  exact ⟨⟨F, this hF⟩, this hf⟩

theorem Ok.map {α β} {p : Nat → Py α} {f : Nat} {m : Prog α} (g : α → β) {S : System} (hS : Inv env S0 S)
    (h : Ok env S0 (Within p f) m S) :
    Ok env S0 (Within (fun F => (p F).map g) f) (m.bind fun x => .done (.ok (g x))) S :=
  Ok.bind (fun _ he => he.map g) hS h fun _ _ _ _ hx => hx.map g

theorem psim_job (hc : ConflictFree S0) (j : Job) (hj : IsQuery j) (id : Nat) :
    PSim env S0 (j.prog env id) (fun F => answer env S0 F j) (limit j) := by
  intro S hS
  cases j with
  | lookup l n => exact Ok.map Answer.ref hS (psim_lookup hc l n S hS)
  | unit l t => exact Ok.map Answer.obj hS (psim_unit hc l t S hS)
  | addUnit _ _ => exact hj.elim
  | define _ _ _ => exact hj.elim
  | addPrefix _ => exact hj.elim

theorem create_query {j : Job} (hj : IsQuery j) (S : System) : j.create S = S := by
  cases j with
  | define _ _ _ => exact hj.elim
  | _ => rfl

/-- the pool invariant -/
structure PoolInv (env : Env) (S0 : System) (p : Pool) : Prop where
  shared : Inv env S0 p.shared
  threads : ∀ t ∈ p.threads, ∀ m, t.rest = some m →
    Ok env S0 (Within (fun F => answer env S0 F t.job) (limit t.job)) m p.shared

theorem PoolInv.step (hc : ConflictFree S0) {p : Pool} (h : PoolInv env S0 p) (ev : Event)
    (hq : ∀ j, ev = .call j → IsQuery j) : PoolInv env S0 (p.step env ev) := by
  cases ev with
  | call j =>
    have hj := hq j rfl
    simp only [Pool.step, create_query hj]
    refine ⟨h.shared, ?_⟩
    intro t ht m hm
    rcases List.mem_append.1 ht with ht | ht
    · exact h.threads t ht m hm
    · rw [List.mem_singleton] at ht
      subst ht
      cases hm
      exact psim_job hc j hj _ _ h.shared
  | kill i =>
    refine ⟨h.shared, ?_⟩
    intro t ht m hm
    obtain ⟨k, hk⟩ := List.getElem?_of_mem ht
    simp only [Pool.step, List.getElem?_modify] at hk
    cases h0 : p.threads[k]? with
    | none => rw [h0] at hk; simp at hk
    | some t0 =>
      rw [h0] at hk
      by_cases e : i = k
      · subst e
        simp at hk
        subst hk
        cases hm
      · simp [e] at hk
        subst hk
        exact h.threads t0 (List.mem_of_getElem? h0) m hm
  | run i =>
    simp only [Pool.step]
    cases h0 : p.threads[i]? with
    | none => exact h
    | some t =>
      simp only
      have ht := h.threads t (List.mem_of_getElem? h0)
      obtain ⟨j, rest⟩ := t
      have still : PoolInv env S0 ⟨p.shared, p.threads.set i ⟨j, rest⟩⟩ := by
        refine ⟨h.shared, ?_⟩
        intro t2 h2 m hm
        rcases List.mem_or_eq_of_mem_set h2 with h2 | h2
        · exact h.threads t2 h2 m hm
        · subst h2; exact ht m hm
      cases rest with
      | none => exact still
      | some m =>
        cases m with
        | done r => exact still
        | act a k =>
          obtain ⟨hI, hG, hO⟩ := ht _ rfl p.shared h.shared (Grows.refl _)
          refine ⟨hI, ?_⟩
          intro t2 h2 m hm
          rcases List.mem_or_eq_of_mem_set h2 with h2 | h2
          · exact (h.threads t2 h2 m hm).later hG
          · subst h2; cases hm; exact hO

theorem PoolInv.run (hc : ConflictFree S0) {p : Pool} (h : PoolInv env S0 p) (evs : List Event) (hq : OnlyQueries evs) :
    PoolInv env S0 (p.run env evs) := by
  induction evs generalizing p with
  | nil => exact h
  | cons e evs ih =>
    exact ih (h.step hc e fun j hj => hq j (by rw [hj]; simp)) fun j hj => hq j (List.mem_cons_of_mem _ hj)

theorem PoolInv.start (hp : Pristine S0) : PoolInv env S0 (.start S0) :=
  ⟨Inv.init env hp, by intro t ht; cases ht⟩

theorem within_finished (hp : Pristine S0) (hc : ConflictFree S0) {evs : List Event} (hq : OnlyQueries evs)
    {i : Nat} {j : Job} {r : Py Answer}
    (h : Finished ((Pool.start S0).run env evs) i j r) :
    Within (fun F => answer env S0 F j) (limit j) r :=
  (PoolInv.run hc (PoolInv.start hp) evs hq).threads _ (List.mem_of_getElem? h) _ rfl

theorem query_of_thread {evs : List Event} (hq : OnlyQueries evs) {t : Thread} (h : t ∈ ((Pool.start S0).run env evs).threads) :
    IsQuery t.job := by
  have key : ∀ (evs : List Event) (p : Pool), OnlyQueries evs → (∀ t ∈ p.threads, IsQuery t.job) →
      ∀ t ∈ (p.run env evs).threads, IsQuery t.job := by
    intro evs
    induction evs with
    | nil => intro p _ hp t ht; exact hp t ht
    | cons e evs ih =>
      intro p hq hp
      refine ih (p.step env e) (fun j hj => hq j (List.mem_cons_of_mem _ hj)) fun t ht => ?_
      cases e with
      | call j =>
        rcases List.mem_append.1 ht with ht | ht
        · exact hp t ht
        · rw [List.mem_singleton] at ht; subst ht; exact hq j (by simp)
      | kill i =>
        obtain ⟨k, hk⟩ := List.getElem?_of_mem ht
        simp only [Pool.step, List.getElem?_modify] at hk
        cases h0 : p.threads[k]? with
        | none => rw [h0] at hk; simp at hk
        | some t0 =>
          rw [h0] at hk
          have := hp t0 (List.mem_of_getElem? h0)
          by_cases e : i = k
          · simp [e] at hk; subst hk; exact this
          · simp [e] at hk; subst hk; exact this
      | run i =>
        simp only [Pool.step] at ht
        cases h0 : p.threads[i]? with
        | none => rw [h0] at ht; exact hp t ht
        | some t0 =>
          rw [h0] at ht
          rcases List.mem_or_eq_of_mem_set ht with h2 | h2
          · exact hp t h2
          · have := hp t0 (List.mem_of_getElem? h0)
            rw [h2]
            unfold Thread.step
            split <;> exact this
  exact key evs (.start S0) hq (by intro t ht; cases ht) t h

theorem mono_answer (j : Job) : Mono' (fun F => answer env S0 F j) := by
  have : ∀ {α β} {a b : Py α} (g : α → β), Le a b → Le (a.map g) (b.map g) := by
    intro α β a b g h
    rcases h with h | h
    · rw [h]; exact Le.bot _
    · rw [h]; exact Le.refl _
  intro d e h
  cases j with
  | lookup l n => exact this _ (Spec.lookup_mono env S0 h n)
  | unit l t => exact this _ (spec_unit_mono env S0 t h)
  | addUnit _ _ => exact Le.refl _
  | define _ _ _ => exact Le.refl _
  | addPrefix _ => exact Le.refl _

theorem within_alone (hc : ConflictFree S0) {S : System} (hS : Inv env S0 S) (j : Job) (hj : IsQuery j) :
    Within (fun F => answer env S0 F j) (limit j) (alone env S j) := by
  cases j with
  | lookup l n => exact Within.map Answer.ref (sim_lookup hc l n S hS).2
  | unit l t => exact Within.map Answer.obj (sim_unit hc l t S hS).2
  | addUnit _ _ => exact hj.elim
  | define _ _ _ => exact hj.elim
  | addPrefix _ => exact hj.elim

end

/-- The step-by-step programs are the functions of `Model/System.lean`: run without interference they give
the same results, raise the same exceptions and leave the same state, from every state whatsoever. -/
theorem C62_programs_run_alone (env : Env) (l : Nat) (n text : Str) (s : System) :
    (lookupP env l n).alone s = unitByNameOrSymbol env l n s ∧
    (unitP env l text).alone s = System.unit env l text s :=
  ⟨lookupP_alone env l n s, unitP_alone env l text s⟩

/-- **C62.** Any number of threads share a freshly registered system without conflicting spellings.  For
every schedule of their accesses, with calls starting at any time and any threads abandoned at any points:
every call that finishes has answered what reading the registry as a fixed table gives (result or
exception), unless it ran out of its own recursion budget; and it does not run out when the table's
nesting depth fits that budget. -/
theorem C62_every_schedule (env : Env) (s : System) (hp : Pristine s) (hc : ConflictFree s)
    (evs : List Event) (hq : OnlyQueries evs) (i : Nat) (j : Job) (r : Py Answer)
    (h : Finished ((Pool.start s).run env evs) i j r) :
    (∀ depth, depth ≤ limit j → answer env s depth j ≠ .error .recursionError → r = answer env s depth j) ∧
    (r ≠ .error .recursionError → ∃ depth, r = answer env s depth j) := by
  obtain ⟨⟨F, hF⟩, hf⟩ := within_finished hp hc hq h
  constructor
  · intro depth hd hne
    rcases Le.trans (mono_answer j hd) hf with h | h
    · exact absurd h hne
    · exact h.symm
  · intro hne
    rcases hF with h | h
    · exact absurd h hne
    · exact ⟨F, h⟩

/-- **C62**, compared with the code itself: a call made among other threads answers exactly what the same
call answers as the only user of the system. -/
theorem C62_threads_do_not_interfere (env : Env) (s : System) (hp : Pristine s) (hc : ConflictFree s)
    (evs : List Event) (hq : OnlyQueries evs) (i : Nat) (j : Job) (r : Py Answer)
    (h : Finished ((Pool.start s).run env evs) i j r)
    (hr : r ≠ .error .recursionError) (ha : alone env s j ≠ .error .recursionError) :
    r = alone env s j :=
  agree (mono_answer j) (within_finished hp hc hq h).1 
    (within_alone hc (Inv.init env hp) j (query_of_thread hq (List.mem_of_getElem? h))).1 hr ha

/-- **C63**, crash points: however calls were interleaved and wherever they were abandoned, the system left
behind answers every later call as the fresh one does. -/
theorem C63_survives_crashes (env : Env) (s : System) (hp : Pristine s) (hc : ConflictFree s)
    (evs : List Event) (hq : OnlyQueries evs) (j : Job) (hj : IsQuery j)
    (h : alone env ((Pool.start s).run env evs).shared j ≠ .error .recursionError)
    (h0 : alone env s j ≠ .error .recursionError) :
    alone env ((Pool.start s).run env evs).shared j = alone env s j :=
  agree (mono_answer j) (within_alone hc (PoolInv.run hc (PoolInv.start hp) evs hq).shared j hj).1
    (within_alone hc (Inv.init env hp) j hj).1 h h0

/-- **C63**, crash points and the budget: in the system left behind, a call whose nesting depth fits its
budget answers what the table gives. -/
theorem C63_survives_crashes_within_budget (env : Env) (s : System) (hp : Pristine s) (hc : ConflictFree s)
    (evs : List Event) (hq : OnlyQueries evs) (j : Job) (hj : IsQuery j) (depth : Nat) (hd : depth ≤ limit j)
    (hne : answer env s depth j ≠ .error .recursionError) :
    alone env ((Pool.start s).run env evs).shared j = answer env s depth j := by
  have hw := within_alone (env := env) hc (PoolInv.run hc (PoolInv.start hp) evs hq).shared j hj
  rcases Le.trans (mono_answer j hd) hw.2 with h | h
  · exact absurd h hne
  · exact h.symm

/-! ## No deadlock -/

theorem Pool.run_succ (env : Env) (s : System) (sched : Nat → Event) (k : Nat) :
    atTime env s sched (k + 1) = (atTime env s sched k).step env (sched k) := by
  simp [atTime, Pool.run, List.range_succ]

theorem Pool.step_other {env : Env} {p : Pool} {ev : Event} {i : Nat} {t : Thread} (h : p.threads[i]? = some t)
    (h1 : ev ≠ .run i) (h2 : ev ≠ .kill i) : (p.step env ev).threads[i]? = some t := by
  cases ev with
  | call j =>
    have : i < p.threads.length := (List.getElem?_eq_some_iff.1 h).1
    simp [Pool.step, List.getElem?_append_left this, h]
  | run k =>
    simp only [Pool.step]
    cases p.threads[k]? with
    | none => exact h
    | some t' =>
      simp only
      have : k ≠ i := fun e => h1 (by rw [e])
      rw [List.getElem?_set_ne this]
      exact h
  | kill k =>
    have : k ≠ i := fun e => h2 (by rw [e])
    simp [Pool.step, List.getElem?_modify, this, h]

/-- **C64**, no deadlock and no livelock: no lock is ever waited for.  In every endless schedule, a thread
that is not killed and is scheduled again and again finishes its call after finitely many events, whatever
the other threads do — from any state of the system, even one with conflicting or cyclic definitions. -/
theorem C64_every_call_finishes (env : Env) (s : System) (sched : Nat → Event) (i k : Nat) (t : Thread)
    (ht : (atTime env s sched k).threads[i]? = some t) (hlive : t.rest ≠ none)
    (hkill : ∀ k', sched k' ≠ .kill i)
    (hfair : ∀ k', ∃ k'', k' ≤ k'' ∧ sched k'' = .run i) :
    ∃ k' r, Finished (atTime env s sched k') i t.job r := by
  obtain ⟨j, rest⟩ := t
  cases rest with
  | none => exact absurd rfl hlive
  | some m =>
    clear hlive
    induction m generalizing k with
    | done r => exact ⟨k, r, ht⟩
    | act a c ih =>
      -- the next time thread `i` runs
      have next : ∀ d k, (atTime env s sched k).threads[i]? = some ⟨j, some (.act a c)⟩ →
          sched (k + d) = .run i →
          ∃ k' x, (atTime env s sched k').threads[i]? = some ⟨j, some (c x)⟩ := by
        intro d
        induction d with
        | zero =>
          intro k hk hr
          refine ⟨k + 1, (a.run (atTime env s sched k).shared).1, ?_⟩
          rw [Pool.run_succ]
          have hr' : sched k = .run i := hr
          rw [hr']
          simp only [Pool.step, hk]
          have : i < (atTime env s sched k).threads.length := (List.getElem?_eq_some_iff.1 hk).1
          rw [List.getElem?_set_self this]
          rfl
        | succ d ihd =>
          intro k hk hr
          by_cases e : sched k = .run i
          · refine ⟨k + 1, (a.run (atTime env s sched k).shared).1, ?_⟩
            rw [Pool.run_succ, e]
            simp only [Pool.step, hk]
            have : i < (atTime env s sched k).threads.length := (List.getElem?_eq_some_iff.1 hk).1
            rw [List.getElem?_set_self this]
            rfl
          · refine ihd (k + 1) ?_ (by rw [← hr]; congr 1; omega)
            rw [Pool.run_succ]
            exact Pool.step_other hk e (hkill k)
      obtain ⟨k2, hk2, hr⟩ := hfair k
      obtain ⟨k', x, hk'⟩ := next (k2 - k) k ht (by rw [← hr]; congr 1; omega)
      exact ih x k' hk'

/-! ## Two threads on the demo system -/

/-- what a finished call printed -/
def Demo.said (p : Pool) (i : Nat) : Option (Py Str) :=
  match p.threads[i]? with
  | some ⟨_, some (.done (.ok (.ref r)))⟩ => some (.ok r.str)
  | some ⟨_, some (.done (.ok (.obj (.unit r))))⟩ => some (.ok r.str)
  | some ⟨_, some (.done (.error e))⟩ => some (.error e)
  | _ => none

/-- two threads resolve the same lazily defined unit; the second starts while the first is between its
test of the attribute and its write, and the first is then abandoned in the middle of re-registration -/
def Demo.race : List Event :=
  [.call (.lookup 9 c!"hour"), .run 0, .run 0, .run 0, .call (.lookup 9 c!"kh"), .call (.unit 9 c!"h/s")]
    ++ (List.range 12).flatMap (fun _ => [.run 1, .run 0]) ++ [.kill 0]
    ++ (List.range 40).flatMap (fun _ => [.run 2, .run 1])

example : Demo.said ((Pool.start Demo.sys).run Demo.env Demo.race) 0 = none ∧
    Demo.said ((Pool.start Demo.sys).run Demo.env Demo.race) 1 = some (.ok c!"k·h") ∧
    Demo.said ((Pool.start Demo.sys).run Demo.env Demo.race) 2 = some (.ok c!"h/s") := by
  refine ⟨?_, ?_, ?_⟩ <;> decide +kernel

/-- after the crash the system still knows its units -/
example : (unitByNameOrSymbol Demo.env 9 c!"hours" ((Pool.start Demo.sys).run Demo.env Demo.race).shared).1.map Ref.str
    = .ok c!"60·min" := by decide +kernel

/-- C64: a fair schedule of two threads -/
example : ∃ sched : Nat → Event, sched 0 = .call (.lookup 9 c!"hour") ∧ (∀ k', sched k' ≠ .kill 0) ∧
    ∀ k', ∃ k'', k' ≤ k'' ∧ sched k'' = .run 0 := by
  refine ⟨fun k => if k = 0 then .call (.lookup 9 c!"hour") else if k = 1 then .call (.unit 9 c!"h/s") else
    .run (k % 2), rfl, ?_, ?_⟩
  · intro k; dsimp only; split
    · simp
    · split <;> simp
  · intro k
    refine ⟨2 * k + 2, by omega, ?_⟩
    have : 2 * k + 2 ≠ 1 := by omega
    simp [this]

end Verif
