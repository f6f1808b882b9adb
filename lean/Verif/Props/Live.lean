import Verif.Lemmas.LivePool
import Verif.Lemmas.LiveCheck
/-!
# C70: registering while other threads use the system

Threads that register units and prefixes and threads that look things up, interleaved access by access in any way, any of
them abandoned at any point.
-/

namespace Verif
open Spec (Pristine ConflictFree answer limit Finished IsQuery called completed returnedOnly Registers KeyOf created
  NoSecondMeaning PrefixDicts)

/-- The step-by-step registrations are the functions of `Model/System.lean`: run without interference they raise the same
exceptions and leave the same state. -/
theorem C70_programs_run_alone (env : Env) (s : System) :
    (∀ u replace, ((Job.addUnit u replace).prog env s.heap.length).alone s =
      ((s.addUnit (.unit u) replace).1.map fun _ => .nothing, (s.addUnit (.unit u) replace).2)) ∧
    (∀ d names replace, ((Job.define d names replace).prog env s.heap.length).alone (s.alloc d names).2 =
      (((s.alloc d names).2.addUnit (.lazy (s.alloc d names).1) replace).1.map fun _ => .nothing,
        ((s.alloc d names).2.addUnit (.lazy (s.alloc d names).1) replace).2)) ∧
    (∀ p, ((Job.addPrefix p).prog env s.heap.length).alone s = (.ok .nothing, s.addPrefix p)) := by
  have check : ∀ (t : Table) (ks : List Str) (s : System), (checkKeysP t ks).alone s =
      (match ks.find? fun k => Dict.has k (s.table t) with
        | some k => .error (.alreadyRegistered k)
        | none => .ok (), s) := by
    intro t ks s
    induction ks with
    | nil => rfl
    | cons k ks ih =>
      simp only [checkKeysP, Prog.alone_bind, Prog.one, Prog.alone, Act.run, List.find?_cons, Dict.has]
      cases h : Dict.get k (s.table t) with
      | some e => rfl
      | none => exact ih
  have reg : ∀ (ref : UnitReference) (e : Entry) (replace : Bool) (s : System), s.namesOf e = .ok ref →
      ((registerP ref e replace).bind fun _ => Prog.done (.ok Answer.nothing)).alone s =
        ((s.addUnit e replace).1.map fun _ => .nothing, (s.addUnit e replace).2) := by
    intro ref e replace s hn
    rw [Prog.alone_bind]
    unfold registerP System.addUnit
    rw [hn]
    cases replace with
    | true => simp only [if_true, writeUnitP_alone]; rfl
    | false =>
      simp only [Bool.false_eq_true, if_false, Prog.alone_bind, check, System.collision, System.table]
      cases h1 : (nameKeys ref.name).find? fun k => Dict.has k s.names with
      | some k => rfl
      | none =>
        simp only
        cases h2 : ref.symbols.find? fun k => Dict.has k s.symbols with
        | some k => rfl
        | none => simp only [writeUnitP_alone]; rfl
  refine ⟨?_, ?_, ?_⟩
  · intro u replace
    cases u with
    | basis b => exact reg _ _ replace s rfl
    | pre p => rfl
    | unit n d refs =>
      cases n with
      | none => rfl
      | some n => exact reg _ _ replace s rfl
  · intro d names replace
    refine reg names (.lazy s.heap.length) replace (s.alloc d names).2 ?_
    simp [System.namesOf, System.alloc]
  · intro p
    have syms : ∀ (ys : List Str) (s : System), (setPrefixSymbolsP p ys).alone s =
        (.ok (), { s with prefixSymbols := ys.foldl (fun d y => Dict.set y p d) s.prefixSymbols }) := by
      intro ys
      induction ys with
      | nil => intro s; rfl
      | cons y ys ih => intro s; simp only [setPrefixSymbolsP, Prog.alone_bind, Prog.one, Prog.alone, Act.run]; rw [ih]; rfl
    show ((addPrefixP p).bind fun _ => Prog.done (.ok Answer.nothing)).alone s = _
    simp only [addPrefixP, Prog.alone_bind, Prog.one, Prog.alone, Act.run, syms]
    rfl

/-- **C70**, what a query may answer.  Threads register units and prefixes while others look things up.  If the
registrations give no spelling a second meaning, then for every schedule of the single accesses and every way of abandoning
threads, a query that returns a result has returned what the completed system (all registrations made) answers: never a
half-registered unit, never a mixture of two states. -/
theorem C70_answers_of_the_completed_system (env : Env) (s : System) (hp : Pristine s) (hc : ConflictFree s) (hd : PrefixDicts s)
    (evs : List Event) (hm : NoSecondMeaning s (called evs)) (i : Nat) (j : Job) (hj : IsQuery j) (a : Answer)
    (h : Finished ((Pool.start s).run env evs) i j (.ok a)) :
    ∃ depth, answer env (completed (called evs) s) depth j = .ok a := by
  have hI := Live.PoolInv.run (env := env) (rest := []) hd hc hm evs
    (by rw [List.append_nil]; exact Live.PoolInv.start hd hp)
  exact (hI.threads i _ h _ rfl _ hI.shared (Live.Grows.refl _ _) a rfl).1 hj

/-- **C70**, what a query must see.  A call made after some registrations have returned answers what the system with exactly
those registrations answers, whatever is registered meanwhile — or it raises `RuntimeError`, and then some thread whose
`add_prefix` had not returned before the call ran meanwhile. -/
theorem C70_sees_what_has_returned (env : Env) (s : System) (hp : Pristine s) (hc : ConflictFree s) (hd : PrefixDicts s)
    (evs₁ evs₂ : List Event) (j : Job) (hj : IsQuery j) (hm : NoSecondMeaning s (called (evs₁ ++ .call j :: evs₂)))
    (p₁ : Pool) (hp₁ : p₁ = (Pool.start s).run env evs₁) (r : Py Answer)
    (h : Finished ((Pool.start s).run env (evs₁ ++ .call j :: evs₂)) p₁.threads.length j r)
    (depth : Nat) (hdepth : depth ≤ limit j) (a : Answer) (ha : answer env (returnedOnly p₁ s) depth j = .ok a) :
    r = .ok a ∨ (r = .error .runtimeError ∧
      ∃ k pre, Event.run k ∈ evs₂ ∧ (called (evs₁ ++ .call j :: evs₂))[k]? = some (.addPrefix pre) ∧
        ∀ j' r', ¬ Finished p₁ k j' r') := by
  generalize hjs : called (evs₁ ++ .call j :: evs₂) = js at hm ⊢
  have hcalls : js = called evs₁ ++ (j :: called evs₂) := by rw [← hjs, Live.called_append]; rfl
  have h1 : Live.PoolInv env s js p₁ (j :: called evs₂) := by
    rw [hp₁]
    refine Live.PoolInv.run hd hc hm evs₁ ?_
    rw [← hcalls]
    exact Live.PoolInv.start hd hp
  have hL := Live.returnedOnly_lower hd h1
  have hA := Live.returnedOnly_above hd h1
  generalize returnedOnly p₁ s = L at *
  have h2 : Live.PoolInv env s js (p₁.step env (.call j)) (called evs₂) := Live.PoolInv.step hd hc hm h1
  have hrun : (Pool.start s).run env (evs₁ ++ .call j :: evs₂) = (p₁.step env (.call j)).run env evs₂ := by
    rw [hp₁]; simp [Pool.run, List.foldl_append]
  let q : Prop := ∀ k, Event.run k ∈ evs₂ → ∀ pre, js[k]? = some (.addPrefix pre) → ∃ j' r', Finished p₁ k j' r'
  have hfin : ∀ k j' r, Finished p₁ k j' r → k < p₁.threads.length := fun k j' r hf => (List.getElem?_eq_some_iff.1 hf).1
  have hhere : Live.Here env s js L p₁.shared := ⟨h1.shared, h1.base, hA⟩
  have hS : Live.Second env s js q L p₁ j p₁.threads.length (p₁.step env (.call j)) := by
    have hg : (p₁.step env (.call j)).threads[p₁.threads.length]? = some ⟨j, some (j.prog env p₁.shared.heap.length)⟩ := by
      simp [Pool.step]
    refine ⟨?_, ⟨_, hg⟩, fun m hm' => ?_⟩
    · intro k j' r' hf t ht
      refine Live.idle_step (hfin k j' r' hf) ?_ (.call j) t ht
      intro t' ht' a c hx
      have hf' : p₁.threads[k]? = some ⟨j', some (.done r')⟩ := hf
      rw [hf'] at ht'; cases ht'; cases hx
    rw [hg] at hm'
    cases hm'
    exact (Live.answer_of_post hhere hd hc hm hL hj _).later (Live.Grows.create q j _)
  obtain ⟨h3, h4⟩ := Live.Second.run hd hc hm (rest := []) evs₂ hfin (by simp [Pool.step]) (by rw [List.append_nil]; exact h2) hS fun hq k hk => hq k hk
  rw [hrun] at h
  have hpost := h4.ok _ h _ h3.shared (Live.Grows.refl _ _)
  have hlim : answer env L (limit j) j = .ok a := by
    have := mono_answer (env := env) (S0 := L) j hdepth
    simp only [ha] at this
    exact this.ok
  cases r with
  | ok a' =>
    left
    obtain ⟨F, hF⟩ := hpost
    have hR := Live.answer_up hd hm hL hj hlim
    have e1 := mono_answer (env := env) (S0 := completed js s) j (Nat.le_max_left F (limit j))
    have e2 := mono_answer (env := env) (S0 := completed js s) j (Nat.le_max_right F (limit j))
    simp only [hF] at e1
    simp only [hR] at e2
    rw [e1.ok] at e2
    exact e2.ok
  | error err =>
    right
    rcases hpost with hbad | ⟨rfl, hq⟩
    · exact absurd hlim (hbad a)
    · refine ⟨rfl, Classical.byContradiction fun hno => hq fun k hk pre hpre => ?_⟩
      refine Classical.byContradiction fun hf => hno ⟨k, pre, hk, hpre, fun j' r' hx => hf ⟨j', r', hx⟩⟩

theorem Live.jobs_of_run (env : Env) (evs : List Event) (p : Pool) : Live.jobs (p.run env evs) = Live.jobs p ++ called evs := by
  induction evs generalizing p with
  | nil => simp [called, Pool.run]
  | cons e evs ih =>
    show Live.jobs ((p.step env e).run env evs) = _
    rw [ih, Live.called_cons]
    cases e with
    | call j => rw [Live.jobs_call, List.append_assoc]; rfl
    | kill i => rw [Live.jobs_kill]; rfl
    | run i => rw [Live.jobs_run]; rfl

theorem Live.returned_all (ts : List Thread) (s : System) (h : ∀ t ∈ ts, ¬ IsQuery t.job → ∃ a, t.rest = some (.done (.ok a))) :
    Spec.build (ts.map fun t => (t.job, Spec.Returned t)) s = completed (ts.map (·.job)) s := by
  induction ts generalizing s with
  | nil => rfl
  | cons t ts ih =>
    have ih' := fun s => ih s fun t' ht' => h t' (List.mem_cons_of_mem _ ht')
    show Spec.build (ts.map fun t => (t.job, Spec.Returned t)) (if Spec.Returned t then Spec.complete t.job s else t.job.create s) =
      completed (ts.map (·.job)) (Spec.complete t.job s)
    by_cases hq : IsQuery t.job
    · have e : Spec.complete t.job s = t.job.create s := by
        cases hj : t.job with
        | lookup l n => rfl
        | unit l n => rfl
        | addUnit _ _ => rw [hj] at hq; exact hq.elim
        | define _ _ _ => rw [hj] at hq; exact hq.elim
        | addPrefix _ => rw [hj] at hq; exact hq.elim
      rw [e, ite_self]
      exact ih' _
    · obtain ⟨a, ha⟩ := h t (by simp) hq
      have : Spec.Returned t = true := by simp [Spec.Returned, ha]
      rw [this, if_pos rfl]
      exact ih' _

/-- **C70**, afterwards: once all registrations have returned, every later query answers what the completed system
answers, whatever other queries do. -/
theorem C70_after_all_registrations (env : Env) (s : System) (hp : Pristine s) (hc : ConflictFree s) (hd : PrefixDicts s)
    (evs₁ evs₂ : List Event) (j : Job) (hj : IsQuery j) (hm : NoSecondMeaning s (called (evs₁ ++ .call j :: evs₂)))
    (p₁ : Pool) (hp₁ : p₁ = (Pool.start s).run env evs₁)
    (hall : ∀ t ∈ p₁.threads, ¬ IsQuery t.job → ∃ a, t.rest = some (.done (.ok a)))
    (hq : ∀ j', Event.call j' ∈ evs₂ → IsQuery j') (r : Py Answer)
    (h : Finished ((Pool.start s).run env (evs₁ ++ .call j :: evs₂)) p₁.threads.length j r)
    (depth : Nat) (hdepth : depth ≤ limit j) (a : Answer) (ha : answer env (completed (called evs₁) s) depth j = .ok a) :
    r = .ok a := by
  have hjobs : Live.jobs p₁ = called evs₁ := by rw [hp₁, Live.jobs_of_run]; rfl
  have hL : returnedOnly p₁ s = completed (called evs₁) s := by rw [← hjobs]; exact Live.returned_all _ _ hall
  rcases C70_sees_what_has_returned env s hp hc hd evs₁ evs₂ j hj hm p₁ hp₁ r h depth hdepth a (by rw [hL]; exact ha) with
    h | ⟨_, k, pre, _, hk, hnf⟩
  · exact h
  · exfalso
    rw [Live.called_append, ← hjobs] at hk
    by_cases hlt : k < (Live.jobs p₁).length
    · rw [List.getElem?_append_left hlt] at hk
      simp only [Live.jobs, List.getElem?_map] at hk
      cases ht : p₁.threads[k]? with
      | none => rw [ht] at hk; cases hk
      | some t =>
        rw [ht] at hk
        simp only [Option.map_some, Option.some.injEq] at hk
        obtain ⟨a', ha'⟩ := hall t (List.mem_of_getElem? ht) (by rw [hk]; exact id)
        refine hnf t.job (.ok a') ?_
        unfold Finished
        rw [ht, ← ha']
    · rw [List.getElem?_append_right (by omega)] at hk
      have hmem := List.mem_of_getElem? hk
      rcases List.mem_cons.1 hmem with e | hmem
      · rw [← e] at hj; exact hj
      · have : ∀ evs : List Event, ∀ j' ∈ called evs, Event.call j' ∈ evs := by
          intro evs
          induction evs with
          | nil => intro j' h; cases h
          | cons e evs ih =>
            intro j' h
            cases e with
            | call j2 =>
              rcases List.mem_cons.1 h with rfl | h
              · simp
              · exact List.mem_cons_of_mem _ (ih j' h)
            | run i => exact List.mem_cons_of_mem _ (ih j' h)
            | kill i => exact List.mem_cons_of_mem _ (ih j' h)
        exact hq _ (this evs₂ _ hmem)

/-- **C70**, what a registration leaves behind.  Once it has returned, its keys are in the tables at all later times, and a
key that nobody else claims holds its unit (or, for a definition, the unit that the definition means in the completed
system). -/
theorem C70_returned_registrations_stay (env : Env) (s : System) (hp : Pristine s) (hc : ConflictFree s) (hd : PrefixDicts s)
    (evs evs' : List Event) (hm : NoSecondMeaning s (called (evs ++ evs'))) (i : Nat) (j : Job) (a : Answer)
    (h : Finished ((Pool.start s).run env evs) i j (.ok a)) (ref : UnitReference) (e : Entry)
    (hr : Registers (created ((called evs).take i) s) j ref e) (t : Table) (k : Str) (hk : KeyOf ref k t) :
    ∃ e', Dict.get k (((Pool.start s).run env (evs ++ evs')).shared.table t) = some e' ∧
      ((∀ e'', Spec.Claim s (called (evs ++ evs')) t k e'' → e'' = e) → e' = e ∨ ∃ id r depth, e = .lazy id ∧ e' = .unit r ∧
        Spec.resolve env (completed (called (evs ++ evs')) s) (Spec.lookup env (completed (called (evs ++ evs')) s) depth) id = .ok r) := by
  have h1 : Live.PoolInv env s (called (evs ++ evs')) ((Pool.start s).run env evs) (called evs' ++ []) := by
    refine Live.PoolInv.run hd hc hm evs ?_
    rw [List.append_nil, ← Live.called_append]
    exact Live.PoolInv.start hd hp
  have h2 := Live.PoolInv.run hd hc hm evs' h1
  have hrun : (Pool.start s).run env (evs ++ evs') = ((Pool.start s).run env evs).run env evs' := by
    simp [Pool.run, List.foldl_append]
  rw [hrun]
  have hjobs : Live.jobs ((Pool.start s).run env evs) = called evs := by rw [Live.jobs_of_run]; rfl
  have hpres := (h1.threads i _ h _ rfl _ h1.shared (Live.Grows.refl _ _) a rfl).2.1 ref e (by rw [hjobs]; exact hr) t k
    (Live.mem_keysOf.2 hk)
  have hgrow : ∀ (evs : List Event) (p : Pool), Dict.get k (p.shared.table t) ≠ none →
      Dict.get k ((p.run env evs).shared.table t) ≠ none := by
    intro evs
    induction evs with
    | nil => exact fun p h => h
    | cons e evs ih =>
      refine fun p h => ih (p.step env e) ?_
      cases e with
      | call j => exact (Live.Grows.create False j _).tab t k h
      | kill i => exact h
      | run i =>
        simp only [Pool.step]
        cases p.threads[i]? with
        | none => exact h
        | some th =>
          simp only [Thread.step]
          cases th.rest with
          | none => exact h
          | some m =>
            cases m with
            | done r => exact h
            | act b c => exact (Live.Grows.act (q := False) b _ False.elim).tab t k h
  cases hg : Dict.get k ((((Pool.start s).run env evs).run env evs').shared.table t) with
  | none => exact absurd hg (hgrow evs' _ hpres)
  | some e' =>
    refine ⟨e', rfl, fun hu => ?_⟩
    rcases h2.shared.tab t k e' hg with hcl | ⟨id, r, rfl, hcl, F, hF⟩
    · exact Or.inl (hu e' hcl)
    · exact Or.inr ⟨id, r, F, (hu _ hcl).symm, rfl, hF⟩

/-! ## On the demo system -/

namespace Demo

def fortnightRef : UnitReference := named c!"fortnight" c!"fortnights" [c!"fn"]
def megaPrefix : Prefix := ⟨c!"mega", c!"1e6", [c!"M"]⟩

/-- one thread defines the fortnight, one adds a prefix, one looks up while they are at it, one afterwards -/
def busy : List Event :=
  [.call (.define c!"336 h" fortnightRef false), .call (.addPrefix megaPrefix), .call (.lookup 9 c!"kh")]
    ++ List.replicate 4 (.run 0) ++ [.run 1] ++ List.replicate 60 (.run 2) ++ List.replicate 9 (.run 1)
    ++ List.replicate 9 (.run 0) ++ [.call (.lookup 9 c!"Mfn")] ++ List.replicate 60 (.run 3)

theorem sys_dicts : PrefixDicts sys := by
  intro t; cases t <;> (unfold Dict.Nodup; decide +kernel)

theorem busy_one_meaning : NoSecondMeaning sys (called busy) := Live.noSecondMeaning_of_check (by decide +kernel)

end Demo

/-- the hypotheses of C70 are met: two registrations and two queries, interleaved -/
example : Pristine Demo.sys ∧ ConflictFree Demo.sys ∧ PrefixDicts Demo.sys ∧ NoSecondMeaning Demo.sys (called Demo.busy) ∧
    Demo.said ((Pool.start Demo.sys).run Demo.env Demo.busy) 2 = some (.ok c!"k·h") ∧
    Demo.said ((Pool.start Demo.sys).run Demo.env Demo.busy) 3 = some (.ok c!"M·fn") := by
  refine ⟨Demo.sys_pristine, Demo.sys_conflictFree, Demo.sys_dicts, Demo.busy_one_meaning, ?_, ?_⟩
  · decide +kernel
  · decide +kernel

/-! ## What is not guaranteed -/

namespace Demo

/-- a lookup of a spelling the system has always known; in the middle of its iteration over the prefixes another thread
adds one -/
def raced : List Event :=
  [.call (.lookup 9 c!"kh"), .call (.addPrefix megaPrefix)] ++ List.replicate 6 (.run 0) ++ [.run 1] ++ [.run 0]

def fathomRef : UnitReference := named c!"fathom" c!"fathoms" [c!"ftm"]

/-- two threads define a unit of the same name and symbol at the same time -/
def torn : List Event :=
  [.call (.define c!"6 m" fathomRef false), .call (.define c!"60 m" fathomRef false)]
    ++ List.replicate 3 (.run 0) ++ List.replicate 3 (.run 1) ++ List.replicate 2 (.run 0) ++ List.replicate 3 (.run 1)
    ++ [.run 0]

end Demo

/-- how a call has ended: `some none` if it has returned, `some (some e)` if it raised `e` -/
def Demo.ended (p : Pool) (i : Nat) (j : Job) : Option (Option PyErr) :=
  match p.threads[i]? with
  | some ⟨j', some (.done (.ok _))⟩ => if j' = j then some none else none
  | some ⟨j', some (.done (.error e))⟩ => if j' = j then some (some e) else none
  | _ => none

theorem Demo.ended_error {p : Pool} {i : Nat} {j : Job} {e : PyErr} (h : Demo.ended p i j = some (some e)) :
    Finished p i j (.error e) := by
  unfold Demo.ended at h
  unfold Finished
  split at h
  · split at h <;> simp at h
  · rename_i j' e' ht
    rw [ht]
    split at h
    · rename_i hj; simp at h; rw [hj, h]
    · cases h
  · cases h

theorem Demo.ended_ok {p : Pool} {i : Nat} {j : Job} (h : Demo.ended p i j = some none) : ∃ a, Finished p i j (.ok a) := by
  unfold Demo.ended at h
  unfold Finished
  split at h
  · rename_i j' a ht
    rw [ht]
    split at h
    · rename_i hj; exact ⟨a, by rw [hj]⟩
    · cases h
  · split at h <;> simp at h
  · cases h

/-- **C70**, the exception is real: a lookup that the system has always been able to answer raises `RuntimeError` when
another thread adds a prefix at the wrong moment, though the prefix has nothing to do with it. -/
theorem C70_lookups_never_break_refuted :
    ¬ ∀ (env : Env) (s : System), Pristine s → ConflictFree s → PrefixDicts s → ∀ evs, NoSecondMeaning s (called evs) →
      ∀ i j r, IsQuery j → Finished ((Pool.start s).run env evs) i j r → ∀ a, answer env s (limit j) j = .ok a → r = .ok a := by
  intro h
  have hf : Finished ((Pool.start Demo.sys).run Demo.env Demo.raced) 0 (.lookup 9 c!"kh") (.error .runtimeError) :=
    Demo.ended_error (by decide +kernel)
  have ha : ((answer Demo.env Demo.sys 9 (.lookup 9 c!"kh")).map fun _ => ()) = .ok () := by decide +kernel
  cases hx : answer Demo.env Demo.sys 9 (.lookup 9 c!"kh") with
  | error e => rw [hx] at ha; cases ha
  | ok a =>
    have hq : IsQuery (.lookup 9 c!"kh") := trivial
    have := h Demo.env Demo.sys Demo.sys_pristine Demo.sys_conflictFree Demo.sys_dicts Demo.raced
      (Live.noSecondMeaning_of_check (by decide +kernel)) 0 _ _ hq hf a hx
    cases this

/-- **C70**, the collision check of `add_unit` does not hold across threads: of two registrations of the same names, both
without `replace`, both can return. -/
theorem C70_one_registration_wins_refuted :
    ¬ ∀ (env : Env) (s : System), Pristine s → ConflictFree s → PrefixDicts s → ∀ evs i k d d' ref a a', i ≠ k → ref.name ≠ none →
      Finished ((Pool.start s).run env evs) i (.define d ref false) (.ok a) →
      Finished ((Pool.start s).run env evs) k (.define d' ref false) (.ok a') → False := by
  intro h
  obtain ⟨a, ha⟩ : ∃ a, Finished ((Pool.start Demo.sys).run Demo.env Demo.torn) 0 (.define c!"6 m" Demo.fathomRef false) (.ok a) :=
    Demo.ended_ok (by decide +kernel)
  obtain ⟨a', ha'⟩ : ∃ a, Finished ((Pool.start Demo.sys).run Demo.env Demo.torn) 1 (.define c!"60 m" Demo.fathomRef false) (.ok a) :=
    Demo.ended_ok (by decide +kernel)
  exact h Demo.env Demo.sys Demo.sys_pristine Demo.sys_conflictFree Demo.sys_dicts Demo.torn 0 1 _ _ _ a a' (by decide)
    (by decide) ha ha'

/-- **C70**, and the outcome can be torn: after both have returned, the name of the unit and its symbol are different
units, which neither order of the two registrations would give. -/
theorem C70_registrations_are_atomic_refuted :
    ¬ ∀ (env : Env) (s : System), Pristine s → ConflictFree s → PrefixDicts s → ∀ evs,
      (∀ j ∈ called evs, ∃ d ref, j = .define d ref false) →
      (∀ i j, (called evs)[i]? = some j → ∃ a, Finished ((Pool.start s).run env evs) i j (.ok a)) →
      ∀ d ref, Job.define d ref false ∈ called evs → ∀ k y, KeyOf ref k .names → KeyOf ref y .symbols → ∀ fuel u v,
        (unitByNameOrSymbol env fuel k ((Pool.start s).run env evs).shared).1 = .ok u →
        (unitByNameOrSymbol env fuel y ((Pool.start s).run env evs).shared).1 = .ok v → u = v := by
  intro h
  have hk : ((unitByNameOrSymbol Demo.env 9 c!"fathom" ((Pool.start Demo.sys).run Demo.env Demo.torn).shared).1.map
      Ref.str) = .ok c!"60·m" := by decide +kernel
  have hy : ((unitByNameOrSymbol Demo.env 9 c!"ftm" ((Pool.start Demo.sys).run Demo.env Demo.torn).shared).1.map
      Ref.str) = .ok c!"6·m" := by decide +kernel
  cases hu : (unitByNameOrSymbol Demo.env 9 c!"fathom" ((Pool.start Demo.sys).run Demo.env Demo.torn).shared).1 with
  | error e => rw [hu] at hk; cases hk
  | ok u =>
    cases hv : (unitByNameOrSymbol Demo.env 9 c!"ftm" ((Pool.start Demo.sys).run Demo.env Demo.torn).shared).1 with
    | error e => rw [hv] at hy; cases hy
    | ok v =>
      have := h Demo.env Demo.sys Demo.sys_pristine Demo.sys_conflictFree Demo.sys_dicts Demo.torn ?_ ?_ c!"6 m" Demo.fathomRef
        (by decide +kernel) c!"fathom" c!"ftm" ?_ ?_ 9 u v hu hv
      · subst this
        rw [hu] at hk; rw [hv] at hy
        rw [hk] at hy
        revert hy; decide
      · intro j hj
        rcases List.mem_cons.1 hj with rfl | hj
        · exact ⟨_, _, rfl⟩
        · rcases List.mem_cons.1 hj with rfl | hj
          · exact ⟨_, _, rfl⟩
          · cases hj
      · intro i j hj
        match i, hj with
        | 0, hj => cases hj; exact Demo.ended_ok (by decide +kernel)
        | 1, hj => cases hj; exact Demo.ended_ok (by decide +kernel)
        | i + 2, hj => cases hj
      · simp [KeyOf, Spec.IsName, Demo.fathomRef, Demo.named]
      · simp [KeyOf, Demo.fathomRef, Demo.named]

end Verif
