import Verif.Lemmas.ParseThreads
/-!
# C69: threads may parse at the same time

`Process.run` (`Model/ParseThreads.lean`) interleaves the accesses of any number of calls of `parse` to the caches they share.
-/

namespace Verif.PSim
open ParserTable
set_option maxRecDepth 100000

/-- the texts parsed, in the order of the calls -/
def textsOf (es : List Event) : List Str :=
  es.filterMap fun e => match e with
    | .call _ s => some s
    | .access _ _ => none

/-- **C69.** The threads of a process are its calls of `parse`. -/
theorem C69_calls (es : List Event) : (Process.init.run es).threads.map (·.text) = textsOf es := by
  suffices h : ∀ P : Process, (P.run es).threads.map (·.text) = P.threads.map (·.text) ++ textsOf es from h _
  induction es with
  | nil => intro P; exact (List.append_nil _).symm
  | cons e es ih =>
    intro P
    refine (ih (P.step e)).trans ?_
    cases e with
    | call rec s =>
      show (P.threads ++ [_]).map _ ++ textsOf es = _ ++ s :: textsOf es
      rw [List.map_append, List.append_assoc]; rfl
    | access i sees =>
      refine congrArg (· ++ textsOf es) ?_
      cases hi : P.threads[i]? with
      | none =>
        have e : P.step (.access i sees) = P := by simp only [Process.step, hi]
        rw [e]
      | some t =>
        rw [step_access hi]
        show (P.threads.set i _).map _ = _
        rw [List.map_set]
        obtain ⟨hlt, he⟩ := List.getElem?_eq_some_iff.1 hi
        subst he
        have : (P.threads[i]).text = (P.threads.map (·.text))[i]'(by simpa using hlt) := by simp
        dsimp only
        rw [this, List.set_getElem_self]

/-- **C69.** Whatever the order in which the threads access the caches, whatever earlier values or nothing they see there, and
wherever other threads were killed: a call that has ended returned what the text alone gives. -/
theorem C69_results (es : List Event) {i : Nat} {s : Str} {r : Option (Py Node)}
    (h : (Process.init.run es).threads[i]? = some ⟨s, .done r⟩) : r = some (parse s) :=
  (Process.init_ok.run es).threads _ (List.mem_of_getElem? h)

/-- **C69.** In an endless run, a call that gets its turn again and again ends, with the same result. -/
theorem C69_ends (e : Nat → Event) {i n : Nat} {t : PThread} (h : (Process.init.run (firsts e n)).threads[i]? = some t)
    (turns : ∀ n, ∃ d sees, e (n + d) = .access i sees) :
    ∃ m, n ≤ m ∧ (Process.init.run (firsts e m)).threads[i]? = some ⟨t.text, .done (some (parse t.text))⟩ := by
  obtain ⟨m, r, hm, hr⟩ := ends_of_fair turns t.prog n h
  rw [C69_results _ hr] at hr
  exact ⟨m, hm, hr⟩

/-- **C69.** Every value in the caches is the one that would be computed: whichever writes are lost or seen late, a place never
holds two different values that the parser uses. -/
theorem C69_one_value (es : List Event) {dec : Nat} {cs : List PConfig} {k : Int} {v w : Option PState}
    (hdec : dec ∈ predictedDecisions) (hv : ⟨.edge dec cs k, v⟩ ∈ (Process.init.run es).written)
    (hw : ⟨.edge dec cs k, w⟩ ∈ (Process.init.run es).written) : v = w := by
  have h := (Process.init_ok.run es).written
  obtain ⟨p, hdec⟩ : ∃ p, (dec, p) ∈ predicted := by
    have : ∀ d ∈ predictedDecisions, ∃ x ∈ predicted, x.1 = d := by decide
    obtain ⟨⟨d, p⟩, hm, rfl⟩ := this dec hdec
    exact ⟨p, hm⟩
  exact (h _ hv p hdec).trans (h _ hw p hdec).symm

/-- **C69.** At any moment any call can be brought to its end without the others moving: no thread waits for another. -/
theorem C69_no_waiting (es : List Event) {i : Nat} {t : PThread} (h : (Process.init.run es).threads[i]? = some t) :
    ∃ n, (Process.init.run (es ++ List.replicate n (.access i none))).threads[i]? =
      some ⟨t.text, .done (some (parse t.text))⟩ := by
  suffices hs : ∀ (p : CProg (Option (Py Node))) (s : Str) (P : Process), P.threads[i]? = some ⟨s, p⟩ →
      ∃ n r, (P.run (List.replicate n (.access i none))).threads[i]? = some ⟨s, .done r⟩ by
    obtain ⟨n, r, hr⟩ := hs t.prog t.text _ h
    have e : (Process.init.run es).run (List.replicate n (.access i none)) =
        Process.init.run (es ++ List.replicate n (.access i none)) := (List.foldl_append ..).symm
    rw [e] at hr
    rw [C69_results _ hr] at hr
    exact ⟨n, hr⟩
  intro p
  induction p with
  | done a => intro s P h; exact ⟨0, a, h⟩
  | read k c ih =>
    intro s P h
    obtain ⟨n, r, hr⟩ := ih none s _ (step_own h none)
    exact ⟨n + 1, r, hr⟩
  | write k v c ih =>
    intro s P h
    obtain ⟨n, r, hr⟩ := ih s _ (step_own h none)
    exact ⟨n + 1, r, hr⟩

/-- the result of a finished call -/
def PThread.result (t : PThread) : Option (Option (Py Node)) :=
  match t.prog with
  | .done r => some r
  | _ => none

/-- Two threads parse the empty text at once: both find no start state of the lexer, both store one; both end. -/
example :
    let P := Process.init.run [.call (fun _ => none) [], .call (fun _ => none) [], .access 0 none, .access 1 none,
      .access 0 none, .access 1 none]
    P.threads.map PThread.result = [some (some (.ok (.unhandled []))), some (some (.ok (.unhandled [])))] ∧
    P.written.length = 2 := by
  decide +kernel

/-- two threads on different texts taking turns, the second then killed: the first can go on and ends with the graph of `m2` -/
example : ∃ es : List Event, textsOf es = [c!"m2", c!"m)"] ∧ .access 0 (some 0) ∈ es ∧ .access 1 (some 0) ∈ es ∧
    (Process.init.run es).threads[0]? =
      some ⟨c!"m2", .done (some (.ok (.raise (.ident c!"m") (.number (.int 2) (some c!"2")))))⟩ := by
  let es : List Event := [.call (fun _ => none) c!"m2", .call (fun _ => none) c!"m)", .access 0 (some 0), .access 1 (some 0),
    .access 0 (some 0), .access 1 (some 0)]
  have ht : (Process.init.run es).threads.map (·.text) = [c!"m2", c!"m)"] := C69_calls es
  cases hth : (Process.init.run es).threads with
  | nil => rw [hth] at ht; cases ht
  | cons a l =>
    rw [hth] at ht
    have ha : a.text = c!"m2" := (List.cons.inj ht).1
    obtain ⟨n, hn⟩ := C69_no_waiting es (i := 0) (t := a) (by rw [hth]; rfl)
    refine ⟨es ++ List.replicate n (.access 0 none), ?_, by simp [es], by simp [es], ?_⟩
    · have : ∀ n, textsOf (List.replicate n (.access 0 none)) = [] := by
        intro n; induction n with
        | zero => rfl
        | succ n ih => exact ih
      unfold textsOf at this ⊢
      rw [List.filterMap_append, this]; rfl
    · rw [hn, ha]
      have : parse c!"m2" = .ok (.raise (.ident c!"m") (.number (.int 2) (some c!"2"))) := by decide +kernel
      rw [this]

end Verif.PSim
