import Verif.Lemmas.ObjectsMore
import Verif.Model.Convert
/-!
# C73: units behave as values

Unit objects share the mappings they were built with and cache their symbolic definition.  Calls of any number of threads,
interleaved in any way, any of them abandoned anywhere.
-/

namespace Verif.Objects
open Spec.Objects

/-- **C73.**  Whatever objects have been created and whatever methods have been called before or are being called by other
threads: a method answers what is computed from scratch from the definitions — provided that no mapping was changed after a
unit was created with it. -/
theorem C73_methods_answer_from_definitions (limit : Nat) (evs : List Event) (hs : Settled limit evs) (n : Nat) (c : Call)
    (hc : c.isMethod = true) (r : Py Result) (h : Finished (Pool.run limit {} evs) n c r) :
    r = answer limit (Pool.run limit {} evs).store c :=
  ((PoolInv.run evs hs).threads n c (.done r) h hc).2

/-- **C73**, without reference to what is computed: the same call made twice, at any two times, by any threads, gives the same
result. -/
theorem C73_same_call_same_result (limit : Nat) (evs evs' : List Event) (hs : Settled limit (evs ++ evs')) (n n' : Nat) (c : Call)
    (hc : c.isMethod = true) (r r' : Py Result) (h : Finished (Pool.run limit {} evs) n c r)
    (h' : Finished (Pool.run limit {} (evs ++ evs')) n' c r') : r' = r := by
  have hb := Settled.before hs
  obtain ⟨ht, hp⟩ := (PoolInv.run evs hb).threads n c (.done r) h hc
  rw [C73_methods_answer_from_definitions limit (evs ++ evs') hs n' c hc r' h',
    answer_ext (PoolInv.run evs hb).inv (ext_run evs evs' hs) ht]
  exact hp.symm

/-- **C73**, construction: a unit that was created has its definition and the references its mapping had then, now and at all
later times. -/
theorem C73_units_stay (limit : Nat) (evs evs' : List Event) (hs : Settled limit (evs ++ evs')) (n : Nat)
    (names : Option UnitReference) (defn : Node) (m k : Nat)
    (h : Finished (Pool.run limit {} evs) n (.newUnit names defn m) (.ok (.address k))) :
    ∃ refs, followAll ((Pool.run limit {} evs).store.follow limit) (((Pool.run limit {} evs).store.maps[m]?).getD []) = .ok refs ∧
      mkUnit names defn refs = .ok (.unit names defn refs) ∧
      (Pool.run limit {} (evs ++ evs')).store.load (limit + 1) k = .ok (.unit (.unit names defn refs)) := by
  have hb := Settled.before hs
  obtain ⟨hk, refs, h1, h2⟩ := (Created.run evs hb).there n names defn m k h
  refine ⟨refs, h1, h2, ?_⟩
  have hx := ext_run evs evs' hs
  have hi := (PoolInv.run evs hb).inv
  unfold Store.load
  rw [hx.cells k _ hk]
  simp only
  rw [hx.follow hi (limit + 1) k (lt_of_get hk)]
  unfold Store.follow
  rw [hk]
  simp only [h1]
  rfl

/-- **C73**, no circles: references lead to older objects only, so that no method runs into the recursion limit if it exceeds
the number of objects. -/
theorem C73_no_circles (limit : Nat) (evs : List Event) (hs : Settled limit evs) (i : Nat)
    (hi : i < (Pool.run limit {} evs).store.cells.length) (hl : (Pool.run limit {} evs).store.cells.length ≤ limit) :
    (Pool.run limit {} evs).store.load limit i ≠ .error .recursionError := by
  have hc := Created.run evs hs
  unfold Store.load
  split
  · rename_i u r hu
    intro hx
    have hlt := hc.dates i u r hu
    have := follow_recursion hc limit u (by omega)
    cases hf : (Pool.run limit {} evs).store.follow limit u with
    | error e => rw [hf] at hx this; exact this (by cases hx; rfl)
    | ok x => rw [hf] at hx; cases hx
  · intro hx
    have := follow_recursion hc limit i (by omega)
    cases hf : (Pool.run limit {} evs).store.follow limit i with
    | error e => rw [hf] at hx this; exact this (by cases hx; rfl)
    | ok x => rw [hf] at hx; cases hx

/-- **C73**, no waiting: a call ends after at most eleven of its own steps, whatever the other threads do, even if they have
died in the middle of filling a cache. -/
theorem C73_no_waiting (limit : Nat) (p : Pool) (c : Call) (hc : c.isMethod = true) (hm : c.mentions p.store = true)
    (evs : List Event) (hk : Event.kill p.threads.length ∉ evs) (ht : 11 ≤ turns p.threads.length evs) :
    ∃ r, Finished (Pool.run limit p (.call c :: evs)) p.threads.length c r := by
  show ∃ r, Finished (Pool.run limit (p.step limit (.call c)) evs) _ c r
  refine within_run evs _ _ 11 c (c.prog limit) ?_ (prog_within limit c) ht hk
  unfold Pool.step
  simp only [hm, hc, if_true]
  simp

/-! ## An example -/

namespace Demo

def basis (n s : Str) : Call := .newBasis { name := some ⟨n, none⟩, symbols := [s], aliasNames := [], aliasSymbols := [] } false false

/-- metre, second; `2 x` with `x` = metre; `x` with the same mapping, `k x` with a mapping that is built up afterwards -/
def setup : List Event :=
  [.call (basis c!"metre" c!"m"), .call (basis c!"second" c!"s"), .call (.newPrefix ⟨c!"kilo", c!"1e3", [c!"k"]⟩),
   .call (.newMap [(c!"x", 0)]),
   .call (.newUnit none (.mul (.number (.int 2) none) (.ident c!"x")) 0),
   .call (.newUnit none (.ident c!"x") 0),
   .call (.newMap [(c!"x", 0)]), .call (.setItem 1 c!"k" 2),
   .call (.newUnit none (.mul (.ident c!"k") (.ident c!"x")) 1)]

/-- two threads make the same converter at the same time; one more dies while it fills a cache -/
def use : List Event :=
  setup ++ [.call (.converter 3 5), .call (.converter 3 5), .call (.equal 3 4), .run 9, .run 9, .run 9, .run 10, .run 10, .run 11,
    .run 11, .run 11, .kill 11] ++ List.replicate 11 (.run 10) ++ List.replicate 11 (.run 9)

/-- the result of a call, as far as it is there -/
def result (p : Pool) (n : Nat) : Option (Py Result) :=
  match p.threads[n]? with
  | some ⟨_, some (.done r)⟩ => some r
  | _ => none

end Demo

theorem Demo.finished {p : Pool} {n : Nat} {r : Py Result} (h : Demo.result p n = some r) : ∃ c, Finished p n c r := by
  unfold Demo.result at h
  split at h
  · rename_i c r' hp; cases h; exact ⟨c, hp⟩
  · cases h

/-- a mapping that is built up before it is used does not count -/
def settledCheck (limit : Nat) : Pool → List Event → Bool
  | _, [] => true
  | p, ev :: evs =>
    (match ev with
      | .call (.setItem m _ _) => p.store.cells.all fun
        | .unit _ _ m' => decide (m' ≠ m)
        | _ => true
      | _ => true) && settledCheck limit (p.step limit ev) evs

theorem settled_of_check {limit : Nat} (evs : List Event) (h : settledCheck limit {} evs = true) : Settled limit evs := by
  intro before m k i after he
  subst he
  have key : ∀ (before : List Event) (p : Pool), settledCheck limit p (before ++ .call (.setItem m k i) :: after) = true →
      ¬ InUse (Pool.run limit p before).store m := by
    intro before
    induction before with
    | nil =>
      intro p h hu
      obtain ⟨names, defn, hmem⟩ := hu
      simp only [List.nil_append, settledCheck, Bool.and_eq_true] at h
      have := List.all_eq_true.1 h.1 _ hmem
      simp at this
    | cons ev before ih =>
      intro p h
      simp only [List.cons_append, settledCheck, Bool.and_eq_true] at h
      exact ih (p.step limit ev) h.2
  exact key before {} h

/-- the hypotheses are met, and the two converters are `x ↦ 2/1000 x` -/
example : Settled 9 Demo.use ∧ Demo.result (Pool.run 9 {} Demo.use) 9 = some (.ok (.converter [.scale ⟨2 / 1000, []⟩])) ∧
    Demo.result (Pool.run 9 {} Demo.use) 10 = some (.ok (.converter [.scale ⟨2 / 1000, []⟩])) ∧
    Demo.result (Pool.run 9 {} Demo.use) 4 = some (.ok (.address 3)) :=
  ⟨settled_of_check _ (by decide +kernel), by decide +kernel, by decide +kernel, by decide +kernel⟩

/-! ## The mapping is not copied -/

namespace Demo

/-- the same, and when the caches are filled the caller makes `x` the second -/
def spoilt : List Event :=
  use ++ [.call (.setItem 0 c!"x" 1), .call (.newMap [(c!"x", 1)]), .call (.newUnit none (.ident c!"x") 2),
    .call (.isConvertibleTo 3 6), .run 15, .call (.converter 3 6)] ++ List.replicate 11 (.run 16)

end Demo

/-- **C73**, the condition is needed: `Unit` keeps the mapping it is given.  If the caller changes it, dimensionality and
symbolic definition of the unit disagree. -/
theorem C73_mapping_copied_refuted :
    ¬ ∀ (limit : Nat) (evs : List Event) (n : Nat) (c : Call) (r : Py Result), c.isMethod = true →
      Finished (Pool.run limit {} evs) n c r → r = answer limit (Pool.run limit {} evs).store c := by
  intro h
  have hr : Demo.result (Pool.run 9 {} Demo.spoilt) 16 = some (.ok (.converter [.scale ⟨2, [(c!"metre", 1), (c!"second", -1)]⟩])) := by
    decide +kernel
  have hcall : ((Pool.run 9 {} Demo.spoilt).threads[16]?.map (·.call)) = some (.converter 3 6) := by decide +kernel
  have ha : answer 9 (Pool.run 9 {} Demo.spoilt).store (.converter 3 6) = .ok (.converter [.scale ⟨2, []⟩]) := by decide +kernel
  obtain ⟨c, hf⟩ := Demo.finished hr
  have hc : c = .converter 3 6 := by
    have hf' : (Pool.run 9 {} Demo.spoilt).threads[16]? = _ := hf
    rw [hf'] at hcall; simpa using hcall
  subst hc
  have := h 9 Demo.spoilt 16 _ _ rfl hf
  rw [ha] at this
  revert this
  decide +kernel

end Verif.Objects
