import Verif.Model.Threads
import Verif.Spec.Lookup
/-!
# Specification of concurrent use

What each call must answer, whatever else is going on: what reading the registry as a fixed table gives.
-/

namespace Verif.Spec

/-- a call that looks something up -/
def IsQuery : Job → Prop
  | .lookup _ _ => True
  | .unit _ _ => True
  | _ => False

/-- nobody registers anything -/
def OnlyQueries (evs : List Event) : Prop := ∀ j, Event.call j ∈ evs → IsQuery j

/-- what a query answers when the registry is a fixed table and definitions nest at most `depth` deep -/
def answer (env : Env) (s : System) (depth : Nat) : Job → Py Answer
  | .lookup _ n => (lookup env s depth n).map .ref
  | .unit _ t => (unit env s depth t).map .obj
  | _ => .ok .nothing

/-- the recursion budget of a call -/
def limit : Job → Nat
  | .lookup l _ => l
  | .unit l _ => l
  | _ => 0

/-- what the call answers on its own, as the only user of the system -/
def alone (env : Env) (s : System) : Job → Py Answer
  | .lookup l n => (unitByNameOrSymbol env l n s).1.map .ref
  | .unit l t => (System.unit env l t s).1.map .obj
  | .addUnit u replace => (s.addUnit (.unit u) replace).1.map fun _ => .nothing
  | .define d names replace => ((s.alloc d names).2.addUnit (.lazy (s.alloc d names).1) replace).1.map fun _ => .nothing
  | .addPrefix _ => .ok .nothing

/-- thread `i` of the pool has finished the call `j` with the outcome `r` -/
def Finished (p : Pool) (i : Nat) (j : Job) (r : Py Answer) : Prop :=
  p.threads[i]? = some ⟨j, some (.done r)⟩

/-- the pool after the first `k` events of an endless schedule -/
def atTime (env : Env) (s : System) (sched : Nat → Event) (k : Nat) : Pool :=
  (Pool.start s).run env ((List.range k).map sched)

end Verif.Spec
