import Verif.Model.Objects
/-!
# Specification: unit objects as values

What a method would answer if there were no caches and no other calls.
-/

namespace Verif.Spec.Objects
open Verif.Objects

/-- The answer of a method, computed from scratch from the objects as they are now: the functions of the model on values
(`Model/Unit.lean`, `Model/Sympy.lean`). -/
def answer (limit : Nat) (st : Store) : Call → Py Result
  | .expanded i => do .ok (.text (← (← st.load limit i).expanded))
  | .dimensionality i => do .ok (.dims (← (← st.load limit i).dimObj))
  | .isConvertibleTo i j => do .ok (.bool (← (← st.load limit i).isConvertibleTo (← st.load limit j)))
  | .equal i j => do
    match ← st.load limit i, ← st.load limit j with
    | .unit a, .unit b => .ok (.bool (← a.eq b))
    | _, _ => .ok (.bool (i == j))
  | .converter i j => do .ok (.converter (← Converter.build (← st.load limit i) (← st.load limit j)))
  | _ => .ok .nothing

/-- call number `n` is `c` and has ended with `r` -/
def Finished (p : Pool) (n : Nat) (c : Call) (r : Py Result) : Prop := p.threads[n]? = some ⟨c, some (.done r)⟩

/-- a unit has been created with the mapping -/
def InUse (st : Store) (m : Nat) : Prop := ∃ names defn, Cell.unit names defn m ∈ st.cells

/-- No mapping is changed after a unit has been created with it. -/
def Settled (limit : Nat) (evs : List Event) : Prop :=
  ∀ before m k i after, evs = before ++ .call (.setItem m k i) :: after →
    ¬ InUse (Pool.run limit {} before).store m

end Verif.Spec.Objects
