import Verif.Model.Convert
/-!
# Converting numpy arrays (`Converter.convert`, `_unit.py:227-241`)

`sympy.lambdify` prints the expression as a Python function of `value`; on numpy arrays of floats every operation in it is
applied to each element and stores its results in a new array.  Where an element has no real result, numpy stores nan or an
infinity and goes on; the following operations of a conversion keep it so (`none` below).  Arrays of integers (whose powers
`10**value` numpy refuses or wraps) and masked arrays are not modelled.
-/

namespace Verif.Np

/-- an element: a number, or nan or an infinity (`none`) -/
abbrev Elem := Option ℝ

/-- an array: its shape and its elements in order -/
structure Arr where
  shape : List Nat
  elems : List Elem

/-- The arrays that exist; a reference is an index. -/
abbrev Mem := List Arr

/-- what a Python variable holds: a number or an array -/
inductive Val where
  | num (x : Elem)
  | ref (i : Nat)

/-- One operation on one element. -/
noncomputable def step (op : COp) (x : Elem) : Elem :=
  match x with
  | none => none
  | some x => (op.run x).toOption

/-- One operation of the printed function (`_unit.py:227-230`): an array operand gives a new array of the same shape, a number
a number. -/
noncomputable def apply (op : COp) : Val → Mem → Py (Val × Mem)
  | .num x, mem => .ok (.num (step op x), mem)
  | .ref i, mem =>
    match mem[i]? with
    | none => .error .keyError                            -- no such object
    | some a => .ok (.ref mem.length, mem ++ [⟨a.shape, a.elems.map (step op)⟩])

/-- The printed function.  sympy drops a factor 1 and a zero summand from a product or sum, and makes `0 * …` the number 0.
(Simplified: it keeps the factor `1.0`, a `Float`; then the function multiplies, and returns a new array.) -/
noncomputable def run : List COp → Val → Mem → Py (Val × Mem)
  | [], v, mem => .ok (v, mem)
  | op :: ops, v, mem =>
    match op with
    | .scale m =>
      if m.coef = 1 then run ops v mem
      else if m.coef = 0 then run ops (.num (some 0)) mem
      else do let (v, mem) ← apply op v mem; run ops v mem
    | .add q =>
      if q = 0 then run ops v mem
      else do let (v, mem) ← apply op v mem; run ops v mem
    | _ => do let (v, mem) ← apply op v mem; run ops v mem

/-- `Converter(from_unit, to_unit).convert(values)` -/
noncomputable def convert (from_ to_ : UObj) (values : Val) (mem : Mem) : Py (Val × Mem) := do
  let ops ← Converter.build from_ to_
  let ops ← simplifyOps ⟨1, []⟩ ops
  if ops.any COp.hasSymbol then .error .nameError else run ops values mem

end Verif.Np
