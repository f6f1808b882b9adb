import Verif.Model.Arrays
/-!
# Converting numpy arrays of integers (`Converter.convert`, `_unit.py:202-241`)

The printed function computes with the array's own integers as long as every number in it is a Python integer; numpy then stores
the results in the array's type, modulo a power of two, and refuses (`OverflowError`) a Python integer outside of that type (numpy
2; numpy 1 took the next larger type, and did the same from 64 bits on).  With a Python float or a true division all results are
floats.  Whether a number is printed as an integer depends on how it was written: sympy reads `60` as an Integer, and `60.5` and
`1e3` as Floats (`sympy.py:31-39`); a product with a Float is a Float.

Modelled for units whose definitions are free of value transformations (otherwise sympy's choice of the form of the expression
decides what is computed with integers).  Floats are real numbers here as elsewhere.
-/

namespace Verif.Np

/-- an integer type of numpy -/
structure IntType where
  bits : Nat
  signed : Bool
  deriving DecidableEq, Repr

/-- the least number of a type -/
def IntType.least (τ : IntType) : Int := if τ.signed then -(2 ^ (τ.bits - 1)) else 0

/-- what is stored for a number -/
def IntType.wrap (τ : IntType) (x : Int) : Int := τ.least + (x - τ.least) % 2 ^ τ.bits

/-- does a Python integer have the type? -/
def IntType.has (τ : IntType) (x : Int) : Bool := τ.least ≤ x && x < τ.least + 2 ^ τ.bits

/-- Is the number a sympy `Float`?  `visit_Number` (`sympy.py:31-39`) parses `str(content)`: of an `int` digits; of a `Decimal` with
exponent 0 digits, with any other exponent a text with a point or an `E`. -/
def _root_.Verif.Num.isFloat : Num → Bool
  | .dec d => d.exp != 0
  | _ => false

/-- Does `ToSympy().visit` of a definition (`sympy.py:25-50`) have a Float as its coefficient?  (`x ** 0` is the Integer 1.
Simplified: a product with the Integer 0 is taken for a Float, too; conversions from such a unit give a number, below.) -/
def _root_.Verif.Node.hasFloat : Node → Bool
  | .number v _ => v.isFloat
  | .mul l r | .div l r => l.hasFloat || r.hasFloat
  | .raise l r => l.hasFloat && r.asExponent.toOption != some 0
  | _ => false

/-- the unit whose definition is expanded: of a `DateUnit` its unit (`_unit.py:511-513`) -/
def _root_.Verif.UObj.hasFloat : UObj → Py Bool
  | .unit r => do
    let e ← r.expand
    let x ← e.split true
    .ok x.2.hasFloat
  | .date r _ => do
    let e ← r.expand
    let x ← e.split true
    .ok x.2.hasFloat

/-- the outcome of converting an array of integers -/
inductive IntResult where
  /-- the array itself -/
  | same
  /-- the number 0 -/
  | zero
  /-- a new array of the same type -/
  | ints (ys : List Int)
  /-- a new array of floats -/
  | floats (ys : List Elem)
  /-- `OverflowError` -/
  | refused

/-- the printed function (`_unit.py:227-230`): `value`, `0`, `60*value`, `(1/60)*value`, `1000.0*value`; or `(1/60)/value` -/
noncomputable def runInts (float : Bool) (τ : IntType) (xs : List Int) : List COp → Py IntResult
  | [.scale m] =>
    if m.coef = 0 then .ok .zero
    else if float || m.coef.den != 1 then .ok (.floats (xs.map fun (x : Int) => step (.scale m) (some (x : ℝ))))
    else if m.coef = 1 then .ok .same
    else if τ.has m.coef.num then .ok (.ints (xs.map fun x => τ.wrap (m.coef.num * x)))
    else .ok .refused
  | [.recip, .scale m] => .ok (.floats (xs.map fun (x : Int) => step (.scale m) (step .recip (some (x : ℝ)))))
  | _ => .error .unmodelled

/-- `Converter(from_unit, to_unit).convert(values)` for an array `xs` of type `τ` -/
noncomputable def convertInts (from_ to_ : UObj) (τ : IntType) (xs : List Int) : Py IntResult := do
  let ops ← Converter.build from_ to_
  let f1 ← from_.hasFloat
  let f2 ← to_.hasFloat
  let ops ← simplifyOps ⟨1, []⟩ ops
  if ops.any COp.hasSymbol then .error .nameError else runInts (f1 || f2) τ xs ops

end Verif.Np
