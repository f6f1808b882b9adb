import Verif.Model.Sympy
import Mathlib.Analysis.SpecialFunctions.Log.Base
/-!
# Running a converter over the real numbers (`_unit.py:227-241`)

`sympy.lambdify` turns the expression into a numeric function.  Floating point is not modelled:
values are real numbers.
-/

namespace Verif

/-- the natural logarithm of the base of a logarithm (`ln` and `log` are base e) -/
noncomputable def lnBase : Option Nat → ℝ
  | none => 1
  | some b => Real.log b

/-- One step on a real number.  A remaining symbol is a `NameError` when the lambdified function
runs; `log` of a non-positive number and division by zero are errors
(with numpy installed Python returns nan/inf instead of raising; neither is a number). -/
noncomputable def COp.run (op : COp) (x : ℝ) : Py ℝ :=
  match op with
  | .scale m => if m.exps = [] then .ok ((m.coef : ℝ) * x) else .error .nameError
  | .add q => .ok (x + (q : ℝ))
  | .log b => open Classical in if 0 < x then .ok (Real.log x / lnBase b) else .error .domainError
  | .exp b => .ok (Real.exp (x * lnBase b))
  | .recip => open Classical in if x = 0 then .error .zeroDivision else .ok x⁻¹

/-- run a chain of steps -/
noncomputable def runOps : List COp → ℝ → Py ℝ
  | [], x => .ok x
  | op :: r, x => do
    let y ← op.run x
    runOps r y

/-- `Converter.convert` (`_unit.py:238-241`): the simplified expression is evaluated; if a symbol is
left, the call is a `NameError` whatever the value. -/
noncomputable def Converter.convert (ops : List COp) (x : ℝ) : Py ℝ := do
  let ops ← simplifyOps ⟨1, []⟩ ops
  if ops.any COp.hasSymbol then .error .nameError else runOps ops x

/-- `Converter(from_unit, to_unit).convert(x)` -/
noncomputable def convert (from_ to_ : UObj) (x : ℝ) : Py ℝ := do
  let ops ← Converter.build from_ to_
  Converter.convert ops x

end Verif
