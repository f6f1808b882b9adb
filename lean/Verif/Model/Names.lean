import Verif.Model.Convert
/-!
# The names `Converter` uses itself (`_unit.py:200-236`)

`Converter.__init__` builds its expression with the sympy symbols `value`, `to_value` and
`value_transformed_to_base_unit_scale`; sympy identifies symbols by name, so a unit of that name is the same symbol.
`Model/Sympy.lean` keeps the two apart; here they are not.
-/

namespace Verif

/-- `sympy.symbols("value")` (`_unit.py:204`, `split.py:45,83`): the argument of the compiled function. -/
def valueName : Str := c!"value"

/-- `_unit.py:202-205` -/
def ownNames : List Str := [valueName, c!"value_transformed_to_base_unit_scale", c!"to_value"]

/-- a factor of a value transformation in which a symbol of these names occurs -/
def TOp.mentions (ns : List Str) : TOp → Bool
  | .scale m => m.exps.any fun q => decide (q.1 ∈ ns)
  | _ => false

/-- a symbol that is not an argument of the compiled function (`sympy.lambdify(orig_qty, …)`, `_unit.py:227-230`) -/
def COp.hasOther : COp → Bool
  | .scale m => m.exps.any fun q => decide (q.1 ≠ valueName)
  | _ => false

/-- sympy multiplies the value, the factors and the powers of symbols of one product together:
the exponent of `value`, the factor, and the operations that follow the product. -/
def leadScales : Int → Rat → List COp → Int × Rat × List COp
  | k, c, .scale m :: r => leadScales (k + m.exp valueName) (c * m.coef) r
  | k, c, r => (k, c, r)

/-- `c * value**k` -/
noncomputable def powerOf (c : Rat) (x : ℝ) (k : Int) : Py ℝ :=
  open Classical in if k < 0 ∧ x = 0 then .error .zeroDivision else .ok ((c : ℝ) * x ^ k)

/-- the remaining operations; a factor may contain the value again -/
noncomputable def runNamed (x : ℝ) : List COp → ℝ → Py ℝ
  | [], y => .ok y
  | .scale m :: r, y => do
    let f ← powerOf m.coef x (m.exp valueName)
    runNamed x r (f * y)
  | op :: r, y => do
    let z ← op.run y
    runNamed x r z

/-- The compiled function: first the product with the value (`transformer1 * d1 / d2`, or its reciprocal,
`_unit.py:222-225`), then the rest. -/
noncomputable def runProduct (x : ℝ) (ops : List COp) : Py ℝ :=
  match leadScales 1 1 ops with
  | (k, c, .recip :: r) =>
    match leadScales (-k) c⁻¹ r with
    | (k', c', r') => do runNamed x r' (← powerOf c' x k')
  | (k, c, r) => do runNamed x r (← powerOf c x k)

/-- `Converter(from_, to_).convert(x)` with colliding symbols.
Simplification: a factor *inside a value transformation* (`(lg(re m)) value`) that contains one of the names is not
modelled (`sympy.solve` then has another equation to solve). -/
noncomputable def convertNamed (from_ to_ : UObj) (x : ℝ) : Py ℝ := do
  let ops ← Converter.build from_ to_
  let (t1, _) ← from_.symDef
  let (t2, _) ← to_.symDef
  if (t1 ++ t2).any (TOp.mentions ownNames) then .error .unmodelled
  else do
    let ops ← simplifyOps ⟨1, []⟩ ops
    if ops.any COp.hasOther then .error .nameError else runProduct x ops

end Verif
