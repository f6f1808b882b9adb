import Verif.Spec.ShippedTable
import Mathlib.Analysis.SpecialFunctions.Pow.Real
/-!
# Reading the table of shipped units
-/

namespace Verif.Spec

/-- the power of a basis unit (0 if it does not occur) -/
def ShippedUnit.power (u : ShippedUnit) (s : Str) : Int := (Dict.get s u.powers).getD 0

/-- the power of a basis unit in the dimensionality: the radian is dimensionless and does not count -/
def ShippedUnit.dim (u : ShippedUnit) (s : Str) : Int := if s = c!"radian" then 0 else u.power s

/-- the number on the linear scale -/
noncomputable def Scale.value : Scale → ℝ → ℝ
  | .linear, x => x
  | .offset q, x => x + q
  | .log10, x => 10 ^ x
  | .log2, x => 2 ^ x
  | .ln, x => Real.exp x

/-- `x` of the unit, as a number of the product of basis units -/
noncomputable def ShippedUnit.quantity (u : ShippedUnit) (x : ℝ) : ℝ := u.scale.value x * u.factor

end Verif.Spec
