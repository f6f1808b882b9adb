import Verif.Model.IntArrays
import Verif.Spec.Convert
/-!
# Specification: numpy's integer types
-/

namespace Verif.Spec

/-- the numbers of a type: `int8` has -128 … 127, `uint8` has 0 … 255 -/
def InType (τ : Np.IntType) (x : Int) : Prop :=
  if τ.signed then -(2 ^ (τ.bits - 1)) ≤ x ∧ x < 2 ^ (τ.bits - 1) else 0 ≤ x ∧ x < 2 ^ τ.bits

/-- `y` is what a type keeps of the number `x`: the number of the type that differs from `x` by a multiple of `2^bits` -/
def Kept (τ : Np.IntType) (x y : Int) : Prop := InType τ y ∧ ∃ k : Int, y = x + k * 2 ^ τ.bits

/-- the unit's definition, written out, is a product of powers: no `@` and no logarithm -/
def NoTransformation (a : UObj) : Prop := ∃ d, a.symDef = .ok ([], d)

/-- every number in the expression is written without point and exponent -/
def WholeNumbers : Node → Prop
  | .number (.dec d) _ => d.exp = 0
  | .number _ _ | .ident _ | .unhandled _ => True
  | .mul l r | .div l r | .raise l r | .shift l r => WholeNumbers l ∧ WholeNumbers r
  | .log _ t => WholeNumbers t

/-- every number in the unit's definition, written out, is -/
def WholeUnit (a : UObj) : Prop :=
  match a with
  | .unit r | .date r _ => ∃ e, r.expand = .ok e ∧ WholeNumbers e

/-- a number written with a point or an exponent is a factor of the expression (or of a power, other than the zeroth) -/
inductive PointFactor : Node → Prop
  | number (d : Dec) (raw : Option Str) : d.exp ≠ 0 → PointFactor (.number (.dec d) raw)
  | mulLeft (l r : Node) : PointFactor l → PointFactor (.mul l r)
  | mulRight (l r : Node) : PointFactor r → PointFactor (.mul l r)
  | divLeft (l r : Node) : PointFactor l → PointFactor (.div l r)
  | divRight (l r : Node) : PointFactor r → PointFactor (.div l r)
  | power (l : Node) (k : Int) (raw : Option Str) : PointFactor l → k ≠ 0 → PointFactor (.raise l (.number (.int k) raw))

/-- the unit's definition, written out, has such a factor -/
def PointUnit (a : UObj) : Prop :=
  match a with
  | .unit r | .date r _ => ∃ e, r.expand = .ok e ∧ NoTransform e ∧ PointFactor e

end Verif.Spec
