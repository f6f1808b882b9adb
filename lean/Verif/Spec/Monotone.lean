import Verif.Model.Convert
/-!
# Specification: order and intervals under conversion
-/

namespace Verif.Spec

/-- `x` of `a` can be converted to `b`. -/
def Converts (a b : UObj) (x : ℝ) : Prop := ∃ v, convert a b x = .ok v

/-- Larger values convert to larger values. -/
def KeepsOrder (a b : UObj) : Prop :=
  ∀ x y v w, convert a b x = .ok v → convert a b y = .ok w → (x < y ↔ v < w)

/-- Larger values convert to smaller values. -/
def ReversesOrder (a b : UObj) : Prop :=
  ∀ x y v w, convert a b x = .ok v → convert a b y = .ok w → (x < y ↔ w < v)

/-- The same on every interval without gaps: all values between `x` and `y` can be converted. -/
def KeepsOrderLocally (a b : UObj) : Prop :=
  ∀ x y v w, (∀ z, x ≤ z → z ≤ y → Converts a b z) → convert a b x = .ok v → convert a b y = .ok w → x < y → v < w

/-- The same on every interval without gaps. -/
def ReversesOrderLocally (a b : UObj) : Prop :=
  ∀ x y v w, (∀ z, x ≤ z → z ≤ y → Converts a b z) → convert a b x = .ok v → convert a b y = .ok w → x < y → w < v

/-- No logarithm in an expression. -/
def LogFree : Node → Prop
  | .number _ _ | .ident _ | .unhandled _ => True
  | .mul l r | .div l r | .raise l r | .shift l r => LogFree l ∧ LogFree r
  | .log _ _ => False

end Verif.Spec
