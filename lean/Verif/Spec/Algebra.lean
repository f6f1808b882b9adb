import Verif.Spec.Convert
/-!
# Unit expressions as arithmetic
-/

namespace Verif

/-- No shift and no logarithm anywhere below the unit: everything is a product of powers. -/
inductive Multiplicative : Ref → Prop
  | basis (b : Basis) : Multiplicative (.basis b)
  | pre (p : Prefix) : Multiplicative (.pre p)
  | unit (names : Option UnitReference) (defn : Node) (refs : List (Str × Ref)) : Plain defn →
      (∀ n r, Dict.get n refs = some r → Multiplicative r) → Multiplicative (.unit names defn refs)

namespace Spec
/-- The two expressions are equal by ordinary arithmetic: they have the same value whatever (non-zero) values the
identifiers have. -/
def SameArithmetic (e1 e2 : Node) : Prop :=
  ∀ σ : Str → ℝ, (∀ n, σ n ≠ 0) → evalNode σ e1 = evalNode σ e2

/-- Nothing but the way they are written distinguishes the two units: `==` says they are equal, both ways round; they are dimensionless
alike; they convert to and from the same units, and convert every value to and from every unit alike. -/
structure SameUnit (u v : Ref) : Prop where
  eq : Ref.eq u v = .ok true
  eq' : Ref.eq v u = .ok true
  dimensionless : (UObj.unit u).isDimensionless = (UObj.unit v).isDimensionless
  convertibleTo : ∀ w : UObj, (UObj.unit u).isConvertibleTo w = (UObj.unit v).isConvertibleTo w
  convertibleFrom : ∀ w : UObj, w.isConvertibleTo (.unit u) = w.isConvertibleTo (.unit v)
  convertTo : ∀ (w : UObj) (x y : ℝ), convert (.unit u) w x = .ok y ↔ convert (.unit v) w x = .ok y
  convertFrom : ∀ (w : UObj) (x y : ℝ), convert w (.unit u) x = .ok y ↔ convert w (.unit v) x = .ok y
  same : ∀ x : ℝ, convert (.unit u) (.unit v) x = .ok x
end Spec

end Verif
