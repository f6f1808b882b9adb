import Verif.Spec.Dims
import Verif.Spec.Lookup
import Verif.Model.Convert
/-!
# Writing a definition out in place of a name
-/

namespace Verif

/-- The expression with every mention of the identifier `x` replaced by `t`. -/
def Node.inline (x : Str) : Node → Node → Node
  | .ident n, t => if n = x then t else .ident n
  | .number v raw, _ => .number v raw
  | .unhandled raw, _ => .unhandled raw
  | .mul l r, t => .mul (l.inline x t) (r.inline x t)
  | .div l r, t => .div (l.inline x t) (r.inline x t)
  | .raise l r, t => .raise (l.inline x t) (r.inline x t)
  | .shift u f, t => .shift (u.inline x t) (f.inline x t)
  | .log fn u, t => .log fn (u.inline x t)

/-- What is left of an expression when its outermost shifts and logarithms are taken off. -/
def Node.core : Node → Node
  | .shift u _ => u.core
  | .log _ u => u.core
  | e => e

/-- The definition `t` may be written for `x` in `e`: inside products, quotients and powers only if `t` itself has no
shift and no logarithm; anywhere below shifts and logarithms alone, whatever `t` is. -/
def MayInline (x : Str) (t e : Node) : Prop :=
  e.core = .ident x ∨ (Plain e.core ∧ Plain t)

namespace Spec
/-- Nothing distinguishes the two units: they print the same expansion, are dimensionless alike, convert to and from the
same units, and convert every value to and from every unit alike. -/
structure Interchangeable (u v : UObj) : Prop where
  expanded : u.expanded = v.expanded
  dimensionless : u.isDimensionless = v.isDimensionless
  convertibleTo : ∀ w : UObj, u.isConvertibleTo w = v.isConvertibleTo w
  convertibleFrom : ∀ w : UObj, w.isConvertibleTo u = w.isConvertibleTo v
  convertTo : ∀ (w : UObj) (x : ℝ), convert u w x = convert v w x
  convertFrom : ∀ (w : UObj) (x : ℝ), convert w u x = convert w v x

/-- the spelling is registered, lazily, with this definition text -/
def DefinedAs (s : System) (n text : Str) : Prop :=
  ∃ id o, direct s n = some (.lazy id) ∧ s.heap[id]? = some o ∧ o.defn = text
end Spec

end Verif
