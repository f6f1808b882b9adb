import Verif.Model.Unit
/-!
# Equality of unit values up to the order of dict entries, and definitional dependencies
-/

namespace Verif.Spec

/-- Two unit values that differ at most in the order in which their (nested) reference dicts were
filled (as Python objects their fields are equal: `dict.__eq__` ignores order) and in the order of the `symbols` tuples of
the prefixes they refer to. -/
inductive Same : Ref → Ref → Prop
  | refl (a : Ref) : Same a a
  | pre {p q : Prefix} : p.name = q.name → p.value = q.value → p.symbols.Perm q.symbols → Same (.pre p) (.pre q)
  | unit {names : Option UnitReference} {defn : Node} {r1 r2 : List (Str × Ref)} :
      Dict.Nodup r1 → Dict.Nodup r2 →
      (∀ k, (Dict.get k r1).isSome = (Dict.get k r2).isSome) →
      (∀ k a b, Dict.get k r1 = some a → Dict.get k r2 = some b → Same a b) →
      Same (.unit names defn r1) (.unit names defn r2)

/-- The same for what `UnitSystem.unit` returns. -/
inductive SameObj : UObj → UObj → Prop
  | unit {a b : Ref} : Same a b → SameObj (.unit a) (.unit b)
  | date {a b : Ref} {ref : Option Str} : Same a b → SameObj (.date a ref) (.date b ref)

end Verif.Spec
