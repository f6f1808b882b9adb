import Verif.Model.Graph
/-!
# How deep an expression is nested (independent of the parser)
-/

namespace Verif

/-- operations nested inside each other -/
def Node.depth : Node → Nat
  | .number _ _ | .ident _ | .unhandled _ => 0
  | .mul a b | .div a b | .raise a b | .shift a b => max a.depth b.depth + 1
  | .log _ a => a.depth + 1

/-- `m·m·…·m` (`n + 1` times), as a text -/
def factors : Nat → Str
  | 0 => c!"m"
  | n + 1 => factors n ++ c!"·m"

/-- `((m m) m) … m`, as an expression -/
def factorsNode : Nat → Node
  | 0 => .ident c!"m"
  | n + 1 => .mul (factorsNode n) (.ident c!"m")

end Verif
