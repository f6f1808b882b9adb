import Verif.Model.Unit
/-!
# Dimensional analysis on paper
-/

namespace Verif

/-- An expression built from numbers, identifiers, products, quotients and integer powers: no shift and
no logarithm anywhere. -/
def Plain : Node → Prop
  | .number _ _ | .ident _ => True
  | .unhandled _ => False
  | .mul l r | .div l r => Plain l ∧ Plain r
  | .raise l r => Plain l ∧ ∃ i raw, r = .number (.int i) raw
  | .shift _ _ | .log _ _ => False

/-- The degree of an expression in a basis unit, given the degree `P n` of each identifier `n`: degrees
add in products, subtract in quotients, are multiplied by integer exponents. -/
def degree (P : Str → Int) : Node → Int
  | .number _ _ => 0
  | .ident n => P n
  | .unhandled _ => 0
  | .mul l r => degree P l + degree P r
  | .div l r => degree P l - degree P r
  | .raise l (.number (.int i) _) => i * degree P l
  | .raise _ _ => 0
  | .shift u _ => degree P u
  | .log _ t => degree P t


end Verif
