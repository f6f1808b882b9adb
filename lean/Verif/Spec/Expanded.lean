import Verif.Spec.Print
/-!
# Expressions whose text reads back with the same meaning
-/

namespace Verif.Spec

/-- a name (a word the lexer reads as one identifier) or a number -/
def FlatAtom : Node → Prop
  | .ident w => IdentWord w
  | .number (.int _) _ | .number (.dec _) _ => True
  | _ => False

/-- a name or number, possibly to an integer power -/
def FlatFactor : Node → Prop
  | .raise a (.number (.int _) _) => FlatAtom a
  | e => FlatAtom e

/-- products and quotients, nested in any way, in which no denominator is itself a product or quotient and only names and numbers
are raised to powers: written without brackets, such an expression keeps its value -/
def Flat : Node → Prop
  | .mul a b => Flat a ∧ Flat b
  | .div a b => Flat a ∧ FlatFactor b
  | e => FlatFactor e

end Verif.Spec
