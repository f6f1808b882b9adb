import Verif.Props.Shipped
import Verif.Spec.ShippedTexts
/-!
# Specification: the words the shipped database understands

`Db.Claimed n`: `n` is one of the spellings declared for a unit in `udunits2_combined.xml`.
`Db.unusable`: the 22 declared spellings whose definition can never be resolved (C48).
`prefixTable`: the spellings and values of the declared prefixes.
-/

namespace Verif.Spec

/-- A word the shipped database understands: a usable declared spelling, or — if it is not declared itself — a declared prefix
directly followed by a usable declared spelling. -/
def Understood (n : Str) : Prop :=
  (Db.Claimed n ∧ n ∉ Db.unusable) ∨
  (¬ Db.Claimed n ∧ ∃ p v k, (p, v) ∈ prefixTable ∧ n = p ++ k ∧ Db.Claimed k ∧ k ∉ Db.unusable)

/-- A word that stands for one of the 22 unusable spellings, directly or behind a prefix. -/
def Hopeless (n : Str) : Prop :=
  n ∈ Db.unusable ∨ (¬ Db.Claimed n ∧ ∃ p v k, (p, v) ∈ prefixTable ∧ n = p ++ k ∧ k ∈ Db.unusable)

/-- The exceptions that report a word without meaning: `UnresolvableUnitException` naming such a word, or the `SyntaxError` of a
definition in the database that does not parse. -/
def WordError (x : PyErr) : Prop := x = .syntaxError ∨ ∃ m, x = .unresolvable m ∧ ¬ Understood m

/-- The exceptions of the reading stages: parser, table of units, stack. -/
def ReadingError (x : PyErr) : Prop := x = .syntaxError ∨ (∃ m, x = .unresolvable m) ∨ x = .recursionError

end Verif.Spec
