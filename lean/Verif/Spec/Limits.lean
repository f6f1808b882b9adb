import Verif.Spec.Numbers
import Verif.Model.Limits
/-!
# Specification: which numbers can be read

In terms of the spelling of a number only.
-/

namespace Verif.Spec

/-- the digits left when the zeros in front are dropped; one for zero -/
def significant (ds : Str) : Nat := max 1 (ds.dropWhile (· = '0')).length

/-- an integer `[sign] digits` with at most `limit` digits (any number if `limit` is 0) -/
def IntFits (limit : Nat) (c : Str) : Prop :=
  ∃ sg ds k, c = sg ++ ds ∧ Sign sg k ∧ ds ≠ [] ∧ Digits ds ∧ (limit = 0 ∨ ds.length ≤ limit)

/-- a decimal `[sign] digits [. digits] [e exponent]` whose last digit stands for `10 ^ lo` or more and whose first
significant digit stands for `10 ^ hi` or less -/
def DecFits (lo hi : Int) (c : Str) : Prop :=
  ∃ sg ip dot fp ex k e, c = sg ++ ip ++ dot ++ fp ++ ex ∧ Sign sg k ∧ Digits ip ∧ Digits fp ∧ ip ++ fp ≠ [] ∧
    (dot = ['.'] ∨ (dot = [] ∧ fp = [])) ∧ ExpPart ex e ∧
    lo ≤ e - fp.length ∧ e - fp.length + (significant (ip ++ fp) : Int) - 1 ≤ hi

/-- a number as it is written in a text: an integer or a decimal -/
inductive Numeral where
  | int (spelling : Str)
  | dec (spelling : Str)
  deriving DecidableEq, Repr

def Numeral.spelling : Numeral → Str
  | .int c | .dec c => c

/-- the interpreter can convert it -/
def Numeral.Fits (l : NumLimits) : Numeral → Prop
  | .int c => IntFits l.intDigits c
  | .dec c => DecFits l.decMin l.decMax c

/-- what the interpreter raises if it cannot -/
def Numeral.error : Numeral → PyErr
  | .int _ => .tooManyDigits
  | .dec _ => .invalidOperation

/-- the numbers written in an expression, from left to right (superscripts and timestamps apart) -/
def numerals : Node → List Numeral
  | .number (.int _) (some c) => [.int c]
  | .number (.dec _) (some c) => [.dec c]
  | .number _ _ | .ident _ | .unhandled _ => []
  | .mul a b | .div a b | .raise a b | .shift a b => numerals a ++ numerals b
  | .log _ t => numerals t

/-- a text of at most 4300 characters in which no `e` is followed by 18 digits in a row (after a sign, perhaps) -/
def ShortNumbers (s : Str) : Prop :=
  s.length ≤ 4300 ∧ ∀ a c sg k ds b, s = a ++ c :: (sg ++ ds) ++ b → (c = 'e' ∨ c = 'E') → Sign sg k → Digits ds →
    ds.length < 18

end Verif.Spec
