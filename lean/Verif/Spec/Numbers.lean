import Verif.Model.Graph
/-!
# What number literals mean
-/

namespace Verif.Spec

/-- only ASCII digits -/
def Digits (s : Str) : Prop := ∀ c ∈ s, '0'.toNat ≤ c.toNat ∧ c.toNat ≤ '9'.toNat

/-- the number a string of digits denotes -/
def natValue (s : Str) : Nat := s.foldl (fun acc c => 10 * acc + (c.toNat - '0'.toNat)) 0

/-- an optional sign -/
inductive Sign : Str → Int → Prop
  | none : Sign [] 1
  | plus : Sign ['+'] 1
  | minus : Sign ['-'] (-1)

/-- `[sign] digits` and the integer it denotes -/
def IntLiteral (s : Str) (v : Int) : Prop :=
  ∃ sg ds k, s = sg ++ ds ∧ Sign sg k ∧ ds ≠ [] ∧ Digits ds ∧ v = k * natValue ds

/-- an exponent part, possibly absent -/
def ExpPart (s : Str) (e : Int) : Prop := (s = [] ∧ e = 0) ∨ ∃ c t, s = c :: t ∧ (c = 'e' ∨ c = 'E') ∧ IntLiteral t e

/-- `[sign] digits [. digits] [e [sign] digits]` (with at least one digit before the exponent) and the rational it
denotes -/
def DecLiteral (s : Str) (v : Rat) : Prop :=
  ∃ sg ip dot fp ex k e, s = sg ++ ip ++ dot ++ fp ++ ex ∧ Sign sg k ∧ Digits ip ∧ Digits fp ∧ ip ++ fp ≠ [] ∧
    (dot = ['.'] ∨ (dot = [] ∧ fp = [])) ∧ ExpPart ex e ∧
    v = k * ((natValue ip + natValue fp / 10 ^ fp.length : Rat)) * (10 : Rat) ^ e

end Verif.Spec
