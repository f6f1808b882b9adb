import Mathlib.Data.List.Forall2
import Verif.Spec.Numbers
/-!
# How Python writes a dict of names and integers
-/

namespace Verif.Spec

/-- `'name': order` -/
def ShowsEntry (t n : Str) (v : Int) : Prop := ∃ lit, IntLiteral lit v ∧ t = c!"'" ++ n ++ c!"': " ++ lit

/-- `{'metre': 1, 'second': -2}` -/
def ShowsDict (t : Str) (l : List (Str × Int)) : Prop :=
  ∃ items : List Str, List.Forall₂ (fun i q => ShowsEntry i q.1 q.2) items l ∧ t = c!"{" ++ List.intercalate c!", " items ++ c!"}"

/-- what `repr` writes between two quotes as it is: printable ASCII other than the single quote and the backslash -/
def PlainName (n : Str) : Prop := ∀ c ∈ n, 32 ≤ c.toNat ∧ c.toNat < 127 ∧ c ≠ '\'' ∧ c ≠ '\\'

end Verif.Spec
