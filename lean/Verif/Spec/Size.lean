import Verif.Spec.Objects
/-!
# Specification: how much text is written, how much comes out
-/

namespace Verif.Spec.Objects
open Verif.Objects

/-- no identifier of the definition is the empty string (the parser makes none) -/
def NoEmptyIdentifier : Node → Prop
  | .ident n => n ≠ []
  | .number _ _ => True
  | .unhandled _ => True
  | .mul l r | .div l r | .raise l r => NoEmptyIdentifier l ∧ NoEmptyIdentifier r
  | .shift u f => NoEmptyIdentifier u ∧ NoEmptyIdentifier f
  | .log _ t => NoEmptyIdentifier t

/-- The texts that objects are made of have at most `M` characters: names of basis units, values of prefixes as they are
printed, definitions. -/
def Short (M : Nat) : Cell → Prop
  | .basis b => b.ref.length ≤ M
  | .pre p => ∀ e, p.expand = .ok e → e.str.length ≤ M
  | .unit _ defn _ => defn.str.length ≤ M ∧ NoEmptyIdentifier defn
  | .date _ _ => True

/-- what a call writes down: one, and the characters of names, keys and definitions -/
def writtenIn : Call → Nat
  | .newBasis names _ _ => 1 + ((names.name.map (·.singular.length)).getD 0 + (names.symbols.map List.length).sum)
  | .newPrefix p => 1 + (p.name.length + p.value.length)
  | .newMap entries => 1 + (entries.map fun e => e.1.length + 1).sum
  | .newUnit _ defn _ => 1 + defn.str.length
  | _ => 1

/-- what the caller has written in all -/
def written (evs : List Event) : Nat :=
  (evs.map fun
    | .call c => writtenIn c
    | _ => 1).sum

end Verif.Spec.Objects
