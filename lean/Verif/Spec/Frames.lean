import Verif.Spec.Depth
import Verif.Spec.Build
/-!
# Specification: how many nested calls something needs, and how nested a unit is
-/

namespace Verif

/-- There is a number of nested calls, at most `bound`: with as many `f` gives `x`, with fewer it raises `RecursionError`. -/
def Needs {α : Type} (f : Nat → Py α) (x : Py α) (bound : Nat) : Prop :=
  ∃ need ≤ bound, ∀ k, f k = if need ≤ k then x else .error .recursionError

mutual
/-- the longest way from a unit through definitions to basis units: `m` 0; `km` 1 -/
def Ref.chain : Ref → Nat
  | .basis _ | .pre _ => 0
  | .unit _ _ refs => Ref.chainAll refs + 1
def Ref.chainAll : List (Str × Ref) → Nat
  | [] => 0
  | (_, r) :: rest => max r.chain (Ref.chainAll rest)
end

mutual
/-- the depth of the deepest definition a unit rests on -/
def Ref.deepest : Ref → Nat
  | .basis _ | .pre _ => 0
  | .unit _ defn refs => max defn.depth (Ref.deepestAll refs)
def Ref.deepestAll : List (Str × Ref) → Nat
  | [] => 0
  | (_, r) :: rest => max r.deepest (Ref.deepestAll rest)
end

mutual
/-- the depth of a unit when every definition it rests on is written out -/
def Ref.unfolded : Ref → Nat
  | .basis _ | .pre _ => 0
  | .unit _ defn refs => defn.depth + Ref.unfoldedAll refs
def Ref.unfoldedAll : List (Str × Ref) → Nat
  | [] => 0
  | (_, r) :: rest => max r.unfolded (Ref.unfoldedAll rest)
end

/-- the unit of a unit or a date -/
def UObj.ref : UObj → Ref
  | .unit r => r
  | .date r _ => r

/-! ## a session: `xx` is two `x`, `xxx` is two `xx`, … -/

/-- `x`, `xx`, `xxx`, … -/
def deepName (n : Nat) : Str := List.replicate (n + 1) 'x'

/-- a unit with this one name -/
def onlyName (n : Str) : UnitReference := ⟨some ⟨n, none⟩, [], [], []⟩

/-- `2·x`, `2·xx`, … -/
def deepText (n : Nat) : Str := c!"2·" ++ deepName n

/-- The basis unit `x` is added; then, over and over, a unit is defined as twice the last one, added, and used right away with
`unit(…)`, which looks up no deeper than two levels. -/
def deepSession : Nat → List Spec.Step
  | 0 => [.addUnit (.basis ⟨deepName 0, false, false, onlyName (deepName 0)⟩)]
  | n + 1 => deepSession n ++ [.define (deepText n) (onlyName (deepName (n + 1))), .query (.unit 2 (deepName (n + 1)))]

/-- the unit registered under `deepName n` -/
def deepUnit : Nat → Ref
  | 0 => .basis ⟨deepName 0, false, false, onlyName (deepName 0)⟩
  | n + 1 => .unit (some (onlyName (deepName (n + 1)))) (.mul (.number (.int 2) (some c!"2")) (.ident (deepName n)))
      [(deepName n, deepUnit n)]

end Verif
