import Verif.Spec.Inline
/-!
# Another choice of basis units

A basis unit stops being one: wherever a definition, directly or indirectly, referred to it, it now refers to a unit that is
defined by others.
-/

namespace Verif

mutual
/-- the unit, with everything that referred to the basis unit `b` referring to `r` -/
def Ref.rebase (b : Str) : Ref → Ref → Ref
  | .basis b', r => if b'.ref = b then r else .basis b'
  | .pre p, _ => .pre p
  | .unit names defn refs, r => .unit names defn (Ref.rebaseAll b refs r)
/-- the mapping of identifiers to units -/
def Ref.rebaseAll (b : Str) : List (Str × Ref) → Ref → List (Str × Ref)
  | [], _ => []
  | (n, a) :: rest, r => (n, a.rebase b r) :: Ref.rebaseAll b rest r
end

mutual
/-- Every identifier of every definition refers to something. -/
def Ref.Closed : Ref → Prop
  | .basis _ => True
  | .pre _ => True
  | .unit _ defn refs => (∀ n ∈ defn.identifiers, n ∈ Dict.keys refs) ∧ Ref.ClosedAll refs
/-- all units of a mapping -/
def Ref.ClosedAll : List (Str × Ref) → Prop
  | [] => True
  | (_, a) :: rest => a.Closed ∧ Ref.ClosedAll rest
end

mutual
/-- The basis unit `b` counts as a dimension wherever it occurs (it is not declared dimensionless). -/
def Ref.Dimensional (b : Str) : Ref → Prop
  | .basis b' => b'.ref = b → b'.dimensionless = false
  | .pre _ => True
  | .unit _ _ refs => Ref.DimensionalAll b refs
/-- all units of a mapping -/
def Ref.DimensionalAll (b : Str) : List (Str × Ref) → Prop
  | [] => True
  | (_, a) :: rest => a.Dimensional b ∧ Ref.DimensionalAll b rest
end

/-- What a basis unit may be redefined as: a unit with a dimensionality whose expanded definition is built from numbers and basis
units with products, quotients and integer powers only, and is not zero. -/
structure MayDefine (r : Ref) : Prop where
  dims : ∃ d, r.dims = .ok d
  plain : ∃ e m, r.expand = .ok e ∧ Plain e ∧ e.toMono = .ok m ∧ m.coef ≠ 0

end Verif
