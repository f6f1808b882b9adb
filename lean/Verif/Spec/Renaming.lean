import Verif.Model.Convert
/-!
# Calling units by other names

A renaming `φ` is applied to every identifier, in definitions and in what they refer to.
-/

namespace Verif

/-- Nothing becomes confused: different names stay different. -/
def KeepsApart (φ : Str → Str) : Prop := ∀ a b, φ a = φ b → a = b

/-- every identifier of an expression renamed -/
def Node.rename (φ : Str → Str) : Node → Node
  | .ident n => .ident (φ n)
  | .number v raw => .number v raw
  | .unhandled raw => .unhandled raw
  | .mul l r => .mul (l.rename φ) (r.rename φ)
  | .div l r => .div (l.rename φ) (r.rename φ)
  | .raise l r => .raise (l.rename φ) (r.rename φ)
  | .shift u f => .shift (u.rename φ) (f.rename φ)
  | .log fn u => .log fn (u.rename φ)

/-- a name and its plural -/
def Name.rename (φ : Str → Str) (n : Name) : Name := ⟨φ n.singular, n.plural.map φ⟩

/-- all names and symbols of a unit -/
def UnitReference.rename (φ : Str → Str) (n : UnitReference) : UnitReference :=
  ⟨n.name.map (Name.rename φ), n.symbols.map φ, n.aliasNames.map (Name.rename φ), n.aliasSymbols.map φ⟩

/-- a basis unit under another name -/
def Basis.rename (φ : Str → Str) (b : Basis) : Basis := ⟨φ b.ref, b.dimensionless, b.isTime, b.names.rename φ⟩

mutual
/-- a unit with everything in its definition, and in the definitions that it refers to, renamed -/
def Ref.rename (φ : Str → Str) : Ref → Ref
  | .basis b => .basis (b.rename φ)
  | .pre p => .pre p
  | .unit n defn refs => .unit (n.map (UnitReference.rename φ)) (defn.rename φ) (Ref.renameAll φ refs)
/-- the mapping of identifiers to units -/
def Ref.renameAll (φ : Str → Str) : List (Str × Ref) → List (Str × Ref)
  | [] => []
  | (n, r) :: rest => (φ n, r.rename φ) :: Ref.renameAll φ rest
end

/-- the same for what a unit system returns -/
def UObj.rename (φ : Str → Str) : UObj → UObj
  | .unit r => .unit (r.rename φ)
  | .date u reference => .date (u.rename φ) reference

/-- a dimensionality, by the new names of its basis units -/
def Dims.rename (φ : Str → Str) (d : Dims) : Dims := d.map fun q => (q.1.rename φ, q.2)

end Verif
