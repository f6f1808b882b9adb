import Verif.Model.Convert
import Verif.Spec.Dims
import Mathlib.Analysis.SpecialFunctions.Pow.Real
/-!
# Units on paper: value transformations as real functions, units free of transformations
-/

namespace Verif

/-- No shift and no logarithm anywhere in the expression. -/
def NoTransform : Node → Prop
  | .number _ _ | .ident _ | .unhandled _ => True
  | .mul l r | .div l r | .raise l r => NoTransform l ∧ NoTransform r
  | .shift _ _ | .log _ _ => False

/-- the base of a logarithm -/
noncomputable def logBaseReal : Option Nat → ℝ
  | none => Real.exp 1
  | some b => b

/-- Undo one step of a value transformation: divide by a factor, add an offset, exponentiate. -/
noncomputable def TOp.undo : TOp → ℝ → ℝ
  | .scale m, x => x / m.coef
  | .sub q, x => x + q
  | .log b, x => logBaseReal b ^ x

/-- Undo a whole transformation (last step first): the value expressed on the linear scale. -/
noncomputable def undoAll : List TOp → ℝ → ℝ
  | [], x => x
  | op :: r, x => op.undo (undoAll r x)

/-- A transformation whose factors are pure numbers. -/
def SymFree (t : List TOp) : Prop := ∀ m, TOp.scale m ∈ t → m.exps = []

/-- Every definition below `r` is free of shifts and logarithms, and `s` is not the name of a
dimensionless basis unit. -/
inductive Linear (s : Str) : Ref → Prop
  | basis (b : Basis) : (b.ref = s → b.dimensionless = false) → Linear s (.basis b)
  | pre (p : Prefix) : Linear s (.pre p)
  | unit (names : Option UnitReference) (defn : Node) (refs : List (Str × Ref)) : Plain defn →
      (∀ n r, Dict.get n refs = some r → Linear s r) → Linear s (.unit names defn refs)

/-- A pure number: numbers and prefixes only. -/
def Scalar (refs : List (Str × Ref)) (e : Node) : Prop :=
  Plain e ∧ ∀ n ∈ e.identifiers, ∃ p, Dict.get n refs = some (.pre p)

/-- Units in which shifts and logarithms are only ever combined with pure numbers (no product of a
transformed unit with another unit), and that mention no dimensionless basis unit called `s`. -/
inductive Affine (s : Str) : Ref → Prop
  | linear {r : Ref} : Linear s r → Affine s r
  | ident {names : Option UnitReference} {n : Str} {refs : List (Str × Ref)} {r : Ref} :
      Dict.get n refs = some r → Affine s r → Affine s (.unit names (.ident n) refs)
  | shift {names : Option UnitReference} {u f : Node} {refs : List (Str × Ref)} :
      Affine s (.unit names u refs) → Affine s (.unit names (.shift u f) refs)
  | log {names : Option UnitReference} {fn : Str} {u : Node} {refs : List (Str × Ref)} :
      Affine s (.unit names u refs) → Affine s (.unit names (.log fn u) refs)
  | mulL {names : Option UnitReference} {e u : Node} {refs : List (Str × Ref)} :
      Scalar refs e → Affine s (.unit names u refs) → Affine s (.unit names (.mul e u) refs)
  | mulR {names : Option UnitReference} {e u : Node} {refs : List (Str × Ref)} :
      Scalar refs e → Affine s (.unit names u refs) → Affine s (.unit names (.mul u e) refs)

/-! ## The magnitude of a unit on paper -/

/-- the number written -/
noncomputable def numVal (v : Num) : ℝ :=
  match v.toRat with
  | .ok q => q
  | .error _ => 0

/-- Ordinary arithmetic on an expression, identifiers having the values `σ`. -/
noncomputable def evalNode (σ : Str → ℝ) : Node → ℝ
  | .number v _ => numVal v
  | .ident n => σ n
  | .mul l r => evalNode σ l * evalNode σ r
  | .div l r => evalNode σ l / evalNode σ r
  | .raise l (.number (.int i) _) => evalNode σ l ^ i
  | _ => 0

mutual
/-- The magnitude of a unit when each basis unit `b` has magnitude `ρ b`: a prefix is its number, a
derived unit is its definition evaluated at the magnitudes of what it mentions. -/
noncomputable def Ref.magnitude (ρ : Str → ℝ) : Ref → ℝ
  | .basis b => ρ b.ref
  | .pre p =>
    match Dec.parse p.value with
    | .ok d => d.toRat
    | .error _ => 0
  | .unit _ defn refs => evalNode (fun n => (Dict.get n (Ref.magnitudes ρ refs)).getD (ρ n)) defn
/-- magnitudes of all references -/
noncomputable def Ref.magnitudes (ρ : Str → ℝ) : List (Str × Ref) → List (Str × ℝ)
  | [] => []
  | (n, r) :: l => (n, r.magnitude ρ) :: Ref.magnitudes ρ l
end

/-- No shift, logarithm or dimensionless basis unit anywhere below the unit. -/
def LinearUnit (r : Ref) : Prop := ∀ s, Linear s r

/-- What a value means: `Means a f` says that `x` of the unit `a` is the quantity `f ρ x`, when each basis
unit `b` has magnitude `ρ b`.  A linear unit multiplies; `u @ k` has its zero at `k u`;
`lg(re u)` counts powers of the base relative to `u`. -/
inductive Means : Ref → ((Str → ℝ) → ℝ → ℝ) → Prop
  | linear {r : Ref} : LinearUnit r → Means r (fun ρ x => x * r.magnitude ρ)
  | ident {names : Option UnitReference} {n : Str} {refs : List (Str × Ref)} {r : Ref} {f} :
      Dict.get n refs = some r → Means r f → Means (.unit names (.ident n) refs) f
  | shift {names : Option UnitReference} {u : Node} {refs : List (Str × Ref)} {k : Num} {raw : Option Str} {q : Rat} :
      LinearUnit (.unit names u refs) → k.toRat = .ok q →
      Means (.unit names (.shift u (.number k raw)) refs)
        (fun ρ x => (x + q) * (Ref.unit names u refs).magnitude ρ)
  | log {names : Option UnitReference} {fn : Str} {b : Option Nat} {u : Node} {refs : List (Str × Ref)} :
      (fn, b) ∈ [(c!"lb", some 2), (c!"lg", some 10), (c!"ln", none), (c!"log", none)] →
      LinearUnit (.unit names u refs) →
      Means (.unit names (.log fn u) refs)
        (fun ρ x => logBaseReal b ^ x * (Ref.unit names u refs).magnitude ρ)

end Verif
