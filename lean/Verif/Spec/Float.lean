import Verif.Model.Float
import Verif.Spec.Convert
/-!
# Specification: how accurate a rounded computation is

`n` roundings of relative accuracy `u` can change a product by the factor `(1 - u)⁻ⁿ` at most.
-/

namespace Verif.Spec

/-- the relative error of `n` roundings: about `n u` -/
noncomputable def relError (u : ℝ) (n : Nat) : ℝ := ((1 - u) ^ n)⁻¹ - 1

/-- The roundings behind the number in front of a definition: one for a literal, one for a product, two for a quotient, and a
power repeats those of its base. -/
def roundings : Node → Nat
  | .number _ _ => 1
  | .mul l r => roundings l + roundings r + 1
  | .div l r => roundings l + roundings r + 2
  | .raise l (.number (.int n) _) => n.natAbs * roundings l + 1
  | .raise l (.number (.str s) _) =>
    match parseInt? s with
    | some n => n.natAbs * roundings l + 1
    | none => 0
  | _ => 0

/-- The roundings behind a value transformation and its application: each step is inverted, printed and run. -/
def transRoundings : Trans → Nat
  | .value => 0
  | .shift t _ => transRoundings t + 4
  | .mulR t d => transRoundings t + roundings d + 3
  | .mulL d t => transRoundings t + roundings d + 3
  | .log _ t => transRoundings t + 3

/-- the number of steps of a value transformation -/
def transSteps : Trans → Nat
  | .value => 0
  | .shift t _ | .mulR t _ | .mulL _ t | .log _ t => transSteps t + 1

/-- The roundings behind a unit, read off its definition in terms of basis units. -/
def unitRoundings (r : Ref) : Nat :=
  match r.expand with
  | .error _ => 0
  | .ok e =>
    match e.split true with
    | .ok (some t, d) => transRoundings t + roundings d
    | .ok (none, d) => roundings d
    | .error _ => 0

/-- the steps of its transformation -/
def unitSteps (r : Ref) : Nat :=
  match r.expand with
  | .error _ => 0
  | .ok e =>
    match e.split true with
    | .ok (some t, _) => transSteps t
    | _ => 0

/-- the roundings behind a conversion -/
def conversionRoundings (a b : Ref) : Nat :=
  unitRoundings a + unitRoundings b + (unitSteps a + unitSteps b + 1) ^ 2 + 4

/-- `AffineScale r q f`: the value `x` of the unit `r` is the quantity `(x + q) f`, in basis units.  A unit without offsets
has `q = 0` and its magnitude as `f`; `u @ k` has `q = k`. -/
inductive AffineScale : Ref → ℝ → ℝ → Prop
  | linear {r : Ref} : LinearUnit r → AffineScale r 0 (r.magnitude fun _ => 1)
  | ident {names : Option UnitReference} {n : Str} {refs : List (Str × Ref)} {r : Ref} {q f : ℝ} :
      Dict.get n refs = some r → AffineScale r q f → AffineScale (.unit names (.ident n) refs) q f
  | shift {names : Option UnitReference} {u : Node} {refs : List (Str × Ref)} {k : Num} {raw : Option Str} {q : Rat} :
      LinearUnit (.unit names u refs) → k.toRat = .ok q →
      AffineScale (.unit names (.shift u (.number k raw)) refs) q ((Ref.unit names u refs).magnitude fun _ => 1)

/-- `LogScale r b f`: the value `x` of the unit `r` is the quantity `bˣ f`, in basis units: `lg(re u)`, or a name for it. -/
inductive LogScale : Ref → Option Nat → ℝ → Prop
  | ident {names : Option UnitReference} {n : Str} {refs : List (Str × Ref)} {r : Ref} {b : Option Nat} {f : ℝ} :
      Dict.get n refs = some r → LogScale r b f → LogScale (.unit names (.ident n) refs) b f
  | log {names : Option UnitReference} {fn : Str} {b : Option Nat} {u : Node} {refs : List (Str × Ref)} :
      (fn, b) ∈ [(c!"lb", some 2), (c!"lg", some 10), (c!"ln", none), (c!"log", none)] →
      LinearUnit (.unit names u refs) →
      LogScale (.unit names (.log fn u) refs) b ((Ref.unit names u refs).magnitude fun _ => 1)

/-- how far `n` roundings can move the logarithm of a number: about `n u` -/
noncomputable def logError (u : ℝ) (n : Nat) : ℝ := n * -Real.log (1 - u)

/-- the natural logarithm of the base -/
noncomputable def lnOf : Option Nat → ℝ
  | none => 1
  | some b => Real.log b

/-- A conversion that only multiplies and adds, computed with absolute values throughout. -/
noncomputable def absValue : List COp → ℝ → ℝ
  | [], x => x
  | .scale m :: l, x => absValue l (|(m.coef : ℝ)| * x)
  | .add q :: l, x => absValue l (x + |(q : ℝ)|)
  | _ :: _, _ => 0

/-- the conversion only multiplies and adds -/
def OnlyAffine (l : List COp) : Prop := ∀ o ∈ l, (∃ m, o = .scale m) ∨ ∃ q, o = .add q

/-- a binary number with 53 significant bits -/
def Binary53 (y : ℝ) : Prop := ∃ m e : ℤ, |m| < 2 ^ 53 ∧ y = m * 2 ^ e

/-- rounding to a nearest 53-bit number, whatever is done about ties -/
def Nearest53 (x y : ℝ) : Prop := Binary53 y ∧ ∀ z, Binary53 z → |y - x| ≤ |z - x|

end Verif.Spec
