import Verif.Spec.Convert
/-!
# Expanding products on paper
-/

namespace Verif.Spec

/-- products, quotients and integer powers of identifiers, integers and decimals -/
def Product : Node → Prop
  | .number (.int _) _ | .number (.dec _) _ | .ident _ => True
  | .number (.str _) _ | .unhandled _ => False
  | .mul l r | .div l r => Product l ∧ Product r
  | .raise l r => Product l ∧ ∃ i raw, r = .number (.int i) raw
  | .shift _ _ | .log _ _ => False

/-- the number literals of an expression that are not exponents -/
def literals : Node → List (Num × Option Str)
  | .number v raw => [(v, raw)]
  | .mul l r | .div l r => literals l ++ literals r
  | .raise l _ => literals l
  | _ => []

/-- how often an identifier occurs -/
def occurrences (n : Str) : Node → Nat
  | .ident m => if m = n then 1 else 0
  | .mul l r | .div l r | .raise l r => occurrences n l + occurrences n r
  | .shift u f => occurrences n u + occurrences n f
  | .log _ t => occurrences n t
  | _ => 0

/-- the total exponent of one identifier -/
def exponentOf (n : Str) (e : Node) : Int := degree (fun m => if m = n then 1 else 0) e

/-- No zero among the numbers of the expression, and no identifier standing for zero. -/
def NonZero (σ : Str → ℝ) (e : Node) : Prop := (∀ q ∈ literals e, numVal q.1 ≠ 0) ∧ ∀ n, σ n ≠ 0

/-- All decimal literals of the expression are the same literal. -/
def OneDecimal (e : Node) : Prop :=
  ∀ d raw d' raw', (Num.dec d, raw) ∈ literals e → (Num.dec d', raw') ∈ literals e → d = d' ∧ raw = raw'

/-- is this literal a decimal? -/
def isDecimal : Num × Option Str → Bool
  | (.dec _, _) => true
  | _ => false

/-- how many decimal literals an expression has (exponents do not count) -/
def decimals (e : Node) : Nat := (literals e).countP isDecimal

/-- products, quotients and integer powers in which parts may be shifted (`unit @ offset`); the offsets are products -/
def ShiftedProduct : Node → Prop
  | .number (.int _) _ | .number (.dec _) _ | .ident _ => True
  | .number (.str _) _ | .unhandled _ => False
  | .mul l r | .div l r => ShiftedProduct l ∧ ShiftedProduct r
  | .raise l r => ShiftedProduct l ∧ ∃ i raw, r = .number (.int i) raw
  | .shift u f => ShiftedProduct u ∧ Product f
  | .log _ _ => False

/-- the expression without its offsets -/
def unshifted : Node → Node
  | .mul l r => .mul (unshifted l) (unshifted r)
  | .div l r => .div (unshifted l) (unshifted r)
  | .raise l r => .raise (unshifted l) r
  | .shift u _ => unshifted u
  | e => e

/-- the product of what is there -/
def both : Option Node → Option Node → Option Node
  | some a, some b => some (.mul a b)
  | some a, none => some a
  | none, b => b

/-- All offsets of an expression, multiplied.  Those of a divisor are not inverted. -/
def offsets : Node → Option Node
  | .mul l r | .div l r => both (offsets l) (offsets r)
  | .raise l r => (offsets l).map fun f => .raise f r
  | .shift u f => both (offsets u) (some f)
  | _ => none

end Verif.Spec
