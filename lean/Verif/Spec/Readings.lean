import Verif.Lemmas.ShippedCheck
import Verif.Spec.ShippedTexts
/-!
# What the spellings and texts over the shipped database denote
-/

namespace Verif.Spec

/-- a spelling of a unit of the table, apart from the 22 that never resolve (C48) and the 8 of the torr (C53) -/
def Spells (n : Str) (u : ShippedUnit) : Prop := u ∈ shipped ∧ n ∈ u.spellings ∧ n ∉ Db.unusable ∧ n ∉ Db.mmHg

/-- `Reading n u`: the spelling `n` means `u`: it is a spelling of the table, or a prefix followed by a spelling of a unit that is a
multiple of basis units.  Not read that way: a registered spelling (`Pa` is not peta-are), a spelling that repeats its prefix
(`mm`, see C14), and `dau`, `dat` (deka + u, deka + t, not deci + au, deci + at). -/
inductive Reading : Str → ShippedUnit → Prop
  | plain {n : Str} {u : ShippedUnit} : Spells n u → Reading n u
  | prefixed {p n : Str} {v : Rat} {u : ShippedUnit} : (p, v) ∈ prefixTable → Spells n u → u.scale = .linear → p ≠ n →
      ¬ Db.Claimed (p ++ n) → (p, n) ≠ (c!"d", c!"au") → (p, n) ≠ (c!"d", c!"at") →
      Reading (p ++ n) ⟨[], .linear, v * u.factor, u.powers⟩

/-- the dimensionality that goes with powers of basis units: the radian does not count -/
def dimOf (P : Str → Int) (b : Str) : Int := if b = c!"radian" then 0 else P b

/-- What a parsed unit text denotes: how a value is read, the factor and the powers of the basis units.
* one spelling: what it means;
* products, quotients and powers of multiples of basis units: arithmetic;
* `u @ q`: values are offset (for a time unit it would be a date, see C24);
* `lb/lg/ln/log(re u)`: logarithms to base 2, 10, e, e. -/
inductive Denotes : Node → Scale → Rat → (Str → Int) → Prop
  | spelling {n : Str} {u : ShippedUnit} : Reading n u → Denotes (.ident n) u.scale u.factor u.power
  | product {e : Node} {unit : Str → ShippedUnit} : UnitProduct e →
      (∀ n ∈ e.identifiers, Reading n (unit n) ∧ (unit n).scale = .linear) →
      Denotes e .linear (evalQ (fun n => (unit n).factor) e) (fun b => degree (fun n => (unit n).power b) e)
  | shift {e : Node} {c : Rat} {P : Str → Int} {v : Num} {raw : Option Str} {q : Rat} : Denotes e .linear c P → v.toRat = .ok q →
      (¬ ∀ b, dimOf P b = if b = c!"second" then 1 else 0) →
      Denotes (.shift e (.number v raw)) (.offset q) c P
  | log {e : Node} {c : Rat} {P : Str → Int} {fn : Str} {σ : Scale} : Denotes e .linear c P →
      (fn, σ) ∈ [(c!"lb", Scale.log2), (c!"lg", .log10), (c!"ln", .ln), (c!"log", .ln)] → Denotes (.log fn e) σ c P

end Verif.Spec
