import Verif.Spec.ShippedUnits
import Verif.Spec.Dims
import Verif.Model.Sympy
/-!
# What unit texts over the shipped database denote, on paper

Prefixes, the readings of a spelling, and the arithmetic of product expressions — from the tables alone, without lookups.
-/

namespace Verif.Spec

/-- the SI prefixes: names, then symbols -/
def prefixTable : List (Str × Rat) := [
  (c!"yotta", 10^24), (c!"zetta", 10^21), (c!"exa", 10^18), (c!"peta", 10^15), (c!"tera", 10^12), (c!"giga", 10^9), (c!"mega", 10^6),
  (c!"kilo", 1000), (c!"hecto", 100), (c!"deka", 10), (c!"deci", 1/10), (c!"centi", 1/100), (c!"milli", 1/1000), (c!"micro", 1/10^6),
  (c!"nano", 1/10^9), (c!"pico", 1/10^12), (c!"femto", 1/10^15), (c!"atto", 1/10^18), (c!"zepto", 1/10^21), (c!"yocto", 1/10^24),
  (c!"Y", 10^24), (c!"Z", 10^21), (c!"E", 10^18), (c!"P", 10^15), (c!"T", 10^12), (c!"G", 10^9), (c!"M", 10^6),
  (c!"k", 1000), (c!"h", 100), (c!"da", 10), (c!"d", 1/10), (c!"c", 1/100), (c!"m", 1/1000), (c!"\u00b5", 1/10^6), (c!"\u03bc", 1/10^6),
  (c!"u", 1/10^6), (c!"n", 1/10^9), (c!"p", 1/10^12), (c!"f", 1/10^15), (c!"a", 1/10^18), (c!"z", 1/10^21), (c!"y", 1/10^24)]


/-- arithmetic on an expression, identifiers having the values `σ` -/
def evalQ (σ : Str → Rat) : Node → Rat
  | .number v _ => match v.toRat with
    | .ok q => q
    | .error _ => 0
  | .ident n => σ n
  | .mul l r => evalQ σ l * evalQ σ r
  | .div l r => evalQ σ l / evalQ σ r
  | .raise l (.number (.int i) _) => evalQ σ l ^ i
  | _ => 0

/-- products, quotients and integer powers of names and non-zero numbers -/
def UnitProduct : Node → Prop
  | .number v _ => ∃ q, v.toRat = .ok q ∧ q ≠ 0
  | .ident _ => True
  | .mul l r | .div l r => UnitProduct l ∧ UnitProduct r
  | .raise l r => UnitProduct l ∧ ∃ i raw, r = .number (.int i) raw
  | _ => False

end Verif.Spec
