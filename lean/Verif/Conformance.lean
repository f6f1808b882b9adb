import Verif.Model.Sympy
import Verif.Model.Parser
import Verif.Model.Expander
import Verif.Props.Demo
/-!
# The repository's unit tests, run on the model

Generated by `tools/mkconformance.py` from the parametrised cases in `/repo/pyudunits2/tests`.  These are tests: they show that
the model agrees with the outcomes the project expects of the code on those inputs.  They prove no property and no theorem
depends on them.
-/

namespace Verif.Conformance

/-- `normalize` succeeds -/
def parses (s : Str) : Bool := (normalizeText s).toOption.isSome
/-- `normalize` raises a SyntaxError -/
def rejects (s : Str) : Bool := normalizeText s = .error .syntaxError

/-! ## `test_normed_units_equivalent`: these parse -/

example : [c!"",
    c!"1",
    c!"12",
    c!"1.2",
    c!"+1",
    c!"+1.2",
    c!"-1",
    c!"-1.2",
    c!"-1.2e0",
    c!"2e6",
    c!"2e-6",
    c!"2.e-6"].all parses = true := by decide +kernel

example : [c!".1e2",
    c!".1e2.2",
    c!"2e",
    c!"m",
    c!"meter",
    c!"1 2 3",
    c!"1 -2 -3",
    c!"1m",
    c!"1*m",
    c!"2e3m",
    c!".2m",
    c!"m·m"].all parses = true := by decide +kernel

example : [c!"1 m",
    c!"1   m",
    c!"m -1",
    c!"m -1.2",
    c!"m 1",
    c!"m 1000",
    c!"m 1.2",
    c!"m-+2",
    c!"m--4",
    c!"m*1*2",
    c!"m--2--3",
    c!"m(2.3)"].all parses = true := by decide +kernel

example : [c!"m(2.3m)",
    c!"(1.2)(2.4)",
    c!"(5m(6s-1))",
    c!"2*3*4/5m/6*7*8",
    c!"m/2",
    c!"m1",
    c!"m m",
    c!"m2",
    c!"m+2",
    c!"m¹",
    c!"m²",
    c!"m³"].all parses = true := by decide +kernel

example : [c!"2⁴",
    c!"2⁵",
    c!"2⁴²",
    c!"3⁻²",
    c!"m2 s2",
    c!"m^2*s^2",
    c!"1-2",
    c!"1-2-3",
    c!"m-1",
    c!"m^2",
    c!"m^+2",
    c!"m^-1"].all parses = true := by decide +kernel

example : [c!"m.2",
    c!"m.+2",
    c!"m.2.4",
    c!"m0.2",
    c!"m2.5",
    c!"m2.3.4",
    c!"m--1",
    c!"m per 2",
    c!"m per s",
    c!"m / 2",
    c!"m@10",
    c!"m @10"].all parses = true := by decide +kernel

example : [c!"m @ 10",
    c!"m@ 10",
    c!"m from2",
    c!"m from2e-1",
    c!"(m @ 10) (s @ 10)",
    c!"s from 1990",
    c!"minutes since 1990",
    c!"hour@1990",
    c!"hours from 1990-1",
    c!"hours from 1990-1-1",
    c!"hours from 1990-1-1 0",
    c!"hours from 1990-1-1 0:1:1"].all parses = true := by decide +kernel

example : [c!"hours from 1990-1-1 0:0:1 +2",
    c!"seconds since 1970-01-01T00:00:00Z",
    c!"seconds since 1970-01Z",
    c!"seconds since 1970-01-10TZ",
    c!"seconds since 1970-01-10 Z",
    c!"seconds since 1970-01-10T00:00UTC",
    c!"seconds since 1970-01-10 00:00 GMT",
    c!"s since 2020-0101",
    c!"seconds since 20200101",
    c!"s since 1990-01-02 Z",
    c!"s since 1990-1-2+5:2:2",
    c!"s since 1990-1-2+5:2"].all parses = true := by decide +kernel

example : [c!"s since 1990-1-2 5 6:0",
    c!"s since 19900102T5",
    c!"s since 19900101T190030 +2",
    c!"s since 19900101T190030 GMT",
    c!"s since 199022T1",
    c!"s since 1990 +2:0:2.9",
    c!"s since 1990-2T1",
    c!"s since -1990 +2:0:2.9",
    c!"hours since 2001-12-31 23:59:59.999UTC",
    c!"hours since 2001-12-31 23:59:59.999 Z",
    c!"hours since 2001-12-31 23:59:59.999 GMT",
    c!"days since 1970-01-01T00:00:00 UTC"].all parses = true := by decide +kernel

example : [c!"hours since 2001-12-31TZ",
    c!"hours from 1990-1-1 -19:4:2",
    c!"hours from 1990-1-1 3+1",
    c!"seconds from 1990-1-1 0:0:0 +2550",
    c!"s since 1990-1-2+5:2:2",
    c!"hours from 1990-1-1 0:1:60",
    c!"hours from 1990-1-1 0:1:62",
    c!"(hours since 1900) (s since 1980)",
    c!"s since +1990 +2:0:2.9",
    c!"s since -1990 +2:0:2.9",
    c!"π",
    c!"e"].all parses = true := by decide +kernel

example : [c!"°C",
    c!"lg(re W)",
    c!"0.1 lg(re 1 mW)",
    c!"0.1 ln(re km^2)",
    c!"0.1 ln(re (K @ 10))",
    c!"lg(RE km)",
    c!"lb(re km)",
    c!"lb(re lb)",
    c!"log(re km)",
    c!"lg(re log(re m))",
    c!"log(re 1)^0",
    c!"log(re 1)-0"].all parses = true := by decide +kernel

example : [c!"log(re 1)0"].all parses = true := by decide +kernel

/-! ## `test_invalid_units` -/

example : [c!"1 * m",
    c!"m--m",
    c!"-m",
    c!"m^n",
    c!".1e2.",
    c!"m+-1",
    c!"--1",
    c!"+-1",
    c!"--3.1",
    c!"$",
    c!"£",
    c!"hours from 1990-0-0 0:0:0"].all rejects = true := by decide +kernel

example : [c!"hours since 1900-1 10:12 10:0 1",
    c!"s since 1990:01:02T1900 +1",
    c!"s since 1990:01:02T1900 TZ",
    c!"s since 1990-01-02T1900 TZ",
    c!"s since 1990:01:02 GMT",
    c!"1990-1-1 12:00:00"].all rejects = true := by decide +kernel

/-! ## `test_invalid_syntax_units` -/

example : [c!"hours from 1990-1-1 -20:4:18 +2",
    c!"m++2",
    c!"m s^(-1)",
    c!"m per /s",
    c!"s @ UTC"].all rejects = true := by decide +kernel

/-! ## `test_known_issues`, `test_unknown_symbol_error`, `test_syntax_parse_error_quality` -/

example : [c!"days since 2000)",
    c!"Thing×Another",
    c!"m^m 2s"].all rejects = true := by decide +kernel

/-! ## `test_invalid_in_udunits_but_still_parses` -/

example : [(c!"foo", c!"foo"),
    (c!"mfrom1", c!"mfrom^1"),
    (c!"m⁴", c!"m^4"),
    (c!"2¹²³⁴⁵⁶⁷⁸⁹⁰", c!"2^1234567890"),
    (c!"m⁻²", c!"m^-2"),
    (c!"0.1 ln(re K @ 10)", c!"0.1·(ln(re (K @ 10)))"),
    (c!"LOG(re W)", c!"LOG·re·W"),
    (c!"log(re 1)^2", c!"(log(re 1))^2"),
    (c!"log(re 1)2", c!"(log(re 1))^2"),
    (c!"log(re 1)-1", c!"(log(re 1))^-1"),
    (c!"log(re re)", c!"(log(re re))"),
    (c!"À", c!"À")].all (fun x => normalizeText x.1 = .ok x.2) = true := by decide +kernel

example : [(c!"Á", c!"Á"),
    (c!"Ö", c!"Ö"),
    (c!"Ø", c!"Ø"),
    (c!"ö", c!"ö"),
    (c!"ø", c!"ø"),
    (c!"ÿ", c!"ÿ"),
    (c!"µ", c!"µ"),
    (c!"µ°F·Ω⁻¹", c!"µ°F·Ω^-1"),
    (c!"s since 1990-01-02 GMT", c!"(s @ 1990-01-02 GMT)"),
    (c!"UTC", c!"UTC")].all (fun x => normalizeText x.1 = .ok x.2) = true := by decide +kernel

/-! ## `test__split_expression` -/

/-- the two printed results of `SplitExpr`; `None` for no transformation -/
def splitStr (s : Str) : Py (Str × Str) := do
  let (t, d) ← (← parse s).split true
  .ok ((t.elim c!"None" fun t => t.toNode.str), d.str)

/-! ## `test__split_expression`, cases -/

example : [(c!"2", c!"None", c!"2"),
    (c!"5·m", c!"None", c!"5·m"),
    (c!".1", c!"None", c!"0.1"),
    (c!"1e-2", c!"None", c!"0.01"),
    (c!"s", c!"None", c!"s"),
    (c!"s @ 2", c!"(value @ 2)", c!"s"),
    (c!"(s @ 2)*1", c!"value·1", c!"s"),
    (c!"5 (s @ 2)^2", c!"5·value", c!"s^2"),
    (c!"m/s", c!"None", c!"m/s"),
    (c!"lg(re years)", c!"(lg(re value))", c!"years"),
    (c!"lg(re years/2)", c!"(lg(re value))", c!"years/2"),
    (c!"2 lg(re years)", c!"2·(lg(re value))", c!"years")].all (fun x => splitStr x.1 = .ok x.2) = true := by decide +kernel

example : [(c!"5lg(re m2)", c!"5·(lg(re value))", c!"m^2"),
    (c!"5ln(re m2)", c!"5·(ln(re value))", c!"m^2"),
    (c!"ln(re m2)·5", c!"(ln(re value))·5", c!"m^2"),
    (c!"a lb(re m @ 4)", c!"a·(lb(re value))", c!"m"),
    (c!"(lb(re m)) @ 2", c!"((lb(re value)) @ 2)", c!"m"),
    (c!"a lb(re m @ 3) @ 4", c!"(a·(lb(re value)) @ 4)", c!"m"),
    (c!"a lb(re lg(re m2/s))", c!"a·(lb(re (lg(re value))))", c!"m^2/s")].all (fun x => splitStr x.1 = .ok x.2) = true := by decide +kernel

/-! ## `test_Expander` -/

def expandStr (s : Str) : Py Str := do .ok (← expand (← parse s)).str
def expandOffset (s : Str) : Py Str := do .ok (← expand (.shift (.ident c!"m") (← parse s))).str

/-! ## `test_Expander`, plain -/

example : [(c!"2^2", c!"2^2"),
    (c!"2^2·3^2", c!"2^2·3^2"),
    (c!"2^2·2^-1", c!"2"),
    (c!"s^0", c!"1"),
    (c!"s^1", c!"s"),
    (c!"s s", c!"s^2"),
    (c!"s s s", c!"s^3"),
    (c!"s^2 s", c!"s^3"),
    (c!"s^2 s^5", c!"s^7"),
    (c!"s m s", c!"m·s^2"),
    (c!"10s 20s", c!"200·s^2"),
    (c!"s^-1 s", c!"1")].all (fun x => expandStr x.1 = .ok x.2) = true := by decide +kernel

example : [(c!"s^-2 s^1", c!"s^-1"),
    (c!"s^-1 s^-1", c!"s^-2"),
    (c!"s^2 3s^-3", c!"3·s^-1"),
    (c!"s^2/3s^-3", c!"3^-1·s^-1"),
    (c!"(s^2)^3", c!"s^6"),
    (c!"(m s^2)^3", c!"m^3·s^6"),
    (c!"(m^-1 s^2)^3", c!"m^-3·s^6"),
    (c!"(m^-1 s^2)^3 m^3", c!"s^6"),
    (c!"(s @ 100)^2", c!"(s^2 @ 100^2)"),
    (c!"((s @ 2) @ 100)^2", c!"(s^2 @ 100^2·2^2)"),
    (c!"7·24·60·60·s/(14·24·60·60·s)", c!"14^-1·7")].all (fun x => expandStr x.1 = .ok x.2) = true := by decide +kernel

/-! ## `test_Expander`, as offset -/

example : [(c!"2^2", c!"(m @ 2^2)"),
    (c!"2^2·3^2", c!"(m @ 2^2·3^2)"),
    (c!"2^2·2^-1", c!"(m @ 2)"),
    (c!"s^0", c!"(m @ 1)"),
    (c!"s^1", c!"(m @ s)"),
    (c!"s s", c!"(m @ s^2)"),
    (c!"s s s", c!"(m @ s^3)"),
    (c!"s^2 s", c!"(m @ s^3)"),
    (c!"s^2 s^5", c!"(m @ s^7)"),
    (c!"s m s", c!"(m @ m·s^2)"),
    (c!"10s 20s", c!"(m @ 200·s^2)"),
    (c!"s^-1 s", c!"(m @ 1)")].all (fun x => expandOffset x.1 = .ok x.2) = true := by decide +kernel

example : [(c!"s^-2 s^1", c!"(m @ s^-1)"),
    (c!"s^-1 s^-1", c!"(m @ s^-2)"),
    (c!"s^2 3s^-3", c!"(m @ 3·s^-1)"),
    (c!"s^2/3s^-3", c!"(m @ 3^-1·s^-1)"),
    (c!"(s^2)^3", c!"(m @ s^6)"),
    (c!"(m s^2)^3", c!"(m @ m^3·s^6)"),
    (c!"(m^-1 s^2)^3", c!"(m @ m^-3·s^6)"),
    (c!"(m^-1 s^2)^3 m^3", c!"(m @ s^6)"),
    (c!"7·24·60·60·s/(14·24·60·60·s)", c!"(m @ 14^-1·7)")].all (fun x => expandOffset x.1 = .ok x.2) = true := by decide +kernel

/-! ## `conftest.simple_unit_system` -/

open Demo in
def simple : System :=
  ((((System.empty.addPrefix ⟨c!"milli", c!".001", [c!"m"]⟩).addPrefix ⟨c!"deci", c!"10", [c!"d"]⟩).addPrefix
      ⟨c!"kilo", c!"1000", [c!"k"]⟩).addPrefix ⟨c!"centi", c!"100", [c!"c"]⟩)
    |> basis ⟨some ⟨c!"meter", some c!"meters"⟩, [c!"m"], [⟨c!"metre", some c!"metres"⟩], []⟩ false
    |> basis ⟨some ⟨c!"second", some c!"seconds"⟩, [c!"s"], [], []⟩ true
    |> addLazy c!"60 seconds" ⟨some ⟨c!"minute", some c!"minutes"⟩, [c!"min"], [], []⟩
    |> addLazy c!"60 minutes" ⟨some ⟨c!"hour", some c!"hours"⟩, [c!"h"], [], []⟩
    |> basis ⟨some ⟨c!"watt", none⟩, [c!"W"], [], []⟩ false
    |> addLazy c!"lg(re 1 mW)" ⟨none, [c!"Bm"], [], []⟩
    |> basis ⟨some ⟨c!"year", none⟩, [], [], []⟩ false
    |> addLazy c!"10 year" ⟨some ⟨c!"decade", some c!"decades"⟩, [], [], []⟩
    |> addLazy c!"10 decade" ⟨some ⟨c!"century", some c!"centuries"⟩, [], [], []⟩
    |> basis ⟨some ⟨c!"kelvin", none⟩, [c!"K"], [], []⟩ false
    |> addLazy c!"K @ 273.15" ⟨some ⟨c!"degC", none⟩, [], [], []⟩
where basis (names : UnitReference) (time : Bool) (s : System) : System :=
  match mkBasis names false time with
  | .ok b => addBasis b s
  | .error _ => s

/-- `simple_unit_system.unit(s)` -/
def unit (s : Str) : Py UObj := (System.unit Demo.env 20 s simple).1

def expanded (s : Str) : Py Str := do (← unit s).expanded

/-! ## `test__unit__expansion` -/

example : [(c!"m", c!"meter"),
    (c!"Bm", c!"(lg(re 1·0.001·watt))"),
    (c!"1e-3 Bm", c!"0.001·(lg(re 1·0.001·watt))"),
    (c!"mBm", c!"0.001·(lg(re 1·0.001·watt))"),
    (c!"km", c!"1000·meter"),
    (c!"m 1000", c!"meter·1000"),
    (c!"kmetres", c!"1000·meter"),
    (c!"kilom", c!"1000·meter")].all (fun x => expanded x.1 = .ok x.2) = true := by decide +kernel

/-! ## `test__unit__undefined_unit` -/

example : [c!"other",
    c!"deci"].all (fun x => unit x = .error (.unresolvable x)) = true := by decide +kernel

def equalUnits (a b : Str) : Py Bool := do
  match ← unit a, ← unit b with
  | .unit x, .unit y => x.eq y
  | _, _ => .ok false

/-! ## `test__unit__symbolic_eq` -/

example : [(c!"km", c!"1000 m")].all (fun x => equalUnits x.1 x.2 = .ok true) = true := by decide +kernel

def isDate (s : Str) : Bool := match unit s with
  | .ok (.date _ _) => true
  | _ => false
def fails (s : Str) : Bool := (unit s).toOption.isNone

/-! ## `test__unit__date_unit`: dates -/

example : [c!"s @ 2000",
    c!"hours since 2000-01-01T00:00",
    c!"kilohours since 2000-01-01T00:00",
    c!"(m/m) s @ 2000-01-01T00:00",
    c!"(1000) s @ 2000-01-01T00:00"].all isDate = true := by decide +kernel

/-! ## `test__unit__date_unit`: errors -/

example : [c!"m (s @ 2000)",
    c!"m @ 2000-01-01T00:00",
    c!"(m/hr) s @ 2000-01-01T00:00"].all fails = true := by decide +kernel

/-- the dimensionality as names and powers, and `is_dimensionless` -/
def dims (s : Str) : Py (List (Str × Int) × Bool) := do
  let u ← unit s
  .ok (((← u.dimObj).items.map fun x => (x.1.ref, x.2)), ← u.isDimensionless)

/-! ## `test__dimensionality` (order of entries as the code inserts them) -/

example : [(c!"2", [], true),
    (c!"5·m", [(c!"meter", 1)], false),
    (c!".1", [], true),
    (c!"1e-2", [], true),
    (c!"s", [(c!"second", 1)], false),
    (c!"decimeter", [(c!"meter", 1)], false),
    (c!"m per s", [(c!"meter", 1), (c!"second", -1)], false),
    (c!"m per meter", [], true),
    (c!"m meter", [(c!"meter", 2)], false),
    (c!"(m2)^-3", [(c!"meter", -6)], false),
    (c!"(m2)*meter-3", [(c!"meter", -1)], false),
    (c!"(m2)^-3*meter", [(c!"meter", -5)], false)].all (fun x => dims x.1 = .ok x.2) = true := by decide +kernel

example : [(c!"s @ 2", [(c!"second", 1)], false),
    (c!"(m @ 2)*1", [(c!"meter", 1)], false),
    (c!"s2*s3", [(c!"second", 5)], false),
    (c!"lg(re year)", [(c!"year", 1)], false),
    (c!"lg(re year/2)", [(c!"year", 1)], false),
    (c!"2 lg(re year)", [(c!"year", 1)], false),
    (c!"5lg(re m2)", [(c!"meter", 2)], false),
    (c!"lb(re lg(re m2/s))", [(c!"meter", 2), (c!"second", -1)], false),
    (c!"century", [(c!"year", 1)], false),
    (c!"century^-2", [(c!"year", -2)], false),
    (c!"century^2 year^-1", [(c!"year", 1)], false),
    (c!"century^2 year^-3", [(c!"year", -1)], false)].all (fun x => dims x.1 = .ok x.2) = true := by decide +kernel

example : [(c!"(century^2)^-3", [(c!"year", -6)], false),
    (c!"(century^2)^-3*year", [(c!"year", -5)], false)].all (fun x => dims x.1 = .ok x.2) = true := by decide +kernel

/-! ## `test__converter` -/

def powQ (b n : Nat) : Rat :=
  let p : Nat := b ^ n
  (p : Rat)

/-- one step on a rational, where the result is rational -/
def stepQ : COp → Rat → Option Rat
  | .scale m, x => if m.exps = [] then some (m.coef * x) else none
  | .add q, x => some (x + q)
  | .exp (some b), x => if x.den = 1 then some (if 0 ≤ x.num then powQ b x.num.toNat else 1 / powQ b (-x.num).toNat) else none
  | .log (some b), x => (List.range 20).findSome? fun k =>
      if x = powQ b k then some (k : Rat) else if x * powQ b k = 1 then some (-(k : Rat)) else none
  | .recip, x => if x = 0 then none else some (1 / x)
  | _, _ => none

def runQ : List COp → Rat → Option Rat
  | [], x => some x
  | op :: l, x => (stepQ op x).bind (runQ l)

/-- `Converter(unit(a), unit(b)).convert(10)`, where it is rational -/
def convert10 (a b : Str) : Option Rat :=
  match (do simplifyOps ⟨1, []⟩ (← Converter.build (← unit a) (← unit b)) : Py (List COp)) with
  | .ok ops => runQ ops 10
  | .error _ => none

/-! ## cases (`5 m` to `lg(re m)` is irrational and left out; the last is the value recorded in `test__converter_inconsistent_w_udunits`) -/

example : [(c!"m", c!"m", (10 / 1 : Rat)),
    (c!"m", c!"km", (1 / 100 : Rat)),
    (c!"200 m", c!"km", (2 / 1 : Rat)),
    (c!"year", c!"decades", (1 / 1 : Rat)),
    (c!"decades", c!"year", (100 / 1 : Rat)),
    (c!"centuries", c!"year", (1000 / 1 : Rat)),
    (c!"centuries", c!"decade", (100 / 1 : Rat)),
    (c!"centuries", c!"10 centuries", (1 / 1 : Rat)),
    (c!"m/s", c!"s/m", (1 / 10 : Rat)),
    (c!"km/h", c!"s/m", (9 / 25 : Rat)),
    (c!"(year @ 5)", c!"year", (15 / 1 : Rat)),
    (c!"(year @ 5)*1", c!"year", (10 / 1 : Rat))].all (fun x => convert10 x.1 x.2.1 = some x.2.2) = true := by decide +kernel

example : [(c!"(year @ 5)/2", c!"year", (5 / 1 : Rat)),
    (c!"degC", c!"K", (5663 / 20 : Rat)),
    (c!"degC*1", c!"K", (10 / 1 : Rat)),
    (c!"degC/2", c!"K", (5 / 1 : Rat)),
    (c!"lg(re degC)", c!"K", (10000000000 / 1 : Rat)),
    (c!"m", c!"lg(re m)", (1 / 1 : Rat)),
    (c!"lb(re m)", c!"m", (1024 / 1 : Rat)),
    (c!"lg(re m)", c!"lg(re m)", (10 / 1 : Rat)),
    (c!"watt", c!"dBm", (40 / 1 : Rat)),
    (c!"dBm", c!"watt", (1 / 100 : Rat)),
    (c!"lg(re m/s)", c!"s/m", (1 / 10000000000 : Rat)),
    (c!"(m2)^-3*m", c!"m5", (1 / 10 : Rat))].all (fun x => convert10 x.1 x.2.1 = some x.2.2) = true := by decide +kernel

example : [(c!"(m2)^-3*m", c!"m-5", (10 / 1 : Rat)),
    (c!"lg(re m)*5", c!"2 lg(re m)", (4 / 1 : Rat))].all (fun x => convert10 x.1 x.2.1 = some x.2.2) = true := by decide +kernel

/-! ## `test_unit.py` -/

/-- `SimpleUnit`: every identifier is a basis unit -/
def simpleUnit (s : Str) : Py Ref := do
  let e ← parse s
  mkUnit none e (e.identifiers.map fun n => (n, .basis ⟨n, false, false, ⟨some ⟨n, none⟩, [], [], []⟩⟩))

def simpleEq (a b : Str) : Py Bool := do (← simpleUnit a).eq (← simpleUnit b)

/-! ## `test_unit__eq` -/

example : [(c!"a", c!"a", true),
    (c!"a", c!"2a", false),
    (c!"2a", c!"a 2", true),
    (c!"lg(re m)", c!"lg(re m)", true),
    (c!"2 lg(re m)", c!"lg(re m)", false),
    (c!"7 days", c!"week", false)].all (fun x => simpleEq x.1 x.2.1 = .ok x.2.2 && simpleEq x.2.1 x.1 = .ok x.2.2) = true := by decide +kernel

def commonRefs : List (Str × Ref) :=
  [(c!"s", .basis ⟨c!"s", false, true, ⟨some ⟨c!"s", none⟩, [], [], []⟩⟩),
   (c!"years", .basis ⟨c!"year", false, true, ⟨some ⟨c!"year", some c!"years"⟩, [], [], []⟩⟩),
   (c!"m", .basis ⟨c!"m", false, false, ⟨some ⟨c!"m", none⟩, [], [], []⟩⟩)]

def build (s : Str) : Py Ref := do mkUnit none (← parse s) commonRefs
def reference (s : Str) : Py (Option Str) := do
  match ← unitFromExpr (← parse s) commonRefs with
  | .date _ r => .ok r
  | .unit _ => .error .assertionError

/-! ## `test_unit__init_with_date`: Refusing to represent dates -/

example : [c!"s @ 2000",
    c!"100s @ 2000",
    c!"years since 2000-01-01T00:00",
    c!"m (s @ 2000)",
    c!"(m/m) s @ 2000-01-01T00:00"].all (fun x => build x = .error .refusingDates) = true := by decide +kernel

/-! ## `test_unit__init_with_date`: Normalisation of non-numeric shift not possible -/

example : [c!"m @ 2000-01-01T00:00"].all (fun x => build x = .error .nonNumericShift) = true := by decide +kernel

/-! ## `test_dateunit__reference_date` -/

example : [(c!"s @ 2000", c!"2000"),
    (c!"s @ 2000 +10 UTC", c!"2000 +10 UTC"),
    (c!"100s @ 2000", c!"2000"),
    (c!"years since 2000-01-01T00:00", c!"2000-01-01T00:00"),
    (c!"(m/m) s @ 2000-01-01T00:00", c!"2000-01-01T00:00")].all (fun x => reference x.1 = .ok (some x.2)) = true := by decide +kernel

end Verif.Conformance
