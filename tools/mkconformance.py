#!/usr/bin/env python3
"""Writes lean/Verif/Conformance.lean: the cases of the repository's own unit tests, run on the model by the kernel.
These are tests of the model's faithfulness, not proofs of properties."""
import ast
T='/repo/pyudunits2/tests/'
def q(s): return 'c!"'+s.replace('\\','\\\\').replace('"','\\"')+'"'
def params(f,fn):
    for n in ast.parse(open(T+f).read()).body:
        if isinstance(n,ast.FunctionDef) and n.name==fn:
            for d in n.decorator_list:
                if isinstance(d,ast.Call) and ast.unparse(d.func)=='pytest.mark.parametrize':
                    a=d.args[1]
                    try: yield ast.literal_eval(a)
                    except Exception: yield [[ast.unparse(y) for y in x.elts] for x in a.elts]
def assign(f,name):
    for n in ast.parse(open(T+f).read()).body:
        if isinstance(n,ast.Assign) and n.targets[0].id==name: return eval(compile(ast.Expression(n.value),'','eval'))
def first(f,fn): return [x for x in params(f,fn)][-1]
out=[]
w=out.append
w('''import Verif.Model.Sympy
import Verif.Model.Parser
import Verif.Model.Expander
import Verif.Props.Demo
/-!
# The repository's unit tests, run on the model

Generated by `tools/mkconformance.py` from the parametrised cases in `/repo/pyudunits2/tests`.  These are tests: they show that
the model agrees with the outcomes the project expects of the code on those inputs.  They prove no property and no theorem
depends on them.
-/

namespace Verif.Conformance

/-- `normalize` succeeds -/
def parses (s : Str) : Bool := (normalizeText s).toOption.isSome
/-- `normalize` raises a SyntaxError -/
def rejects (s : Str) : Bool := normalizeText s = .error .syntaxError
''')
def chunks(l,n=12):
    for i in range(0,len(l),n): yield l[i:i+n]
def block(title,fn,items):
    w(f'/-! ## {title} -/\n')
    for c in chunks(items):
        w('example : ['+',\n    '.join(c)+f'].all {fn} = true := by decide +kernel\n')
P='_grammar/test_parse.py'
block('`test_normed_units_equivalent`: these parse','parses',[q(x) for x in assign(P,'testdata')])
block('`test_invalid_units`','rejects',[q(x) for x in assign(P,'invalid')])
block('`test_invalid_syntax_units`','rejects',[q(x) for x in assign(P,'not_allowed')])
block('`test_known_issues`, `test_unknown_symbol_error`, `test_syntax_parse_error_quality`','rejects',[q(x) for x in ["days since 2000)","Thing×Another","m^m 2s"]])
block('`test_invalid_in_udunits_but_still_parses`','(fun x => normalizeText x.1 = .ok x.2)',[f'({q(a)}, {q(b)})' for a,b in assign(P,'not_udunits')])
w('/-! ## `test__split_expression` -/\n')
w('/-- the two printed results of `SplitExpr`; `None` for no transformation -/\ndef splitStr (s : Str) : Py (Str × Str) := do\n  let (t, d) ← (← parse s).split true\n  .ok ((t.elim c!"None" fun t => t.toNode.str), d.str)\n')
block('`test__split_expression`, cases','(fun x => splitStr x.1 = .ok x.2)',[f'({q(a)}, {q(str(b))}, {q(c)})' for a,b,c in first('_expr/test_expr_split.py','test__split_expression')])
w('/-! ## `test_Expander` -/\n')
w('def expandStr (s : Str) : Py Str := do .ok (← expand (← parse s)).str\ndef expandOffset (s : Str) : Py Str := do .ok (← expand (.shift (.ident c!"m") (← parse s))).str\n')
ex=[x for x in params('test_unit_basis.py','test_Expander')]
ex=max(ex,key=len)
block('`test_Expander`, plain','(fun x => expandStr x.1 = .ok x.2)',[f'({q(a)}, {q(b)})' for a,b in ex])
block('`test_Expander`, as offset','(fun x => expandOffset x.1 = .ok x.2)',[f'({q(a)}, {q("(m @ "+b+")")})' for a,b in ex if '@' not in a])
w('''/-! ## `conftest.simple_unit_system` -/

open Demo in
def simple : System :=
  ((((System.empty.addPrefix ⟨c!"milli", c!".001", [c!"m"]⟩).addPrefix ⟨c!"deci", c!"10", [c!"d"]⟩).addPrefix
      ⟨c!"kilo", c!"1000", [c!"k"]⟩).addPrefix ⟨c!"centi", c!"100", [c!"c"]⟩)
    |> basis ⟨some ⟨c!"meter", some c!"meters"⟩, [c!"m"], [⟨c!"metre", some c!"metres"⟩], []⟩ false
    |> basis ⟨some ⟨c!"second", some c!"seconds"⟩, [c!"s"], [], []⟩ true
    |> addLazy c!"60 seconds" ⟨some ⟨c!"minute", some c!"minutes"⟩, [c!"min"], [], []⟩
    |> addLazy c!"60 minutes" ⟨some ⟨c!"hour", some c!"hours"⟩, [c!"h"], [], []⟩
    |> basis ⟨some ⟨c!"watt", none⟩, [c!"W"], [], []⟩ false
    |> addLazy c!"lg(re 1 mW)" ⟨none, [c!"Bm"], [], []⟩
    |> basis ⟨some ⟨c!"year", none⟩, [], [], []⟩ false
    |> addLazy c!"10 year" ⟨some ⟨c!"decade", some c!"decades"⟩, [], [], []⟩
    |> addLazy c!"10 decade" ⟨some ⟨c!"century", some c!"centuries"⟩, [], [], []⟩
    |> basis ⟨some ⟨c!"kelvin", none⟩, [c!"K"], [], []⟩ false
    |> addLazy c!"K @ 273.15" ⟨some ⟨c!"degC", none⟩, [], [], []⟩
where basis (names : UnitReference) (time : Bool) (s : System) : System :=
  match mkBasis names false time with
  | .ok b => addBasis b s
  | .error _ => s

/-- `simple_unit_system.unit(s)` -/
def unit (s : Str) : Py UObj := (System.unit Demo.env 20 s simple).1
''')
w('def expanded (s : Str) : Py Str := do (← unit s).expanded\n')
block('`test__unit__expansion`','(fun x => expanded x.1 = .ok x.2)',[f'({q(a)}, {q(b)})' for a,b in first('test_unit_system.py','test__unit__expansion')])
block('`test__unit__undefined_unit`','(fun x => unit x = .error (.unresolvable x))',[q(a) for a in first('test_unit_system.py','test__unit__undefined_unit')])
w('def equalUnits (a b : Str) : Py Bool := do\n  match ← unit a, ← unit b with\n  | .unit x, .unit y => x.eq y\n  | _, _ => .ok false\n')
block('`test__unit__symbolic_eq`','(fun x => equalUnits x.1 x.2 = .ok true)',[f'({q(a)}, {q(b)})' for a,b in first('test_unit_system.py','test__unit__symbolic_eq')])
w('def isDate (s : Str) : Bool := match unit s with\n  | .ok (.date _ _) => true\n  | _ => false\ndef fails (s : Str) : Bool := (unit s).toOption.isNone\n')
du=first('test_unit_system.py','test__unit__date_unit')
block('`test__unit__date_unit`: dates','isDate',[q(ast.literal_eval(a)) for a,b in du if b=='no_exception'])
block('`test__unit__date_unit`: errors','fails',[q(ast.literal_eval(a)) for a,b in du if b!='no_exception'])
w('''/-- the dimensionality as names and powers, and `is_dimensionless` -/
def dims (s : Str) : Py (List (Str × Int) × Bool) := do
  let u ← unit s
  .ok (((← u.dimObj).items.map fun x => (x.1.ref, x.2)), ← u.isDimensionless)
''')
block('`test__dimensionality` (order of entries as the code inserts them)','(fun x => dims x.1 = .ok x.2)',[f'({q(a)}, [{", ".join(f"({q(k)}, {v})" for k,v in b.items())}], {"true" if not b else "false"})' for a,b in first('test_dimensionality.py','test__dimensionality')])
w('''/-! ## `test__converter` -/

def powQ (b n : Nat) : Rat :=
  let p : Nat := b ^ n
  (p : Rat)

/-- one step on a rational, where the result is rational -/
def stepQ : COp → Rat → Option Rat
  | .scale m, x => if m.exps = [] then some (m.coef * x) else none
  | .add q, x => some (x + q)
  | .exp (some b), x => if x.den = 1 then some (if 0 ≤ x.num then powQ b x.num.toNat else 1 / powQ b (-x.num).toNat) else none
  | .log (some b), x => (List.range 20).findSome? fun k =>
      if x = powQ b k then some (k : Rat) else if x * powQ b k = 1 then some (-(k : Rat)) else none
  | .recip, x => if x = 0 then none else some (1 / x)
  | _, _ => none

def runQ : List COp → Rat → Option Rat
  | [], x => some x
  | op :: l, x => (stepQ op x).bind (runQ l)

/-- `Converter(unit(a), unit(b)).convert(10)`, where it is rational -/
def convert10 (a b : Str) : Option Rat :=
  match (do simplifyOps ⟨1, []⟩ (← Converter.build (← unit a) (← unit b)) : Py (List COp)) with
  | .ok ops => runQ ops 10
  | .error _ => none
''')
def rat(v):
    from fractions import Fraction
    f=Fraction(repr(v)) if isinstance(v,float) else Fraction(v)
    return f'({f.numerator} / {f.denominator} : Rat)'
cv=[x for x in first('test_converter.py','test__converter')]
cv+= [["lg(re m)*5","2 lg(re m)",4]]
block('cases (`5 m` to `lg(re m)` is irrational and left out; the last is the value recorded in `test__converter_inconsistent_w_udunits`)','(fun x => convert10 x.1 x.2.1 = some x.2.2)',[f'({q(a)}, {q(b)}, {rat(v)})' for a,b,v in cv if a!='5 m'])
w('''/-! ## `test_unit.py` -/

/-- `SimpleUnit`: every identifier is a basis unit -/
def simpleUnit (s : Str) : Py Ref := do
  let e ← parse s
  mkUnit none e (e.identifiers.map fun n => (n, .basis ⟨n, false, false, ⟨some ⟨n, none⟩, [], [], []⟩⟩))

def simpleEq (a b : Str) : Py Bool := do (← simpleUnit a).eq (← simpleUnit b)
''')
eqs=[("a","a",True),("a","2a",False),("2a","a 2",True),("lg(re m)","lg(re m)",True),("2 lg(re m)","lg(re m)",False),("7 days","week",False)]
block('`test_unit__eq`','(fun x => simpleEq x.1 x.2.1 = .ok x.2.2 && simpleEq x.2.1 x.1 = .ok x.2.2)',[f'({q(a)}, {q(b)}, {str(v).lower()})' for a,b,v in eqs])
w('''def commonRefs : List (Str × Ref) :=
  [(c!"s", .basis ⟨c!"s", false, true, ⟨some ⟨c!"s", none⟩, [], [], []⟩⟩),
   (c!"years", .basis ⟨c!"year", false, true, ⟨some ⟨c!"year", some c!"years"⟩, [], [], []⟩⟩),
   (c!"m", .basis ⟨c!"m", false, false, ⟨some ⟨c!"m", none⟩, [], [], []⟩⟩)]

def build (s : Str) : Py Ref := do mkUnit none (← parse s) commonRefs
def reference (s : Str) : Py (Option Str) := do
  match ← unitFromExpr (← parse s) commonRefs with
  | .date _ r => .ok r
  | .unit _ => .error .assertionError
''')
iw=first('test_unit.py','test_unit__init_with_date')
for msg,err in (("Refusing to represent dates",".refusingDates"),("Normalisation of non-numeric shift not possible",".nonNumericShift")):
    block(f'`test_unit__init_with_date`: {msg}',f'(fun x => build x = .error {err})',[q(a) for a,b in iw if b==msg])
block('`test_dateunit__reference_date`','(fun x => reference x.1 = .ok (some x.2))',[f'({q(a)}, {q(b)})' for a,b in first('test_unit.py','test_dateunit__reference_date')])
w('end Verif.Conformance')
open('/verif/lean/Verif/Conformance.lean','w').write('\n'.join(out)+'\n')
