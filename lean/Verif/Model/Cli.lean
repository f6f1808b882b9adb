import Verif.Model.System
import Verif.Model.Sympy
import Verif.Model.Parser
/-!
# The command line (`pyudunits2/__main__.py`) and what it prints

`argparse` is not modelled: the handlers start from the unit texts.  Each handler reads its units from a freshly loaded
system, which is a parameter here.
-/

namespace Verif

/-- `Dimensionality._name_form` (`_unit.py:261-262`): `{str(base_unit): order}`.  The reference names of the keys are distinct
(they are compared by it), so no entry overwrites another. -/
def Dims.nameForm (d : Dims) : List (Str × Int) := d.map fun q => (q.1.ref, q.2)

/-- Python `dict == dict`: as many entries, and every entry of the one in the other. -/
def Dict.pyEq (a b : List (Str × Int)) : Bool :=
  a.length == b.length && a.all fun q => Dict.get q.1 b == some q.2

/-- `dimensionality == other` for a dict `other` from names to orders (`_unit.py:254-256`). -/
def Dims.eqDict (d : Dims) (other : List (Str × Int)) : Bool := Dict.pyEq d.nameForm other

/-- `repr` of a string of ASCII letters, digits, underscores…; anything that `repr` would escape or quote differently is
not modelled. -/
def pyRepr (s : Str) : Py Str :=
  if s.all fun c => 32 ≤ c.toNat && c.toNat < 127 && c != '\'' && c != '\\' then .ok ('\'' :: s ++ c!"'") else .error .unmodelled

/-- the entries of `str({…})` -/
def reprItems : List (Str × Int) → Py (List Str)
  | [] => .ok []
  | (n, v) :: l => do
    let k ← pyRepr n
    let rest ← reprItems l
    .ok ((k ++ (c!": " ++ intStr v)) :: rest)

/-- `", ".join(items)` -/
def joinComma : List Str → Str
  | [] => []
  | [x] => x
  | x :: xs => x ++ (c!", " ++ joinComma xs)

/-- `str(dimensionality)` (`_unit.py:272-273`); a `dict` of basis units has basis unit `repr`s in it and is not modelled. -/
def DimObj.str : DimObj → Py Str
  | .dimensionality d => do .ok ('{' :: joinComma (← reprItems d.nameForm) ++ c!"}")
  | .dict [] => .ok c!"{}"
  | .dict _ => .error .unmodelled

/-- `f"{unit}"`: a `DateUnit` has the default `object.__str__`, which shows a memory address (`none`). -/
def UObj.text : UObj → Option Str
  | .unit r => some r.str
  | .date _ _ => none

/-- A run of a handler: the lines printed (`none` in place of the name of a date unit) and how it ended — an exit status, or
an exception (traceback). -/
structure CliRun where
  lines : List (List (Option Str))
  status : Py Nat
  deriving DecidableEq, Repr

/-- `explain_handler` (`__main__.py:69-75`): two lines are printed before the dimensionality is computed. -/
def explainUnit (env : Env) (fuel : Nat) (text : Str) (s : System) : CliRun :=
  match (System.unit env fuel text s).1 with
  | .error e => ⟨[], .error e⟩
  | .ok u =>
    match u.expanded with
    | .error e => ⟨[], .error e⟩
    | .ok x =>
      let two := [[some c!"Unit: ", u.text], [some c!"In basis form: ", some x]]
      match (do (← u.dimObj).str) with
      | .error e => ⟨two, .error e⟩
      | .ok d => ⟨two ++ [[some c!"Dimensionality: ", some d]], .ok 0⟩

/-- the two messages of `conv_expr_handler` (`__main__.py:58,61-64`) -/
def notPossible (a b : UObj) : List (Option Str) :=
  [some c!"It is not possible to convert from \"", a.text, some c!"\" to \"", b.text, some c!"\""]
def toConvert (a b : UObj) : List (Option Str) :=
  [some c!"To convert from \"", a.text, some c!"\" to \"", b.text, some c!"\", apply the following expression:"]

/-- What `conv_expr_handler` reports for the outcome of `Converter(from_unit, to_unit)` (`__main__.py:55-66`): only
`IncompatibleUnitsError` is caught. -/
def convReport (a b : UObj) : Py (List COp) → CliRun
  | .ok _ => ⟨[toConvert a b, [none]], .ok 0⟩
  | .error e => if e = .incompatible then ⟨[notPossible a b], .ok 1⟩ else ⟨[], .error e⟩

/-- `conv_expr_handler` (`__main__.py:50-66`).  The second line of a success, `print(converter.expression)`, is sympy's printing and
not modelled: `none` stands for it. -/
def conversionExpr (env : Env) (fuel : Nat) (from_ to_ : Str) (s : System) : CliRun :=
  match System.unit env fuel from_ s with
  | (.error e, _) => ⟨[], .error e⟩
  | (.ok a, s) =>
    match (System.unit env fuel to_ s).1 with
    | .error e => ⟨[], .error e⟩
    | .ok b => convReport a b (Converter.build a b)

/-- `convert_handler` (`__main__.py:46-47`). -/
def convertCommand : CliRun := ⟨[], .error .notImplemented⟩

/-- `debug_parsing_handler` → `_debug_tokens` (`_grammar/__init__.py:183-201`): one line `text: KIND` per token of a text that
parses.  (On a syntax error ANTLR recovers and prints to stderr; only texts that parse are modelled.) -/
def debugParser (text : Str) : Py (List Token) := do
  let _ ← parse text
  .ok (lex (strip text))

end Verif
