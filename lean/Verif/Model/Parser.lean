import Verif.Model.Lexer
import Verif.Model.Graph
/-!
# The parser (`_grammar/udunits2Parser.g4`, `_grammar/__init__.py`)

ANTLR's adaptive prediction is modelled by its specification: of all complete derivations choose the
one that takes the lowest-numbered viable alternative at each decision (loops and optionals prefer to
enter).  The model enumerates the successes in exactly that order.  C67 proves that the parser that
runs (`Model/ParserSim.lean`, `Model/GeneratedParser.lean`) computes the same.
The visitor of `_grammar/__init__.py` (parse tree → graph) is fused into the rules.
-/

namespace Verif

/-- Ordered list of successes. -/
abbrev P (α : Type) := List Token → List (α × List Token)

namespace P
variable {α β : Type}
def pure (a : α) : P α := fun ts => [(a, ts)]
def fail : P α := fun _ => []
def bind (p : P α) (f : α → P β) : P β := fun ts => (p ts).flatMap fun (a, r) => f a r
def or (p q : P α) : P α := fun ts => p ts ++ q ts
def map (f : α → β) (p : P α) : P β := fun ts => (p ts).map fun (a, r) => (f a, r)
/-- `p?` : enter first -/
def opt (p : P Str) : P Str := P.or p (P.pure [])
/-- a token of the given type; returns its text -/
def tok (k : Kind) : P Str := fun ts =>
  match ts with
  | t :: r => if t.kind = k then [(t.text, r)] else []
  | [] => []
/-- concatenation of texts (`ctx.getText()`) -/
def cat (p q : P Str) : P Str := P.bind p fun a => P.map (fun b => a ++ b) q
end P

/-- `unicodedata.normalize("NFKC", ·)` on the superscript characters, then `−` → `-`
(`_grammar/__init__.py:26`): NFKC maps `⁻` to `−` and `⁺` to `+`. -/
def superscript : Char → Char
  | '⁻' => '-' | '⁺' => '+' | '¹' => '1' | '²' => '2' | '³' => '3' | '⁴' => '4' | '⁵' => '5'
  | '⁶' => '6' | '⁷' => '7' | '⁸' => '8' | '⁹' => '9' | '⁰' => '0' | c => c

/-- `handle_UNICODE_EXPONENT` (`_grammar/__init__.py:22-27`): note that the value is a `str`. -/
def unicodeExponent (s : Str) : Node :=
  let n := s.map superscript
  .number (.str n) (some n)

/-- `INT`/`SIGNED_INT` handlers (`_grammar/__init__.py:50,57`): `Number(int(c), raw_content=c)`.
`int` cannot fail on the text of such a token (`Lemmas/Parser`). -/
def intNode (c : Str) : Option Node := (parseInt? c).map fun i => .number (.int i) (some c)

/-- `FLOAT` handler (`_grammar/__init__.py:44-46`): `Number(Decimal(c), raw_content=c)`. -/
def floatNode (c : Str) : Option Node :=
  match Dec.parse c with
  | .ok d => some (.number (.dec d) (some c))
  | .error _ => none

/-- `LOG` handler (`_grammar/__init__.py:51`): `c.split("(")[0].strip()`. -/
def logName (c : Str) : Str := strip (c.takeWhile (· ≠ '('))

/-- convert the text of a token, dropping (impossible) conversion failures -/
def P.conv (f : Str → Option Node) (p : P Str) : P Node :=
  P.bind p fun c => match f c with
    | some n => P.pure n
    | none => P.fail

/-- `integer: INT | SIGNED_INT` (`udunits2Parser.g4:48-50`) -/
def integerP : P Node := P.conv intNode (P.or (P.tok .INT) (P.tok .SIGNED_INT))

/-- `number: integer | FLOAT` (52-54) -/
def numberP : P Node := P.or integerP (P.conv floatNode (P.tok .FLOAT))

/-- `DATE | integer` as text -/
def dateOrInt : P Str := P.or (P.tok .DATE) (P.or (P.tok .INT) (P.tok .SIGNED_INT))
def integerText : P Str := P.or (P.tok .INT) (P.tok .SIGNED_INT)
/-- `signed_clock` (67-71) -/
def signedClock : P Str := P.or (P.tok .HOUR_MINUTE_SECOND) (P.or (P.tok .HOUR_MINUTE) integerText)
/-- `timezone_offset` (73-76) -/
def tzOffset : P Str := P.or (P.tok .HOUR_MINUTE) integerText
/-- `timezone_offset | TIMEZONE` -/
def tzAny : P Str := P.or tzOffset (P.tok .TIMEZONE)

/-- `timestamp` (57-65); `visitTimestamp` keeps the text only (`_grammar/__init__.py:125-129`). -/
def timestampP : P Str :=
  P.or dateOrInt
  (P.or (P.cat dateOrInt (P.cat (P.opt (P.or (P.tok .WS) (P.tok .T)))
          (P.cat signedClock (P.cat (P.opt (P.tok .WS)) (P.opt tzAny)))))
  (P.or (P.cat integerText (P.opt tzAny))
  (P.or (P.cat (P.tok .TIMESTAMP) (P.cat (P.opt (P.tok .WS)) (P.opt tzAny)))
        (P.cat dateOrInt (P.cat (P.opt (P.tok .WS)) (P.or (P.tok .TIMEZONE) (P.tok .TZ)))))))

/-- one or more `WS` (as many as there are: nothing else can follow a `WS` here) -/
def wsPlus : P Unit := fun ts =>
  match ts with
  | t :: r => if t.kind = .WS then go r else []
  | [] => []
where
  go : List Token → List (Unit × List Token)
    | t :: r => if t.kind = .WS then go r ++ [((), t :: r)] else [((), t :: r)]
    | [] => [((), [])]

section
variable (shiftSpec : P Node)

/-- `basic_spec: ID | '(' shift_spec ')' | number` (42-46) -/
def basicP : P Node :=
  P.or (P.map Node.ident (P.tok .ID))
  (P.or (P.bind (P.tok .OPEN_PAREN) fun _ => P.bind shiftSpec fun n =>
          P.map (fun _ => n) (P.tok .CLOSE_PAREN))
        numberP)

/-- `logarithm: basic_spec | LOG shift_spec ')'` (36-40; visitLogarithm `__init__.py:141-150`) -/
def logarithmP : P Node :=
  P.or (basicP shiftSpec)
  (P.bind (P.tok .LOG) fun c => P.bind shiftSpec fun n =>
    P.map (fun _ => Node.log (logName c) n) (P.tok .CLOSE_PAREN))

/-- `power` (27-34; visitPower `__init__.py:131-139`) -/
def powerP : P Node :=
  P.or (P.bind (logarithmP shiftSpec) fun l => P.map (Node.raise l) integerP)
  (P.or (logarithmP shiftSpec)
  (P.or (P.bind (logarithmP shiftSpec) fun l => P.bind (P.tok .RAISE) fun _ => P.map (Node.raise l) integerP)
        (P.bind (logarithmP shiftSpec) fun l => P.map (fun c => Node.raise l (unicodeExponent c))
          (P.tok .UNICODE_EXPONENT))))

/-- One more factor of a product (21-24; visitProduct `__init__.py:107-123`). -/
def factorP (l : Node) : P Node :=
  P.or (P.map (Node.mul l) (powerP shiftSpec))
  (P.or (P.bind (P.tok .MULTIPLY) fun _ => P.map (Node.mul l) (powerP shiftSpec))
  (P.or (P.bind (P.tok .DIVIDE) fun _ => P.map (Node.div l) (powerP shiftSpec))
        (P.bind wsPlus fun _ => P.map (Node.mul l) (powerP shiftSpec))))

/-- the loop ANTLR generates for the left-recursive `product`: enter first, then exit -/
def productLoop : Nat → Node → P Node
  | 0, l => P.pure l
  | n + 1, l => P.or (P.bind (factorP shiftSpec l) (productLoop n)) (P.pure l)

/-- `product` (19-25) -/
def productP : P Node := fun ts => P.bind (powerP shiftSpec) (productLoop shiftSpec ts.length) ts

/-- optional `WS` -/
def optWs : P Str := P.opt (P.tok .WS)

/-- `shift_spec` (13-17; visitShift_spec `__init__.py:152-156`) given the parser for nested ones -/
def shiftSpecStep : P Node :=
  P.or (productP shiftSpec)
  (P.or (P.bind (productP shiftSpec) fun p => P.bind optWs fun _ => P.bind (P.tok .SHIFT_OP) fun _ =>
          P.bind optWs fun _ => P.map (Node.shift p) numberP)
        (P.bind (productP shiftSpec) fun p => P.bind optWs fun _ => P.bind (P.tok .SHIFT_OP) fun _ =>
          P.bind optWs fun _ => P.map (fun t => Node.shift p (.unhandled t)) timestampP))
end

/-- `shift_spec` with a bound on the nesting of brackets -/
def shiftSpecP : Nat → P Node
  | 0 => P.fail
  | n + 1 => shiftSpecStep (shiftSpecP n)

/-- `unit_spec: shift_spec? EOF` (9-11; visitUnit_spec `__init__.py:158-163`): first complete
derivation, `Unhandled("")` for no tokens at all, else the error listener raises `SyntaxError`. -/
def parseTokens (ts : List Token) : Py Node :=
  match (shiftSpecP (ts.length + 1) ts).find? (fun q => q.2.isEmpty) with
  | some (n, _) => .ok n
  | none => if ts.isEmpty then .ok (.unhandled []) else .error .syntaxError

/-- `parse(unit_str)` (`_grammar/__init__.py:215-232`). -/
def parse (s : Str) : Py Node := parseTokens (lex (strip s))

/-- `normalize(unit_string)` (`_grammar/__init__.py:204-212`). -/
def normalizeText (s : Str) : Py Str := do .ok (← parse s).str

end Verif
