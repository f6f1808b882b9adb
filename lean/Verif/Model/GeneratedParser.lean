import Verif.Model.CacheProg
import Verif.Model.Parser
/-!
# The parser that runs: `_grammar/parser/udunits2Parser.py`, `rt/Parser.py` and the visitor of `_grammar/__init__.py`

Line numbers without a file are those of `_grammar/parser/udunits2Parser.py`.  An error is the exception raised by the
listener `SyntaxErrorRaiser` (`_grammar/__init__.py:166-180`) at the first error reported: nothing after it is
observable, so error recovery is not modelled.  Not modelled: parse listeners (there are none), start and stop
tokens, positions.  A method is a program (`Model/CacheProg.lean`): the only shared objects it touches are the caches of the
predictions.
-/

namespace Verif.PSim

/-- A parse tree (`ParserRuleContext`, `TerminalNodeImpl`): rule index and children; token type and text. -/
inductive PTree where
  | term (type : Int) (text : Str)
  | rule (idx : Nat) (children : List PTree)
  deriving Repr

/-- What a parser consists of besides its input: automaton and predictions (`self._interp.adaptivePredict`: decision,
precedence, invoking states, remaining token types). -/
structure Run where
  atn : Atn
  predict : Nat → Int → List Nat → List Int → CProg Prediction

/-- `_ctx` as the list of `invokingState`s up to the root, and the top of `_precedenceStack`. -/
structure GCtx where
  stack : List Nat
  prec : Int

/-- the remaining tokens: type and text -/
abbrev Toks := List (Int × Str)

/-- The outcome of a method of the parser: a result and the remaining tokens, an error reported, or `stuck`, a loop that does not
end. -/
inductive GRes (α : Type) where
  | ok (a : α) (toks : Toks)
  | syntaxError
  | stuck

/-- A method of the parser. -/
def G (α : Type) := Run → GCtx → Toks → CProg (GRes α)

namespace G
variable {α β : Type}

def pure (a : α) : G α := fun _ _ s => .done (.ok a s)

/-- what follows in a method: nothing after an error -/
def andThen (f : α → G β) (R : Run) (c : GCtx) : GRes α → CProg (GRes β)
  | .ok a s => f a R c s
  | .syntaxError => .done .syntaxError
  | .stuck => .done .stuck

def bind (g : G α) (f : α → G β) : G β := fun R c s => (g R c s).bind (andThen f R c)

instance : Monad G where
  pure := G.pure
  bind := G.bind

/-- an error reported to the listener -/
def fail : G α := fun _ _ _ => .done .syntaxError

/-- a loop that does not end -/
def stuck : G α := fun _ _ _ => .done .stuck

/-- the type of the next token; EOF is -1 -/
def next (s : Toks) : Int :=
  match s with
  | [] => -1
  | t :: _ => t.1

/-- `self._input.LA(1)` -/
def la : G Int := fun _ _ s => .done (.ok (next s) s)

/-- `self._errHandler.sync(self)` in a state -/
def sync (p : Nat) : G Unit := fun R _ s => .done (if syncOk R.atn p (next s) then .ok () s else .syntaxError)

/-- `self.match(ttype)` and `consume` (`rt/Parser.py:144-170,376-392`); at the end of the input the token is EOF -/
def tok (k : Int) : G PTree := fun _ _ s =>
  match s with
  | [] => .done (if k = -1 then .ok (.term (-1) "<EOF>".toList) [] else .syntaxError)
  | t :: ts => .done (if t.1 = k then .ok (.term t.1 t.2) ts else .syntaxError)

/-- matching one of several types inline (2088-2093) -/
def tokIn (ks : List Int) : G PTree := fun _ _ s =>
  match s with
  | [] => .done .syntaxError
  | t :: ts => .done (if t.1 ∈ ks then .ok (.term t.1 t.2) ts else .syntaxError)

/-- calling the method of a rule in a state (`enterRule`, `rt/Parser.py:402-417`): the state becomes the `invokingState` of the
new context -/
def call (s : Nat) (g : G α) : G α := fun R c => g R { c with stack := s :: c.stack }

/-- `enterRecursionRule`: push a precedence (`rt/Parser.py:440-452`) -/
def withPrec (p : Int) (g : G α) : G α := fun R c => g R { c with prec := p }

/-- `precpred` or `FailedPredicateException` -/
def precpred (p : Int) : G Unit := fun _ c s => .done (if c.prec ≤ p then .ok () s else .syntaxError)

/-- what a prediction means to the method: an alternative, or `NoViableAltException` -/
def predicted (s : Toks) : Prediction → GRes Nat
  | some (some a) => .ok a s
  | some none => .syntaxError
  | none => .stuck

/-- `self._interp.adaptivePredict(self._input, decision, self._ctx)` -/
def predict (decision : Nat) : G Nat := fun R c s =>
  (R.predict decision c.prec c.stack (s.map (·.1))).bind fun r => .done (predicted s r)

/-- a method that depends on the number of remaining tokens (only used for the bounds of loops) -/
def remaining (f : Nat → G α) : G α := fun R c s => f s.length R c s

/-- an optional token -/
def optTok (k : Int) (sy : Nat) : G (List PTree) := do
  sync sy
  if (← la) = k then
    let t ← tok k
    pure [t]
  else pure []

end G

/-- the context object of a rule -/
def mkRule (idx : Nat) (g : G (List PTree)) : G PTree := do
  let ts ← g
  pure (.rule idx ts)

/-- `integer` (2230-2252) -/
def integerG : G PTree := mkRule 6 do
  let t ← G.tokIn [1, 9]
  pure [t]

/-- `number` (2275-2304) -/
def numberG : G PTree := mkRule 7 do
  G.sync 105
  let l ← G.la
  if l ∈ [1, 9] then
    let t ← G.call 103 integerG
    pure [t]
  else if l ∈ [11] then
    let t ← G.tok 11
    pure [t]
  else G.fail

/-- `signed_clock` (2548-2582) -/
def signedClockG : G PTree := mkRule 9 do
  G.sync 152
  let l ← G.la
  if l ∈ [22] then
    let t ← G.tok 22
    pure [t]
  else if l ∈ [23] then
    let t ← G.tok 23
    pure [t]
  else if l ∈ [1, 9] then
    let t ← G.call 151 integerG
    pure [t]
  else G.fail

/-- `timezone_offset` (2605-2632) -/
def tzOffsetG : G PTree := mkRule 10 do
  G.sync 156
  let l ← G.la
  if l ∈ [23] then
    let t ← G.tok 23
    pure [t]
  else if l ∈ [1, 9] then
    let t ← G.call 155 integerG
    pure [t]
  else G.fail

/-- `( DATE | integer )` in `timestamp`; `s` is the state of the decision, `c` that of the call (2360-2371, 2380-2391,
2496-2507) -/
def dateOrIntG (s c : Nat) : G (List PTree) := do
  G.sync s
  let l ← G.la
  if l ∈ [25] then
    let t ← G.tok 25
    pure [t]
  else if l ∈ [1, 9] then
    let t ← G.call c integerG
    pure [t]
  else G.fail

/-- `( timezone_offset | TIMEZONE )?` in `timestamp` (2417-2431, 2439-2453, 2468-2482) -/
def tzAnyG (s c : Nat) : G (List PTree) := do
  G.sync s
  let l ← G.la
  if l ∈ [1, 9, 23] then
    let t ← G.call c tzOffsetG
    pure [t]
  else if l ∈ [20] then
    let t ← G.tok 20
    pure [t]
  else pure []

/-- `( WS | T )?` in `timestamp` (2393-2403) -/
def wsOrTG : G (List PTree) := do
  G.sync 116
  let l ← G.la
  if l = 18 ∨ l = 26 then
    let t ← G.tokIn [18, 26]
    pure [t]
  else pure []

/-- `timestamp` (2351-2523) -/
def timestampG : G PTree := mkRule 8 do
  G.sync 147
  let alt ← G.predict 23
  if alt = 1 then dateOrIntG 109 108
  else if alt = 2 then
    let a ← dateOrIntG 113 112
    let b ← wsOrTG
    let c ← G.call 118 signedClockG
    let d ← G.optTok 18 120
    let e ← tzAnyG 124 122
    pure (a ++ b ++ [c] ++ d ++ e)
  else if alt = 3 then
    let a ← G.call 126 integerG
    let e ← tzAnyG 129 127
    pure ([a] ++ e)
  else if alt = 4 then
    let a ← G.tok 27
    let d ← G.optTok 18 133
    let e ← tzAnyG 137 135
    pure ([a] ++ d ++ e)
  else if alt = 5 then
    let a ← dateOrIntG 141 140
    let d ← G.optTok 18 144
    let e ← G.tokIn [20, 21]
    pure (a ++ d ++ [e])
  else pure []

section
variable (shift : G PTree)

/-- `basic_spec` (2169-2208); the argument is `shift_spec` -/
def basicG : G PTree := mkRule 5 do
  G.sync 99
  let l ← G.la
  if l ∈ [16] then
    let t ← G.tok 16
    pure [t]
  else if l ∈ [6] then
    let a ← G.tok 6
    let b ← G.call 95 shift
    let c ← G.tok 7
    pure [a, b, c]
  else if l ∈ [1, 9, 11] then
    let t ← G.call 98 numberG
    pure [t]
  else G.fail

/-- `logarithm` (2104-2138) -/
def logarithmG : G PTree := mkRule 4 do
  G.sync 91
  let l ← G.la
  if l ∈ [1, 6, 9, 11, 16] then
    let t ← G.call 86 (basicG shift)
    pure [t]
  else if l ∈ [15] then
    let a ← G.tok 15
    let b ← G.call 88 shift
    let c ← G.tok 7
    pure [a, b, c]
  else G.fail

/-- `power` (2027-2075) -/
def powerG : G PTree := mkRule 3 do
  G.sync 84
  let alt ← G.predict 9
  if alt = 1 then
    let a ← G.call 73 (logarithmG shift)
    let b ← G.call 74 integerG
    pure [a, b]
  else if alt = 2 then
    let a ← G.call 76 (logarithmG shift)
    pure [a]
  else if alt = 3 then
    let a ← G.call 77 (logarithmG shift)
    let r ← G.tok 14
    let b ← G.call 79 integerG
    pure [a, r, b]
  else if alt = 4 then
    let a ← G.call 81 (logarithmG shift)
    let b ← G.tok 13
    pure [a, b]
  else pure []

/-- `WS+` (1963-1975): at least one, then as long as the next token is one -/
def wsPlusG : Nat → G (List PTree)
  | 0 => G.stuck
  | n + 1 => do
    let t ← G.tok 18
    G.sync 65
    if (← G.la) = 18 then
      let ts ← wsPlusG n
      pure (t :: ts)
    else pure [t]

/-- the body of the loop of `product` (1886-1979): `l` is the context so far, which becomes the first child of a new one
(`pushNewRecursionContext`, `rt/Parser.py:457-471`) -/
def factorG (l : PTree) : G PTree := do
  G.sync 68
  let alt ← G.predict 7
  if alt = 1 then
    G.precpred 4
    let a ← G.call 54 (powerG shift)
    pure (.rule 2 [l, a])
  else if alt = 2 then
    G.precpred 3
    let o ← G.tok 3
    let a ← G.call 57 (powerG shift)
    pure (.rule 2 [l, o, a])
  else if alt = 3 then
    G.precpred 2
    let o ← G.tok 4
    let a ← G.call 60 (powerG shift)
    pure (.rule 2 [l, o, a])
  else if alt = 4 then
    G.precpred 1
    G.sync 63
    let ws ← G.remaining fun n => wsPlusG (n + 1)
    let a ← G.call 67 (powerG shift)
    pure (.rule 2 ([l] ++ ws ++ [a]))
  else pure l

/-- the loop of `product` (1880-1985); the first argument bounds the iterations, `alt` is the last prediction -/
def productLoopG : Nat → Nat → PTree → G PTree
  | 0, _, _ => G.stuck
  | n + 1, alt, l =>
    if alt ≠ 2 ∧ alt ≠ 0 then do
      let l ← if alt = 1 then factorG shift l else pure l
      G.sync 72
      let alt ← G.predict 8
      productLoopG n alt l
    else pure l

/-- `product(0)` (1865-1995) -/
def productG : G PTree := G.withPrec 0 do
  let a ← G.call 51 (powerG shift)
  G.sync 70
  let alt ← G.predict 8
  G.remaining fun n => productLoopG shift (n + 2) alt (.rule 2 [a])

/-- `shift_spec` (1759-1827) -/
def shiftSpecStepG : G PTree := mkRule 1 do
  G.sync 48
  let alt ← G.predict 5
  if alt = 1 then
    let a ← G.call 27 (productG shift)
    pure [a]
  else if alt = 2 then
    let a ← G.call 28 (productG shift)
    let b ← G.optTok 18 30
    let c ← G.tok 12
    let d ← G.optTok 18 34
    let e ← G.call 36 numberG
    pure ([a] ++ b ++ [c] ++ d ++ [e])
  else if alt = 3 then
    let a ← G.call 38 (productG shift)
    let b ← G.optTok 18 40
    let c ← G.tok 12
    let d ← G.optTok 18 44
    let e ← G.call 46 timestampG
    pure ([a] ++ b ++ [c] ++ d ++ [e])
  else pure []
end

/-- `shift_spec` with a bound on the nesting of brackets -/
def shiftSpecG : Nat → G PTree
  | 0 => G.stuck
  | n + 1 => shiftSpecStepG (shiftSpecG n)

/-- the condition of `unit_spec` (1706-1709): `((_la) & ~0x3F) == 0 and ((1 << _la) & 100930) != 0` -/
def startsSpec (la : Int) : Bool := decide (0 ≤ la) && decide (la < 64) && Nat.testBit 100930 la.toNat

/-- `unit_spec` (1700-1722) -/
def unitSpecG : G PTree := mkRule 0 do
  G.sync 23
  let l ← G.la
  let a ← if startsSpec l then do
      let t ← G.call 22 (G.remaining fun n => shiftSpecG (n + 1))
      pure [t]
    else pure []
  let e ← G.tok (-1)
  pure (a ++ [e])

/-- What a method of the visitor returns. -/
inductive Val where
  | none
  | node (n : Node)
  | str (s : Str)
  | list (vs : List Val)

/-- `visitTerminal` with `TERM_HANDLERS` (`_grammar/__init__.py:39-61,82-105`) -/
def visitTerm (type : Int) (c : Str) : Py Val :=
  if type = -1 then .ok .none
  else if type ∈ [25, 10, 22, 23, 5, 27] then .ok (.str c)        -- DATE E_POWER HOUR_MINUTE_SECOND HOUR_MINUTE PERIOD TIMESTAMP
  else if type ∈ [7, 3, 6, 14, 12, 18] then .ok .none             -- ) * ( ^ SHIFT_OP WS
  else if type = 4 then .ok (.str "/".toList)
  else if type = 11 then match floatNode c with
    | some n => .ok (.node n)
    | none => .error .invalidOperation
  else if type = 16 then .ok (.node (.ident c))
  else if type ∈ [9, 1] then match intNode c with
    | some n => .ok (.node n)
    | none => .error .unmodelled
  else if type = 15 then .ok (.str (logName c))
  else if type = 13 then .ok (.node (unicodeExponent c))
  else .error .keyError

/-- the loop of `visitChildren` that unwraps lists of one item (`_grammar/__init__.py:78-79`) -/
def Val.unwrap : Val → Val
  | .list [v] => v.unwrap
  | v => v

/-- the results of the children without `None` (`aggregateResult`, `_grammar/__init__.py:67-72`), unwrapped -/
def aggregate (vs : List Val) : Val :=
  (Val.list (vs.filter fun v => match v with
    | .none => false
    | _ => true)).unwrap

/-- `visitProduct` (`_grammar/__init__.py:107-123`) -/
def visitProduct : Val → Py Val
  | .list [.node a, .str ['/'], .node b] => .ok (.node (.div a b))
  | .list [.node a, .node b] => .ok (.node (.mul a b))
  | .list [_, _] => .error .unmodelled
  | .list _ => .error .assertionError
  | v => .ok v

/-- `visitPower` (`_grammar/__init__.py:131-139`) -/
def visitPower : Val → Py Val
  | .list [.node a, .node b] => .ok (.node (.raise a b))
  | .list [.node a, _, .node b] => .ok (.node (.raise a b))
  | .list _ => .error .unmodelled
  | v => .ok v

/-- `visitLogarithm` (`_grammar/__init__.py:141-150`) -/
def visitLogarithm : Val → Py Val
  | .list [.str f, .node a] => .ok (.node (.log f a))
  | .list [.str _, _] => .error .unmodelled
  | .list _ => .error .assertionError
  | v => .ok v

/-- `visitShift_spec` (`_grammar/__init__.py:152-156`) -/
def visitShift : Val → Py Val
  | .list [.node a, .node b] => .ok (.node (.shift a b))
  | .list _ => .error .typeError
  | v => .ok v

/-- `visitUnit_spec` (`_grammar/__init__.py:158-163`): a falsy result is an empty unit -/
def visitUnit : Val → Py Val
  | .list [] => .ok (.node (.unhandled []))
  | .str [] => .ok (.node (.unhandled []))
  | .none => .ok (.node (.unhandled []))
  | v => .ok v

mutual
/-- `ctx.getText()` (`rt/RuleContext.py`) -/
def PTree.text : PTree → Str
  | .term _ c => c
  | .rule _ ts => PTree.textAll ts
def PTree.textAll : List PTree → Str
  | [] => []
  | t :: ts => t.text ++ PTree.textAll ts
end

/-- the method for a rule, given the results of its children (`udunits2ParserVisitor.py`, `_grammar/__init__.py:107-163`) -/
def visitRule (idx : Nat) (vs : List Val) : Py Val :=
  match idx with
  | 0 => visitUnit (aggregate vs)
  | 1 => visitShift (aggregate vs)
  | 2 => visitProduct (aggregate vs)
  | 3 => visitPower (aggregate vs)
  | 4 => visitLogarithm (aggregate vs)
  | _ => .ok (aggregate vs)

mutual
/-- `visitor.visit(tree)`; `visitTimestamp` does not visit its children (`_grammar/__init__.py:125-129`) -/
def visit : PTree → Py Val
  | .term k c => visitTerm k c
  | .rule idx ts =>
    if idx = 8 then .ok (.node (.unhandled (PTree.textAll ts)))
    else
      match visitAll ts with
      | .error e => .error e
      | .ok vs => visitRule idx vs
def visitAll : List PTree → Py (List Val)
  | [] => .ok []
  | t :: ts =>
    match visit t with
    | .error e => .error e
    | .ok v =>
      match visitAll ts with
      | .error e => .error e
      | .ok vs => .ok (v :: vs)
end

/-- the graph a value is -/
def Val.toNode : Val → Py Node
  | .node n => .ok n
  | _ => .error .unmodelled

/-- The caches when the module is imported (`decisionsToDFA`, 1548). -/
def PCaches.empty (A : Atn) : List PDfa := A.decisions.map fun _ => ⟨[], []⟩

/-- The predictions of a parser of the generated module: decision states from the automaton, caches shared. -/
def generatedRun (A : Atn) (recover : Recover) : Run where
  atn := A
  predict dec prec stack ts :=
    match A.decisions[dec]? with
    | none => .done none
    | some p => adaptivePredictP A recover dec p prec stack ts

/-- `visitor.visit(tree)` on the result of `parser.unit_spec()` (`_grammar/__init__.py:221-232`).  `none`: a loop that does not
end. -/
def finish : GRes PTree → Option (Py Node)
  | .stuck => none
  | .syntaxError => some (.error .syntaxError)
  | .ok t _ =>
    match visit t with
    | .error e => some (.error e)
    | .ok v => some v.toNode

/-- A new parser on tokens: `parser.unit_spec()`; then `visitor.visit(tree)` (`_grammar/__init__.py:221-232`).  Simplification: the
tokens are all read before (the stream fetches them when needed). -/
def parserP (recover : Recover) (toks : Toks) : CProg (Option (Py Node)) :=
  match deserialize parserAtnData with
  | none => .done none
  | some A => (unitSpecG (generatedRun A recover) ⟨[], 0⟩ toks).bind fun r => .done (finish r)

/-- `parse(unit_str)` (`_grammar/__init__.py:215-232`) as it runs. -/
def parseP (recover : Recover) (s : Str) : CProg (Option (Py Node)) :=
  (generatedLexP (strip s)).bind fun toks =>
    match toks with
    | none => .done none
    | some toks => parserP recover toks

/-- `parse(unit_str)` with no other thread around: the result, and the caches of lexer and parser afterwards.  `none`: a loop
that does not end. -/
def generatedParse (recover : Recover) (s : Str) (lexer : Caches) (parser : List PDfa) :
    Option (Py Node × Caches × List PDfa) :=
  let r := (parseP recover s).alone ⟨lexer, parser⟩
  r.1.map fun x => (x, r.2.lexer, r.2.parser)

end Verif.PSim
