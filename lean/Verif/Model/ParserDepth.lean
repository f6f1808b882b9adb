import Verif.Model.GeneratedParser
/-!
# The visitor of a parse tree under Python's recursion limit

`visitor.visit(tree)` (`_grammar/__init__.py:230-232`) walks the tree by nested calls, and a product of `n` factors is a tree of
depth `n` (`product` is left recursive: each further factor wraps what was read so far, `Model/GeneratedParser.lean`, `factorG`).
The interpreter allows only a number of nested calls (`sys.getrecursionlimit()`, 1000 unless changed) and raises `RecursionError`
beyond it.  Here the visitor of `Model/GeneratedParser.lean` is given that number.

Frames counted, at each rule: `ctx.accept` (`udunits2Parser.py`, e.g. 1694-1698), the method `visit…`, `UnitParseVisitor.visitChildren`
(`_grammar/__init__.py:74-80`) and `ParseTreeVisitor.visitChildren` (`rt/tree/Tree.py:44-55`); at each leaf `accept`
(`rt/tree/Tree.py:122-123`) and `visitTerminal`.  Not counted: the frames of the parser's own methods and predictions before the
visitor starts, of the handler of a terminal and of `getText` of a timestamp (so the program needs at least the frames counted
here).
-/

namespace Verif.PSim

mutual
/-- `tree.accept(visitor)` with a number of frames left; otherwise as `visit` -/
def visitLim (frames : Nat) : PTree → Py Val
  | .term k c => if frames < 2 then .error .recursionError else visitTerm k c
  | .rule idx ts =>
    if idx = 8 then
      if frames < 2 then .error .recursionError else .ok (.node (.unhandled (PTree.textAll ts)))
    else if frames < 4 then .error .recursionError
    else
      match visitAllLim (frames - 4) ts with
      | .error e => .error e
      | .ok vs => visitRule idx vs
/-- the loop of `ParseTreeVisitor.visitChildren` (`rt/tree/Tree.py:44-55`) -/
def visitAllLim (frames : Nat) : List PTree → Py (List Val)
  | [] => .ok []
  | t :: ts =>
    match visitLim frames t with
    | .error e => .error e
    | .ok v =>
      match visitAllLim frames ts with
      | .error e => .error e
      | .ok vs => .ok (v :: vs)
end

/-- `visitor.visit(tree)`, itself a frame (`rt/tree/Tree.py:41-42`) -/
def visitorLim : Nat → PTree → Py Val
  | 0, _ => .error .recursionError
  | n + 1, t => visitLim n t

/-- as `finish`, with `limit` frames left for the visitor -/
def finishLim (limit : Nat) : GRes PTree → Option (Py Node)
  | .stuck => none
  | .syntaxError => some (.error .syntaxError)
  | .ok t _ =>
    match visitorLim limit t with
    | .error e => some (.error e)
    | .ok v => some v.toNode

/-- as `parserP`, with `limit` frames left for the visitor (`_grammar/__init__.py:221-232`) -/
def parserLimP (limit : Nat) (recover : Recover) (toks : Toks) : CProg (Option (Py Node)) :=
  match deserialize parserAtnData with
  | none => .done none
  | some A => (unitSpecG (generatedRun A recover) ⟨[], 0⟩ toks).bind fun r => .done (finishLim limit r)

/-- as `parseP`, with `limit` frames left for the visitor (`_grammar/__init__.py:215-232`) -/
def parseLimP (limit : Nat) (recover : Recover) (s : Str) : CProg (Option (Py Node)) :=
  (generatedLexP (strip s)).bind fun toks =>
    match toks with
    | none => .done none
    | some toks => parserLimP limit recover toks

/-- `parse(unit_str)` with no other thread around and `limit` frames left for the visitor: as `generatedParse` -/
def generatedParseLim (limit : Nat) (recover : Recover) (s : Str) (lexer : Caches) (parser : List PDfa) :
    Option (Py Node × Caches × List PDfa) :=
  let r := (parseLimP limit recover s).alone ⟨lexer, parser⟩
  r.1.map fun x => (x, r.2.lexer, r.2.parser)

end Verif.PSim
