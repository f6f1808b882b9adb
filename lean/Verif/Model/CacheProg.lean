import Verif.Model.ParserSim
/-!
# Lexing and predicting as sequences of accesses to the shared caches

`Model/LexerSim.lean` and `Model/ParserSim.lean` give a search for a token and a prediction as functions from caches to
caches.  Here the same code is written as *programs*: trees of the single accesses it makes to the objects that all lexers and
parsers of a process share (the start states and edges of the cached DFAs; `decisionsToDFA`, class attributes of the generated
lexer and parser).  Everything else (input, mode, configurations being computed) belongs to one call.

Simplification: a DFA state is identified by its configurations.  Two threads that compute the same state at once hold two
equal objects, and an edge stored on one is not seen on the other; an array of edges created twice loses the edges of the first
(`rt/atn/ParserATNSimulator.py:1946-1948`).  Both are covered by reads that do not see a write (`Model/ParseThreads.lean`).
(`_grammar/_antlr4_runtime` is abbreviated to `rt` in the citations.)
-/

namespace Verif.PSim

/-- A place in the shared caches. -/
inductive Key where
  /-- `decisionToDFA[mode].s0` of the lexer (`rt/atn/LexerATNSimulator.py:126-131,148-159`) -/
  | lexStart (mode : Nat)
  /-- `s.edges[t]` of a state of the lexer (`rt/atn/LexerATNSimulator.py:232-248,621-662`) -/
  | lexEdge (mode : Nat) (s : List LConfig) (t : Int)
  /-- `dfa.s0`, or `dfa.s0.edges[precedence]` of a precedence DFA (`rt/atn/ParserATNSimulator.py:351-393`,
  `rt/dfa/DFA.py:47-87`) -/
  | start (decision : Nat) (prec : Int)
  /-- `D.edges[t + 1]` (`rt/atn/ParserATNSimulator.py:557-562,1928-1954`) -/
  | edge (decision : Nat) (s : List PConfig) (t : Int)
  deriving DecidableEq

/-- what is stored there -/
def Key.Val : Key → Type
  | .lexStart _ => List LConfig
  | .lexEdge _ _ _ => Option (List LConfig)
  | .start _ _ => List PConfig
  | .edge _ _ _ => Option PState

/-- A program: finished, or about to read or to write one place.  A place never written reads as `none`. -/
inductive CProg (α : Type) where
  | done (a : α)
  | read (k : Key) (c : Option k.Val → CProg α)
  | write (k : Key) (v : k.Val) (c : CProg α)

/-- run `p`, then `f` on its result -/
def CProg.bind {α β : Type} : CProg α → (α → CProg β) → CProg β
  | .done a, f => f a
  | .read k c, f => .read k fun v => (c v).bind f
  | .write k v c, f => .write k v (c.bind f)

/-- read a place; if nothing is seen compute the value and write it (`getExistingTargetState`, then `computeTargetState` and
`addDFAEdge`) -/
def CProg.memo (k : Key) (v : k.Val) : CProg k.Val :=
  .read k fun r =>
    match r with
    | some x => .done x
    | none => .write k v (.done v)

/-- `LexerATNSimulator`: the target on a symbol (`rt/atn/LexerATNSimulator.py:205-208,232-274,621-662`); as `Verif.nextState` -/
def lexNextP (A : Atn) (mode : Nat) (s : List LConfig) (t : Int) : CProg (Option (Option (List LConfig))) :=
  if decide (0 ≤ t) && decide (t ≤ 127) then
    .read (.lexEdge mode s t) fun r =>
      match (r : Option (Option (List LConfig))) with
      | some x => .done (some x)
      | none =>
        match Verif.computeTarget A s t with
        | none => .done none
        | some x => .write (.lexEdge mode s t) x (.done (some x))
  else .done (Verif.computeTarget A s t)

/-- the loop of `execATN` (`rt/atn/LexerATNSimulator.py:163-225`); as `execLoop` -/
def execLoopP (A : Atn) (mode : Nat) : Str → List LConfig → Nat → Option (Int × List LAction × Nat) → CProg (Option MatchResult)
  | [], s, n, prev =>
    (lexNextP A mode s (-1)).bind fun r =>
      match r with
      | none => .done none
      | some (some _) => .done none
      | some none => .done (some (failOrAccept prev (n == 0)))
  | c :: cs, s, n, prev =>
    (lexNextP A mode s c.toNat).bind fun r =>
      match r with
      | none => .done none
      | some none => .done (some (failOrAccept prev false))
      | some (some s') => execLoopP A mode cs s' (n + 1) (capture A s' (n + 1) prev)

/-- `match` / `matchATN` (`rt/atn/LexerATNSimulator.py:117-161`); as `simMatch` -/
def simMatchP (A : Atn) (mode : Nat) (text : Str) : CProg (Option MatchResult) :=
  .read (.lexStart mode) fun r =>
    match (r : Option (List LConfig)) with
    | some s0 => execLoopP A mode text s0 0 (capture A s0 0 none)
    | none =>
      match startState A mode with
      | none => .done none
      | some s0 => .write (.lexStart mode) s0 (execLoopP A mode text s0 0 (capture A s0 0 none))

/-- `nextToken` until EOF (`rt/Lexer.py:127-175`); as `simTokens` -/
def simTokensP (A : Atn) : Nat → LexMode → Str → CProg (Option (List (Int × Str)))
  | 0, _, _ => .done none
  | fuel + 1, m, text =>
    (simMatchP A m.mode text).bind fun r =>
      match r with
      | none => .done none
      | some .noViableAlt => .done none
      | some .eof => .done (some [])
      | some (.token k acts n) =>
        match executeAll acts { m with type := 0 } with
        | none => .done none
        | some m' =>
          let type := if m'.type = 0 then k else m'.type
          if type ≤ 0 then .done none
          else if text.drop n = [] then .done (some [(type, text.take n)])
          else
            (simTokensP A fuel m' (text.drop n)).bind fun ts =>
              match ts with
              | none => .done none
              | some ts => .done (some ((type, text.take n) :: ts))

/-- a new lexer on a text, run to the end; as `generatedLex` -/
def generatedLexP (text : Str) : CProg (Option (List (Int × Str))) :=
  match deserialize lexerAtnData with
  | none => .done none
  | some A => simTokensP A (text.length + 1) ⟨0, 0, []⟩ text

/-- the target of a state of the parser's DFA on a token (`rt/atn/ParserATNSimulator.py:557-635,1928-1988`); as `nextState` -/
def nextStateP (E : PEnv) (n dec : Nat) (cs : List PConfig) (t : Int) : CProg (Option PState) :=
  if decide (-1 ≤ t) && decide (t ≤ E.atn.maxTokenType) then CProg.memo (.edge dec cs t) (computeTarget E n cs t)
  else .done (computeTarget E n cs t)

/-- `execATN` (`rt/atn/ParserATNSimulator.py:433-531`); as `execSll` -/
def execSllP (E : PEnv) (n dec : Nat) (rec : Recover) (full : Unit → Prediction) : List Int → List PConfig → CProg Prediction
  | [], cs =>
    (nextStateP E n dec cs (-1)).bind fun D =>
      match D with
      | none => .done (some (recoverAlt rec cs))
      | some D =>
        match decideState E full D with
        | .inl r => .done r
        | .inr _ => .done none
  | t :: ts, cs =>
    (nextStateP E n dec cs t).bind fun D =>
      match D with
      | none => .done (some (recoverAlt rec cs))
      | some D =>
        match decideState E full D with
        | .inl r => .done r
        | .inr _ => execSllP E n dec rec full ts D.configs

/-- `adaptivePredict` (`rt/atn/ParserATNSimulator.py:321-402`) for decision `dec`, made in state `p`; as `adaptivePredict` -/
def adaptivePredictP (A : Atn) (rec : Recover) (dec p : Nat) (prec : Int) (stack : List Nat) (ts : List Int) :
    CProg Prediction :=
  match A.states[p]? with
  | none => .done none
  | some st =>
    let isPrec := isPrecDecision A st
    let E : PEnv := ⟨A, false, false, if isPrec then some st.rule else none, prec⟩
    let F : PEnv := ⟨A, true, false, if isPrec then some st.rule else none, prec⟩
    let n := st.trans.length
    let key := if isPrec then prec else 0
    let full := fun _ => execFull F rec ts (startConfigs F st (ctxOf A stack))
    let s0 := if isPrec then precedenceFilter E (startConfigs E st .dollar) else startConfigs E st .dollar
    (CProg.memo (.start dec key) s0).bind fun s0 => execSllP E n dec rec full ts s0

/-- The caches of lexer and parser (`decisionsToDFA` of both). -/
structure Mem where
  lexer : Caches
  parser : List PDfa

/-- what is stored at a place -/
def Mem.get (M : Mem) : (k : Key) → Option k.Val
  | .lexStart m => (M.lexer[m]?).bind (·.s0)
  | .lexEdge m s t => (M.lexer[m]?).bind fun d => Dict.get (s, t) d.edges
  | .start dec p => (M.parser[dec]?).bind fun d => Dict.get p d.starts
  | .edge dec s t => (M.parser[dec]?).bind fun d => Dict.get (s, t) d.edges

/-- storing at a place -/
def Mem.set (M : Mem) : (k : Key) → k.Val → Mem
  | .lexStart m, v => { M with lexer := M.lexer.modify m fun d => { d with s0 := some v } }
  | .lexEdge m s t, v => { M with lexer := M.lexer.modify m fun d => { d with edges := Dict.set (s, t) v d.edges } }
  | .start dec p, v => { M with parser := M.parser.modify dec fun d => { d with starts := Dict.set p v d.starts } }
  | .edge dec s t, v => { M with parser := M.parser.modify dec fun d => { d with edges := Dict.set (s, t) v d.edges } }

/-- a program run with no other thread around: every read sees the last write -/
def CProg.alone {α : Type} : CProg α → Mem → α × Mem
  | .done a, M => (a, M)
  | .read k c, M => (c (M.get k)).alone M
  | .write k v c, M => c.alone (M.set k v)

end Verif.PSim
