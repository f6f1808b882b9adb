import Verif.Model.Atn
import Verif.Model.AtnData
/-!
# The lexer that runs: `LexerATNSimulator.py` on the generated automaton, driven by `Lexer.py`

`Model/Lexer.lean` models the grammar file.  This file models the program: the bundled runtime interpreting the
automaton stored in `_grammar/parser/udunits2Lexer.py`, with the cache of already computed states that all
lexers share.  (`_grammar/_antlr4_runtime` is abbreviated to `rt` in the citations.)
-/

namespace Verif

/-- `isEpsilon` of a transition (`rt/atn/Transition.py`) -/
def ATrans.isEpsilon : ATrans → Bool
  | .epsilon _ | .rule .. | .predicate .. | .action .. | .precedence .. => true
  | _ => false

/-- membership in an interval set (`rt/IntervalSet.py`) -/
def inIntervals (t : Int) (rs : List (Int × Int)) : Bool :=
  rs.any fun (lo, hi) => decide (lo ≤ t) && decide (t ≤ hi)

/-- `trans.matches(t, 0, 0x10FFFF)` and the target (`getReachableTarget`, `rt/atn/LexerATNSimulator.py:368-372`). -/
def ATrans.reachable (t : Int) : ATrans → Option Nat
  | .range q lo hi => if decide (lo ≤ t) && decide (t ≤ hi) then some q else none
  | .atom q l => if t = l then some q else none
  | .set q rs => if inIntervals t rs then some q else none
  | .notSet q rs => if decide (0 ≤ t) && decide (t ≤ 0x10FFFF) && !inIntervals t rs then some q else none
  | .wildcard q => if decide (0 ≤ t) && decide (t ≤ 0x10FFFF) then some q else none
  | _ => none

/-- `epsilonOnlyTransitions` (`rt/atn/ATNState.py:143-148`): the flag of the first transition, reset by a different one. -/
def AState.epsilonOnly (s : AState) : Bool :=
  match s.trans with
  | [] => false
  | t :: ts => t.isEpsilon && ts.all (·.isEpsilon)

/-- `RuleStopState` -/
def AState.isRuleStop (s : AState) : Bool := s.type == 7

/-- `LexerATNConfig` (`rt/atn/ATNConfig.py:137-212`): state, alternative, stack of return states, the actions collected
(`lexerActionExecutor`), `passedThroughNonGreedyDecision`.  Stacks are never merged in a lexer: a configuration is only
identified with an equal one (`equalsForConfigSet`). -/
structure LConfig where
  state : Nat
  alt : Nat
  ctx : List Nat
  acts : List LAction
  nonGreedy : Bool
  deriving DecidableEq, Repr

/-- `OrderedATNConfigSet.add` (`rt/atn/ATNConfigSet.py:85-124`) -/
def addConfig (c : LConfig) (cs : List LConfig) : List LConfig :=
  if c ∈ cs then cs else cs ++ [c]

/-- `LexerATNConfig(state=q, config=c, …)`: `checkNonGreedyDecision` (`rt/atn/ATNConfig.py:207-212`); only decision states
carry `nonGreedy`. -/
def LConfig.moveTo (A : Atn) (c : LConfig) (q : Nat) : LConfig :=
  { c with state := q, nonGreedy := c.nonGreedy || (match A.states[q]? with | some s => s.nonGreedy | none => false) }

/-- `getEpsilonTarget` (`rt/atn/LexerATNSimulator.py:478-569`), `treatEofAsEpsilon` being false: EOF never leads
anywhere, see `LexSim.target`.  `none`: an exception; `some none`: no target.  Predicates are not modelled (an exception). -/
def epsilonTarget (A : Atn) (c : LConfig) : ATrans → Option (Option LConfig)
  | .rule q _ _ follow => some (some ({ c with ctx := follow :: c.ctx }.moveTo A q))
  | .precedence .. => none
  | .predicate .. => none
  | .action q _ i =>
    if c.ctx = [] then
      match A.actions[i.toNat]? with
      | none => none
      | some a => some (some ({ c with acts := c.acts ++ [a] }.moveTo A q))
    else some (some (c.moveTo A q))
  | .epsilon q => some (some (c.moveTo A q))
  | _ => some none

/-- one step of `for t in config.state.transitions` in `closure`, `rec` being the recursive call -/
def closureEdges (A : Atn) (rec : LConfig → List LConfig → Bool → Option (List LConfig × Bool)) (c : LConfig) :
    List ATrans → List LConfig → Bool → Option (List LConfig × Bool)
  | [], cs, cur => some (cs, cur)
  | t :: ts, cs, cur =>
    match epsilonTarget A c t with
    | none => none
    | some none => closureEdges A rec c ts cs cur
    | some (some c') =>
      match rec c' cs cur with
      | none => none
      | some (cs, cur) => closureEdges A rec c ts cs cur

/-- `closure` (`rt/atn/LexerATNSimulator.py:391-475`), with the recursion depth bounded by the first argument; returns the
set and `currentAltReachedAcceptState`. -/
def closure (A : Atn) : Nat → LConfig → List LConfig → Bool → Option (List LConfig × Bool)
  | 0, _, _, _ => none
  | n + 1, c, cs, cur =>
    match A.states[c.state]? with
    | none => none
    | some st =>
      if st.isRuleStop then
        match c.ctx with
        | [] => some (addConfig c cs, true)
        | ret :: parent => closure A n ({ c with ctx := parent }.moveTo A ret) cs cur
      else
        closureEdges A (closure A n) c st.trans
          (if !st.epsilonOnly && (!cur || !c.nonGreedy) then addConfig c cs else cs) cur

/-- Bound on the recursion depth of `closure`: far below Python's limit, and enough for the automaton (C66). -/
def closureDepth : Nat := 64

/-- `computeStartState` (`rt/atn/LexerATNSimulator.py:374-381`): the transitions still to do, numbered from `i`. -/
def startConfigs (A : Atn) : Nat → List ATrans → List LConfig → Option (List LConfig)
  | _, [], cs => some cs
  | i, .epsilon q :: ts, cs =>
    match closure A closureDepth ⟨q, i + 1, [], [], false⟩ cs false with
    | none => none
    | some (cs, _) => startConfigs A (i + 1) ts cs
  | _, _ :: _, _ => none

/-- `computeStartState(modeToStartState[mode])` -/
def startState (A : Atn) (mode : Nat) : Option (List LConfig) :=
  match A.modes[mode]? with
  | none => none
  | some q =>
    match A.states[q]? with
    | none => none
    | some st => startConfigs A 0 st.trans []

/-- the inner loop of `getReachableConfigSet` (`rt/atn/LexerATNSimulator.py:321-346`) over the transitions of `cfg` -/
def reachEdges (A : Atn) (t : Int) (cfg : LConfig) (cur : Bool) :
    List ATrans → List LConfig → Nat → Option (List LConfig × Nat)
  | [], reach, skip => some (reach, skip)
  | tr :: trs, reach, skip =>
    match tr.reachable t with
    | none => reachEdges A t cfg cur trs reach skip
    | some q =>
      match closure A closureDepth (cfg.moveTo A q) reach cur with
      | none => none
      | some (reach, true) => reachEdges A t cfg cur trs reach cfg.alt
      | some (reach, false) => reachEdges A t cfg cur trs reach skip

/-- `getReachableConfigSet` (`rt/atn/LexerATNSimulator.py:303-346`); `skip` is `skipAlt` (0 = INVALID_ALT_NUMBER). -/
def reachConfigs (A : Atn) (t : Int) : List LConfig → List LConfig → Nat → Option (List LConfig)
  | [], reach, _ => some reach
  | cfg :: cfgs, reach, skip =>
    if cfg.alt == skip && cfg.nonGreedy then reachConfigs A t cfgs reach skip
    else
      match A.states[cfg.state]? with
      | none => none
      | some st =>
        match reachEdges A t cfg (cfg.alt == skip) st.trans reach skip with
        | none => none
        | some (reach, skip) => reachConfigs A t cfgs reach skip

/-- `computeTargetState` (`rt/atn/LexerATNSimulator.py:257-274`): `some none` is the ERROR state. -/
def computeTarget (A : Atn) (s : List LConfig) (t : Int) : Option (Option (List LConfig)) :=
  match reachConfigs A t s [] 0 with
  | none => none
  | some [] => some none
  | some (c :: cs) => some (some (c :: cs))

/-- `addDFAState` (`rt/atn/LexerATNSimulator.py:668-695`): the first configuration in a rule stop state gives the
prediction (`ruleToTokenType[state.ruleIndex]`) and the actions. -/
def acceptOf (A : Atn) : List LConfig → Option (Int × List LAction)
  | [] => none
  | c :: cs =>
    match A.states[c.state]? with
    | none => acceptOf A cs
    | some st =>
      if st.isRuleStop then
        match A.rules[st.rule.toNat]? with
        | none => none
        | some (_, ttype) => some (ttype, c.acts)
      else acceptOf A cs

/-- The cached DFA of one mode (`rt/dfa/DFA.py`, `decisionsToDFA`, shared by all lexers): start state and edges.  A DFA state
is identified by its configurations (`rt/dfa/DFAState.py`, `__eq__`). -/
structure Dfa where
  s0 : Option (List LConfig)
  edges : List ((List LConfig × Int) × Option (List LConfig))
  deriving DecidableEq, Repr

/-- The target on a symbol: `getExistingTargetState` or else `computeTargetState`, which records the edge when the symbol is
at most 127 (`rt/atn/LexerATNSimulator.py:205-208,232-274,621-662`). -/
def nextState (A : Atn) (d : Dfa) (s : List LConfig) (t : Int) : Option (Option (List LConfig) × Dfa) :=
  if decide (0 ≤ t) && decide (t ≤ 127) then
    match Dict.get (s, t) d.edges with
    | some r => some (r, d)
    | none =>
      match computeTarget A s t with
      | none => none
      | some r => some (r, { d with edges := Dict.set (s, t) r d.edges })
  else
    match computeTarget A s t with
    | none => none
    | some r => some (r, d)

/-- Outcome of `match`: the type predicted, the actions and the length of the text accepted; the end of the input; or
`LexerNoViableAltException`. -/
inductive MatchResult where
  | token (ttype : Int) (acts : List LAction) (len : Nat)
  | eof
  | noViableAlt
  deriving DecidableEq, Repr

/-- `failOrAccept` (`rt/atn/LexerATNSimulator.py:276-299`); `atEof`: the symbol is EOF and nothing has been consumed. -/
def failOrAccept (prev : Option (Int × List LAction × Nat)) (atEof : Bool) : MatchResult :=
  match prev with
  | some (k, acts, n) => .token k acts n
  | none => if atEof then .eof else .noViableAlt

/-- `captureSimState` if the state accepts (`rt/atn/LexerATNSimulator.py:219-220,613-619`) -/
def capture (A : Atn) (s : List LConfig) (n : Nat) (prev : Option (Int × List LAction × Nat)) :
    Option (Int × List LAction × Nat) :=
  match acceptOf A s with
  | some (k, acts) => some (k, acts, n)
  | none => prev

/-- The loop of `execATN` (`rt/atn/LexerATNSimulator.py:163-225`); `n` characters are consumed.  A transition on EOF (there
are none, C66) is not modelled. -/
def execLoop (A : Atn) : Str → List LConfig → Nat → Option (Int × List LAction × Nat) → Dfa →
    Option (MatchResult × Dfa)
  | [], s, n, prev, d =>
    match nextState A d s (-1) with
    | none => none
    | some (some _, _) => none
    | some (none, d) => some (failOrAccept prev (n == 0), d)
  | c :: cs, s, n, prev, d =>
    match nextState A d s c.toNat with
    | none => none
    | some (none, d) => some (failOrAccept prev false, d)
    | some (some s', d) => execLoop A cs s' (n + 1) (capture A s' (n + 1) prev) d

/-- `match` / `matchATN` (`rt/atn/LexerATNSimulator.py:117-161`). -/
def simMatch (A : Atn) (mode : Nat) (text : Str) (d : Dfa) : Option (MatchResult × Dfa) :=
  match d.s0 with
  | some s0 => execLoop A text s0 0 (capture A s0 0 none) d
  | none =>
    match startState A mode with
    | none => none
    | some s0 => execLoop A text s0 0 (capture A s0 0 none) { d with s0 := some s0 }

/-- `_type`, `_mode`, `_modeStack` of a lexer (`rt/Lexer.py:87-105`) -/
structure LexMode where
  type : Int
  mode : Nat
  stack : List Nat
  deriving DecidableEq, Repr

/-- `LexerAction.execute` (`rt/atn/LexerAction.py`) for mode (2), popMode (4), pushMode (5) and type (7); the other actions do
not occur and are not modelled. -/
def LAction.execute (a : LAction) (m : LexMode) : Option LexMode :=
  match a.type with
  | 2 => some { m with mode := a.data1.toNat }
  | 4 => match m.stack with
    | [] => none
    | p :: st => some { m with mode := p, stack := st }
  | 5 => some { m with mode := a.data1.toNat, stack := m.mode :: m.stack }
  | 7 => some { m with type := a.data1 }
  | _ => none

/-- `LexerActionExecutor.execute` (`rt/atn/LexerActionExecutor.py:107-125`) -/
def executeAll : List LAction → LexMode → Option LexMode
  | [], m => some m
  | a :: as, m =>
    match a.execute m with
    | none => none
    | some m => executeAll as m

/-- The DFA caches of the three modes (`decisionsToDFA`, class attribute of the generated lexer, `udunits2Lexer.py:5533`; the
first three decisions are the modes). -/
abbrev Caches := List Dfa

/-- `nextToken` until EOF (`rt/Lexer.py:127-175`, `getAllTokens`): token types and texts.  The first argument bounds the number
of tokens.  `none`: an exception, or something not modelled. -/
def simTokens (A : Atn) : Nat → LexMode → Str → Caches → Option (List (Int × Str) × Caches)
  | 0, _, _, _ => none
  | fuel + 1, m, text, caches =>
    match caches[m.mode]? with
    | none => none
    | some d =>
      match simMatch A m.mode text d with
      | none => none
      | some (.noViableAlt, _) => none
      | some (.eof, d) => some ([], caches.set m.mode d)
      | some (.token k acts n, d) =>
        match executeAll acts { m with type := 0 } with
        | none => none
        | some m' =>
          let type := if m'.type = 0 then k else m'.type
          if type ≤ 0 then none        -- SKIP, MORE and EOF are not modelled here
          else if text.drop n = [] then some ([(type, text.take n)], caches.set m.mode d)   -- `_hitEOF`
          else
            match simTokens A fuel m' (text.drop n) (caches.set m.mode d) with
            | none => none
            | some (ts, caches) => some ((type, text.take n) :: ts, caches)

/-- The caches when the module is imported: no state computed (`decisionsToDFA = [DFA(ds, i) for …]`). -/
def Caches.empty : Caches := [⟨none, []⟩, ⟨none, []⟩, ⟨none, []⟩]

/-- A new lexer on a text (`rt/Lexer.py:60-105`), with the automaton `atn = ATNDeserializer().deserialize(serializedATN())`
of the generated module, run to the end. -/
def generatedLex (text : Str) (caches : Caches) : Option (List (Int × Str) × Caches) :=
  match deserialize lexerAtnData with
  | none => none
  | some A => simTokens A (text.length + 1) ⟨0, 0, []⟩ text caches

end Verif
