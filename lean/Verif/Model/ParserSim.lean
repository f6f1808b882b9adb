import Verif.Model.LexerSim
/-!
# The predictor that runs: `ParserATNSimulator.py` on the generated automaton

`Model/Parser.lean` models the grammar file.  This file models how the bundled runtime chooses an alternative of a
decision of the parser (`adaptivePredict`): graphs of call stacks, closures, the cached SLL automaton, predicates,
and the fall-back to full context.  (`_grammar/_antlr4_runtime` is abbreviated to `rt` in the citations.)

Simplifications:
* `closureBusy` and `mergeCache` are not modelled.  Both only avoid repeating work: no rule of this grammar can be left and
  entered again without consuming a token, and merging is a function of the two contexts.  (`mergeCache` does not record
  `rootIsWildcard`; the SLL and the LL stage only disagree on merging the empty context with another one, which the LL
  stage never does: a full stack is empty exactly in the start rule.)
* `getConflictingAltSubsets` groups by `hash((state, context))`; here by state and context (no hash collisions).
* `reachesIntoOuterContext` is not modelled; it is read only after an error, to choose the alternative to continue with
  (`getSynValidOrSemInvalidAltThatFinishedDecisionEntryRule`).  That choice is a parameter (`Recover`).
* Predicates other than precedence predicates, which the grammar does not have, are not modelled.
-/

namespace Verif.PSim

/-- `PredictionContext` (`rt/PredictionContext.py:21-237`): a graph of stacks as a list of entries (return state, parent),
sorted by return state; `dollar` is the entry EMPTY_RETURN_STATE, which is the last one if it is present. -/
inductive PCtx where
  | nil
  | dollar
  | cons (ret : Nat) (parent rest : PCtx)
  deriving DecidableEq, Repr

/-- a bound on the recursion of `merge` -/
def PCtx.size : PCtx → Nat
  | .nil => 1
  | .dollar => 1
  | .cons _ p r => p.size + r.size + 1

mutual
/-- `merge` (`rt/PredictionContext.py:260-316`, with `mergeSingletons` 318-420 and `mergeRoot` 422-465).  The first argument
is `rootIsWildcard`, the second bounds the recursion. -/
def mergeRoot (wild : Bool) : Nat → PCtx → PCtx → PCtx
  | 0, a, _ => a
  | n + 1, a, b =>
    if a = b then a
    else if wild && (a == .dollar || b == .dollar) then .dollar
    else mergeEntries wild n a b
/-- `mergeArrays` (`rt/PredictionContext.py:467-567`) -/
def mergeEntries (wild : Bool) : Nat → PCtx → PCtx → PCtx
  | 0, a, _ => a
  | n + 1, a, b =>
    match a, b with
    | .nil, b => b
    | a, .nil => a
    | .dollar, .dollar => .dollar
    | .dollar, .cons r p rest => .cons r p (mergeEntries wild n .dollar rest)
    | .cons r p rest, .dollar => .cons r p (mergeEntries wild n rest .dollar)
    | .cons r p rest, .cons r' p' rest' =>
      if r = r' then .cons r (mergeRoot wild n p p') (mergeEntries wild n rest rest')
      else if r < r' then .cons r p (mergeEntries wild n rest (.cons r' p' rest'))
      else .cons r' p' (mergeEntries wild n (.cons r p rest) rest')
end

/-- `merge(a, b, rootIsWildcard, mergeCache)` -/
def mergeCtx (wild : Bool) (a b : PCtx) : PCtx := mergeRoot wild (2 * (a.size + b.size)) a b

/-- `ATNConfig` (`rt/atn/ATNConfig.py:23-75`).  `sem`: `SemanticContext.NONE` or a precedence predicate. -/
structure PConfig where
  state : Nat
  alt : Nat
  ctx : PCtx
  sem : Option Int
  suppressed : Bool
  deriving DecidableEq, Repr

/-- `ATNConfigSet.add` (`rt/atn/ATNConfigSet.py:85-124`; `equalsForConfigSet`, `rt/atn/ATNConfig.py:110-121`) -/
def addConfig (full : Bool) (c : PConfig) : List PConfig → List PConfig
  | [] => [c]
  | d :: ds =>
    if d.state = c.state ∧ d.alt = c.alt ∧ d.sem = c.sem then
      { d with ctx := mergeCtx (!full) d.ctx c.ctx, suppressed := d.suppressed || c.suppressed } :: ds
    else d :: addConfig full c ds

/-- `andContext` (`rt/atn/SemanticContext.py:66-76,183-198`): of precedence predicates the lowest remains -/
def andSem : Option Int → Option Int → Option Int
  | none, b => b
  | a, none => a
  | some a, some b => some (min a b)

/-- `orContext` (`rt/atn/SemanticContext.py:82-94,272-288`): of precedence predicates the highest remains -/
def orSem : Option Int → Option Int → Option Int
  | some a, some b => some (max a b)
  | _, _ => none

/-- `PrecedencePredicate.eval` (`rt/atn/SemanticContext.py:148-149`; `precpred`, `rt/Parser.py:500-501`), NONE being true -/
def semTrue (prec : Int) : Option Int → Bool
  | none => true
  | some p => decide (prec ≤ p)

/-- the `ruleIndex` of a state -/
def ruleOf (A : Atn) (p : Nat) : Int :=
  match A.states[p]? with
  | some st => st.rule
  | none => -1

/-- a rule whose left recursion was rewritten (`isPrecedenceRule` of its start state) -/
def isPrecRule (A : Atn) (r : Int) : Bool :=
  A.states.any fun st => st.rule == r && st.precRule

/-- The transitions of the stop state of a rule (`rt/atn/ATNDeserializer.py:157-168`): one to every state that follows a call of
the rule, with `outermostPrecedenceReturn` (-1: none). -/
def followEdges (A : Atn) (r : Int) : List (ATrans × Int) :=
  A.states.flatMap fun st => st.trans.flatMap fun t =>
    match t with
    | .rule q _ prec f =>
      if ruleOf A q = r then [(.epsilon f, if isPrecRule A r && prec == 0 then r else -1)] else []
    | _ => []

/-- the transitions of a state -/
def edgesOf (A : Atn) (st : AState) : List (ATrans × Int) :=
  if st.isRuleStop then followEdges A st.rule else st.trans.map fun t => (t, -1)

/-- What a prediction is about (`_dfa`, `parser.getPrecedence()`): the automaton, full context or not, whether EOF has been
consumed, the rule of the decision if its DFA is a precedence DFA, and the precedence of the parser. -/
structure PEnv where
  atn : Atn
  full : Bool
  eofEps : Bool
  precRule : Option Int
  prec : Int

/-- `isPrecedenceDecision` (`markPrecedenceDecisions`, `rt/atn/ATNDeserializer.py:280-300`): the loop of a rewritten rule, whose
exit leads to the end of the rule -/
def isPrecDecision (A : Atn) (st : AState) : Bool :=
  st.type == 10 && isPrecRule A st.rule &&
    match st.trans.getLast? with
    | some (.epsilon q) =>
      match A.states[q]? with
      | some e => e.type == 12 && e.epsilonOnly &&
        match e.trans with
        | .epsilon q' :: _ => match A.states[q']? with
          | some s => s.isRuleStop
          | none => false
        | _ => false
      | none => false
    | _ => false

/-- the return states of a context; `hasEmptyPath` -/
def PCtx.rets : PCtx → List Nat
  | .cons r _ rest => r :: rest.rets
  | _ => []
def PCtx.hasEmptyPath : PCtx → Bool
  | .nil => false
  | .dollar => true
  | .cons _ _ rest => rest.hasEmptyPath

/-- one return state of the second loop of `canDropLoopEntryEdgeInLeftRecursiveRule`
(`rt/atn/ParserATNSimulator.py:1534-1572`); `p` is the loop entry -/
def dropsAt (A : Atn) (p blockEnd : Nat) (r : Nat) : Bool :=
  match A.states[r]? with
  | none => false
  | some rs =>
    match rs.trans with
    | [.epsilon tgt] =>
      (rs.type == 8 && tgt == p) || r == blockEnd || tgt == blockEnd ||
      (match A.states[tgt]? with
       | some ts => ts.type == 8 && ts.trans == [.epsilon p]
       | none => false)
    | _ => false

/-- `canDropLoopEntryEdgeInLeftRecursiveRule` (`rt/atn/ParserATNSimulator.py:1504-1573`) -/
def canDrop (A : Atn) (c : PConfig) (st : AState) : Bool :=
  if st.type == 10 && isPrecDecision A st && !(c.ctx == .dollar) && !c.ctx.hasEmptyPath then
    c.ctx.rets.all (fun r => ruleOf A r == st.rule) &&
      (match st.trans with
       | .epsilon q :: _ =>
         match A.states[q]? with
         | some ds => c.ctx.rets.all (dropsAt A c.state ds.extra.toNat)
         | none => false
       | _ => false)
  else false

/-- `getEpsilonTarget` (`rt/atn/ParserATNSimulator.py:1580-1800`) -/
def epsTarget (E : PEnv) (c : PConfig) (collect inContext : Bool) : ATrans → Option PConfig
  | .epsilon q => some { c with state := q }
  | .action q _ _ => some { c with state := q }
  | .rule q _ _ f => some { c with state := q, ctx := .cons f c.ctx .nil }
  | .precedence q p =>
    if collect && inContext then
      if E.full then (if E.prec ≤ p then some { c with state := q } else none)
      else some { c with state := q, sem := andSem c.sem (some p) }
    else some { c with state := q }
  | .atom q l => if E.eofEps && (ATrans.atom q l).reachable (-1) == some q then some { c with state := q } else none
  | .range q a b => if E.eofEps && (ATrans.range q a b).reachable (-1) == some q then some { c with state := q } else none
  | .set q rs => if E.eofEps && (ATrans.set q rs).reachable (-1) == some q then some { c with state := q } else none
  | _ => none

/-- a step of `closure`: add a configuration to the set, or visit one (with `collectPredicates` and `depth`) -/
inductive Act where
  | add (c : PConfig)
  | go (c : PConfig) (collect : Bool) (depth : Int)

def ATrans.isRule : ATrans → Bool
  | .rule .. => true
  | _ => false

def ATrans.isAction : ATrans → Bool
  | .action .. => true
  | _ => false

/-- the loop of `closure_` over the transitions (`rt/atn/ParserATNSimulator.py:1347-1414`) -/
def edgeActs (E : PEnv) (c : PConfig) (stop collect : Bool) (depth : Int) (edges : List (ATrans × Int)) : List Act :=
  edges.flatMap fun (t, opr) =>
    match epsTarget E c (collect && !ATrans.isAction t) (depth == 0) t with
    | none => []
    | some c' =>
      if stop then
        [.go { c' with suppressed := c'.suppressed || E.precRule == some opr } (collect && !ATrans.isAction t) (depth - 1)]
      else
        [.go c' (collect && !ATrans.isAction t) (if ATrans.isRule t && decide (0 ≤ depth) then depth + 1 else depth)]

/-- `epsilonOnlyTransitions` (`rt/atn/ATNState.py:143-148`) -/
def epsOnly (edges : List (ATrans × Int)) : Bool :=
  !edges.isEmpty && edges.all fun (t, _) => t.isEpsilon

/-- `closure_` (`rt/atn/ParserATNSimulator.py:1328-1414`) -/
def stepActs (E : PEnv) (c : PConfig) (st : AState) (collect : Bool) (depth : Int) : List Act :=
  (if epsOnly (edgesOf E.atn st) then [] else [.add c]) ++
    edgeActs E c st.isRuleStop collect depth
      (if canDrop E.atn c st then (edgesOf E.atn st).drop 1 else edgesOf E.atn st)

/-- the loop over the stacks of a configuration at the end of a rule (`rt/atn/ParserATNSimulator.py:1262-1313`) -/
def popActs (E : PEnv) (c : PConfig) (st : AState) (collect : Bool) (depth : Int) : PCtx → List Act
  | .nil => []
  | .dollar => if E.full then [.add { c with ctx := .dollar }] else stepActs E c st collect depth
  | .cons r p rest => .go ⟨r, c.alt, p, c.sem, false⟩ collect (depth - 1) :: popActs E c st collect depth rest

/-- `closureCheckingStopState` (`rt/atn/ParserATNSimulator.py:1246-1326`).  The popped configurations do not keep
`precedenceFilterSuppressed` (1293-1298). -/
def acts (E : PEnv) (c : PConfig) (collect : Bool) (depth : Int) : List Act :=
  match E.atn.states[c.state]? with
  | none => []
  | some st => if st.isRuleStop then popActs E c st collect depth c.ctx else stepActs E c st collect depth

/-- `closure` (`rt/atn/ParserATNSimulator.py:1224-1414`).  The first argument bounds the recursion. -/
def closure (E : PEnv) : Nat → PConfig → Bool → Int → List PConfig → List PConfig
  | 0, _, _, _, acc => acc
  | n + 1, c, collect, depth, acc =>
    (acts E c collect depth).foldl (fun acc a =>
      match a with
      | .add c => addConfig E.full c acc
      | .go c col d => closure E n c col d acc) acc

/-- enough for every closure: no path visits a state twice -/
def closureFuel (A : Atn) : Nat := A.states.length + 1

/-- the targets of a decision with the numbers of the alternatives -/
def altTargets (st : AState) : List (Nat × Nat) :=
  st.trans.zipIdx.filterMap fun (t, i) =>
    match t with
    | .epsilon q => some (q, i + 1)
    | _ => none

/-- `computeStartState` (`rt/atn/ParserATNSimulator.py:921-934`) -/
def startConfigs (E : PEnv) (st : AState) (ctx : PCtx) : List PConfig :=
  (altTargets st).foldl (fun acc (q, i) => closure E (closureFuel E.atn) ⟨q, i, ctx, none, false⟩ true 0 acc) []

/-- `evalPrecedence` (`rt/atn/SemanticContext.py:61-62,151-155`): `none` if the predicate is false -/
def evalPrecedence (prec : Int) (s : Option Int) : Option (Option Int) :=
  if semTrue prec s then some none else none

/-- `statesFromAlt1` (`rt/atn/ParserATNSimulator.py:990-1003`): a later context replaces an earlier one -/
def statesFromAlt1 (prec : Int) (cs : List PConfig) : Dict Nat PCtx :=
  cs.foldl (fun m c => if c.alt = 1 && (evalPrecedence prec c.sem).isSome then Dict.set c.state c.ctx m else m) []

/-- `applyPrecedenceFilter` (`rt/atn/ParserATNSimulator.py:989-1039`) -/
def precedenceFilter (E : PEnv) (cs : List PConfig) : List PConfig :=
  let first := cs.foldl (fun acc c =>
    if c.alt = 1 then
      match evalPrecedence E.prec c.sem with
      | none => acc
      | some s => addConfig E.full { c with sem := s } acc
    else acc) []
  cs.foldl (fun acc c =>
    if c.alt = 1 then acc
    else if !c.suppressed && Dict.get c.state (statesFromAlt1 E.prec cs) == some c.ctx then acc
    else addConfig E.full c acc) first

/-- a configuration in a rule stop state -/
def atStop (A : Atn) (c : PConfig) : Bool :=
  match A.states[c.state]? with
  | some st => st.isRuleStop
  | none => false

/-- `getUniqueAlt` (`rt/atn/ParserATNSimulator.py:1893-1900`) -/
def uniqueAlt : List PConfig → Option Nat
  | [] => none
  | c :: cs => if cs.all (fun d => d.alt == c.alt) then some c.alt else none

/-- the configurations after the token (`rt/atn/ParserATNSimulator.py:790-820`) -/
def intermediate (A : Atn) (full : Bool) (t : Int) (cs : List PConfig) : List PConfig :=
  cs.foldl (fun acc c =>
    match A.states[c.state]? with
    | none => acc
    | some st =>
      if st.isRuleStop then acc
      else st.trans.foldl (fun acc tr =>
        match tr.reachable t with
        | some q => addConfig full { c with state := q } acc
        | none => acc) acc) []

/-- `computeReachSet` (`rt/atn/ParserATNSimulator.py:768-879`; `removeAllConfigsNotInRuleStopState` 881-906, whose
`lookToEndOfRule` is false because `reach is intermediate` only before EOF).  The empty list is `None`. -/
def reachSet (E : PEnv) (t : Int) (cs : List PConfig) : List PConfig :=
  let mid := intermediate E.atn E.full t cs
  let skipped := if E.full || t == -1 then cs.filter (atStop E.atn) else []
  let reach :=
    if skipped.isEmpty && t != -1 && (uniqueAlt mid).isSome then mid
    else mid.foldl (fun acc c => closure { E with eofEps := t == -1 } (closureFuel E.atn) c false 0 acc) []
  let reach := if t == -1 then reach.filter (atStop E.atn) else reach
  if !E.full || !reach.any (atStop E.atn) then skipped.foldl (fun acc c => addConfig E.full c acc) reach
  else reach

/-- the alternatives of the configurations with the given state and context; one subset of `getConflictingAltSubsets`
(`rt/atn/PredictionMode.py:462-476`) -/
def altsAt (cs : List PConfig) (p : Nat) (x : PCtx) : List Nat :=
  (cs.filter fun c => c.state = p && c.ctx = x).map (·.alt)

/-- more than one alternative in a list -/
def several : List Nat → Bool
  | [] => false
  | a :: as => as.any (· != a)

/-- `hasSLLConflictTerminatingPrediction` (`rt/atn/PredictionMode.py:177-213`; `hasConflictingAltSet` 410-411,
`hasStateAssociatedWithOneAlt` 482-494); the prediction mode is LL -/
def sllConflict (A : Atn) (cs : List PConfig) : Bool :=
  cs.all (atStop A) ||
    (cs.any (fun c => several (altsAt cs c.state c.ctx)) &&
      !cs.any (fun c => !several ((cs.filter fun d => d.state = c.state).map (·.alt))))

/-- the least of a non-empty list -/
def minAlt : List Nat → Nat
  | [] => 0
  | a :: as => as.foldl min a

/-- `resolvesToJustOneViableAlt` (`rt/atn/PredictionMode.py:374-376,497-505`) -/
def singleViable (cs : List PConfig) : Option Nat :=
  match cs.map fun c => minAlt (altsAt cs c.state c.ctx) with
  | [] => none
  | m :: ms => if ms.all (· == m) then some m else none

/-- A state of the cached DFA (`rt/dfa/DFAState.py`): its configurations, `requiresFullContext`, the unique alternative or the
conflicting ones (none: not an accept state), and `predicates`. -/
structure PState where
  configs : List PConfig
  full : Bool
  alts : List Nat
  preds : Option (List (Option Int × Nat))
  deriving DecidableEq, Repr

/-- `altToPred[i]` (`getPredsForAmbigAlts`, `rt/atn/ParserATNSimulator.py:1047-1083`) -/
def altPred (alts : List Nat) (cs : List PConfig) (i : Nat) : Option Int :=
  if i ∈ alts then
    match (cs.filter fun c => c.alt = i).map (·.sem) with
    | [] => none
    | s :: ss => ss.foldl orSem s
  else none

/-- `predicateDFAState` (`rt/atn/ParserATNSimulator.py:617-635`, `getPredicatePredictions` 1085-1102); `n` is the number of
alternatives of the decision -/
def predicates (n : Nat) (alts : List Nat) (cs : List PConfig) : Option (List (Option Int × Nat)) :=
  if cs.any (fun c => c.sem.isSome) && ((List.range' 1 n).any fun i => (altPred alts cs i).isSome) then
    some (((List.range' 1 n).filter fun i => i ∈ alts).map fun i => (altPred alts cs i, i))
  else none

/-- `computeTargetState` (`rt/atn/ParserATNSimulator.py:562-615`); `none` is the ERROR state -/
def computeTarget (E : PEnv) (n : Nat) (cs : List PConfig) (t : Int) : Option PState :=
  let reach := reachSet E t cs
  if reach.isEmpty then none
  else
    match uniqueAlt reach with
    | some a => some ⟨reach, false, [a], predicates n [a] reach⟩
    | none =>
      if sllConflict E.atn reach then some ⟨reach, true, reach.map (·.alt), predicates n (reach.map (·.alt)) reach⟩
      else some ⟨reach, false, [], none⟩

/-- The cached DFA of a decision (`rt/dfa/DFA.py`; `decisionsToDFA`, shared by all parsers): the start state (by precedence in a
precedence DFA; 0 is used otherwise) and the edges.  A state is identified by its configurations. -/
structure PDfa where
  starts : List (Int × List PConfig)
  edges : List ((List PConfig × Int) × Option PState)
  deriving DecidableEq, Repr

/-- `getExistingTargetState` or else `computeTargetState`, which records the edge (`rt/atn/ParserATNSimulator.py:557-635,
1928-1988`) -/
def nextState (E : PEnv) (n : Nat) (d : PDfa) (cs : List PConfig) (t : Int) : Option PState × PDfa :=
  if decide (-1 ≤ t) && decide (t ≤ E.atn.maxTokenType) then
    match Dict.get (cs, t) d.edges with
    | some r => (r, d)
    | none => (computeTarget E n cs t, { d with edges := Dict.set (cs, t) (computeTarget E n cs t) d.edges })
  else (computeTarget E n cs t, d)

/-- The alternative chosen after an error, if any (`rt/atn/ParserATNSimulator.py:1120-1166`): some function of the
configurations; it is always the alternative of one of them (`recoverAlt`). -/
abbrev Recover := List PConfig → Option Nat

def recoverAlt (rec : Recover) (cs : List PConfig) : Option Nat :=
  match rec cs with
  | some a => if cs.any (fun c => c.alt == a) then some a else none
  | none => none

/-- `evalSemanticContext(predicates, outerContext, True)` (`rt/atn/ParserATNSimulator.py:1198-1222`) -/
def evalPreds (prec : Int) (ps : List (Option Int × Nat)) : List Nat :=
  (ps.filter fun (s, _) => semTrue prec s).map (·.2)

/-- The result of a prediction: an alternative, or `NoViableAltException`; `none` is a loop that does not end. -/
abbrev Prediction := Option (Option Nat)

/-- `execATNWithFullContext` (`rt/atn/ParserATNSimulator.py:637-766`), on the remaining token types; EOF (-1) follows. -/
def execFull (E : PEnv) (rec : Recover) : List Int → List PConfig → Prediction
  | [], cs =>
    let reach := reachSet E (-1) cs
    if reach.isEmpty then some (recoverAlt rec cs)
    else
      match uniqueAlt reach with
      | some a => some (some a)
      | none =>
        match singleViable reach with
        | some a => some (some a)
        | none => none
  | t :: ts, cs =>
    let reach := reachSet E t cs
    if reach.isEmpty then some (recoverAlt rec cs)
    else
      match uniqueAlt reach with
      | some a => some (some a)
      | none =>
        match singleViable reach with
        | some a => some (some a)
        | none => execFull E rec ts reach

/-- What `execATN` does in a state (`rt/atn/ParserATNSimulator.py:453-531`): `inl` the prediction, `inr` go on. -/
def decideState (E : PEnv) (full : Unit → Prediction) (D : PState) : Prediction ⊕ Unit :=
  if D.full then
    match D.preds with
    | some ps =>
      if (evalPreds E.prec ps).length = 1 then .inl (some (some (minAlt (evalPreds E.prec ps)))) else .inl (full ())
    | none => .inl (full ())
  else
    match D.alts with
    | [] => .inr ()
    | a :: as =>
      match D.preds with
      | none => .inl (some (some (minAlt (a :: as))))
      | some ps =>
        match evalPreds E.prec ps with
        | [] => .inl (some none)
        | b :: bs => .inl (some (some (minAlt (b :: bs))))

/-- `execATN` (`rt/atn/ParserATNSimulator.py:433-531`), on the remaining token types; EOF (-1) follows. -/
def execSll (E : PEnv) (n : Nat) (rec : Recover) (full : Unit → Prediction) :
    List Int → List PConfig → PDfa → Prediction × PDfa
  | [], cs, d =>
    match nextState E n d cs (-1) with
    | (none, d) => (some (recoverAlt rec cs), d)
    | (some D, d) =>
      match decideState E full D with
      | .inl r => (r, d)
      | .inr _ => (none, d)
  | t :: ts, cs, d =>
    match nextState E n d cs t with
    | (none, d) => (some (recoverAlt rec cs), d)
    | (some D, d) =>
      match decideState E full D with
      | .inl r => (r, d)
      | .inr _ => execSll E n rec full ts D.configs d

/-- the state to return to after the call made in a state (`transitions[0].followState`) -/
def followOf (A : Atn) (s : Nat) : Nat :=
  match A.states[s]? with
  | some st =>
    match st.trans with
    | .rule _ _ _ f :: _ => f
    | _ => 0
  | none => 0

/-- `PredictionContextFromRuleContext` (`rt/PredictionContext.py:244-258`): from the invoking states of the rules being
parsed, innermost first -/
def ctxOf (A : Atn) : List Nat → PCtx
  | [] => .dollar
  | s :: ss => .cons (followOf A s) (ctxOf A ss) .nil

/-- `adaptivePredict` (`rt/atn/ParserATNSimulator.py:321-402`) for the decision made in a state: `stack` are the invoking states,
`ts` the types of the remaining tokens. -/
def adaptivePredict (A : Atn) (rec : Recover) (p : Nat) (prec : Int) (stack : List Nat) (ts : List Int) (d : PDfa) :
    Prediction × PDfa :=
  match A.states[p]? with
  | none => (none, d)
  | some st =>
    let isPrec := isPrecDecision A st
    let E : PEnv := ⟨A, false, false, if isPrec then some st.rule else none, prec⟩
    let F : PEnv := ⟨A, true, false, if isPrec then some st.rule else none, prec⟩
    let n := st.trans.length
    let key := if isPrec then prec else 0
    let full := fun _ => execFull F rec ts (startConfigs F st (ctxOf A stack))
    match Dict.get key d.starts with
    | some s0 => execSll E n rec full ts s0 d
    | none =>
      let s0 := if isPrec then precedenceFilter E (startConfigs E st .dollar) else startConfigs E st .dollar
      execSll E n rec full ts s0 { d with starts := Dict.set key s0 d.starts }

/-- `LL1Analyzer._LOOK` without a context (`rt/LL1Analyzer.py:97-243`; `nextTokens(s)`, `rt/atn/ATN.py:68-79`): the types of the
tokens that can come next in the rule of `s`, and EPSILON (-2) if its end can.  `lookBusy` only avoids repetitions. -/
def look (A : Atn) : Nat → Nat → List Nat → List Int → List (Int × Int)
  | 0, _, _, _ => []
  | n + 1, p, ctx, called =>
    match A.states[p]? with
    | none => []
    | some st =>
      if st.isRuleStop then
        match ctx with
        | [] => [(-2, -2)]
        | f :: ctx => look A n f ctx (called.filter (· != st.rule))
      else
        st.trans.flatMap fun t =>
          match t with
          | .rule q _ _ f => if ruleOf A q ∈ called then [] else look A n q (f :: ctx) (ruleOf A q :: called)
          | .epsilon q | .action q _ _ | .precedence q _ | .predicate q _ _ => look A n q ctx called
          | .atom _ l => [(l, l)]
          | .range _ a b => [(a, b)]
          | .set _ rs => rs
          | .notSet _ _ | .wildcard _ => [(1, A.maxTokenType)]

/-- `sync` (`rt/error/ErrorStrategy.py:208-251`) at a decision: the next token is expected, or the rule may end; otherwise an
error is reported.  Not modelled: the text of the message. -/
def syncOk (A : Atn) (p : Nat) (la : Int) : Bool :=
  inIntervals la (look A (closureFuel A) p [] []) || inIntervals (-2) (look A (closureFuel A) p [] [])

end Verif.PSim
