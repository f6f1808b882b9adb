import Verif.Py
/-!
# The ANTLR automaton and its deserialisation (`_antlr4_runtime/atn/ATNDeserializer.py`, `Transition.py`,
`ATNState.py`)

The generated lexer and parser carry their automaton as a list of integers.  Here that list is read the
way the bundled runtime reads it.
-/

namespace Verif

/-- Transitions (`Transition.py:63-310`), made by `edgeFactories` (`ATNDeserializer.py:385-424`).  Targets are state
numbers; sets are lists of closed ranges (`readSets`, 130-142). -/
inductive ATrans where
  | epsilon (target : Nat)
  | range (target : Nat) (lo hi : Int)
  | rule (target : Nat) (rule prec : Int) (follow : Nat)
  | predicate (target : Nat) (rule idx : Int)
  | atom (target : Nat) (label : Int)
  | action (target : Nat) (rule idx : Int)
  | set (target : Nat) (ranges : List (Int × Int))
  | notSet (target : Nat) (ranges : List (Int × Int))
  | wildcard (target : Nat)
  | precedence (target : Nat) (prec : Int)
  deriving DecidableEq, Repr

/-- A state (`ATNState.py:72-152`): its type number (`stateFactories`, `ATNDeserializer.py:447-461`), rule, loop-back or
end state, flags and transitions in order.  The `None` states (type 0) have type 0 here. -/
structure AState where
  type : Nat
  rule : Int
  extra : Int
  nonGreedy : Bool
  precRule : Bool
  trans : List ATrans
  deriving DecidableEq, Repr

/-- A lexer action: type number and two data words (`ATNDeserializer.py:199-208`). -/
structure LAction where
  type : Int
  data1 : Int
  data2 : Int
  deriving DecidableEq, Repr

/-- `ATN` (`ATN.py`): what `deserialize` fills in. -/
structure Atn where
  grammarType : Int
  maxTokenType : Int
  states : List AState
  /-- start state and token type (0 in a parser) of every rule -/
  rules : List (Nat × Int)
  modes : List Nat
  decisions : List Nat
  actions : List LAction
  deriving DecidableEq, Repr

/-- A reader of the integer list; `none` is an exception. -/
abbrev Rd (α : Type) := List Int → Option (α × List Int)

namespace Rd
/-- `readInt` (`ATNDeserializer.py:380-383`) -/
def int : Rd Int
  | [] => none
  | x :: xs => some (x, xs)

/-- `readInt` where a count or an index is expected -/
def nat : Rd Nat
  | [] => none
  | .ofNat n :: xs => some (n, xs)
  | .negSucc _ :: _ => none

/-- `for i in range(0, n)` -/
def times {α : Type} (r : Rd α) : Nat → Rd (List α)
  | 0, xs => some ([], xs)
  | n + 1, xs =>
    match r xs with
    | none => none
    | some (a, xs) =>
      match times r n xs with
      | none => none
      | some (as, xs) => some (a :: as, xs)

/-- a count followed by that many items -/
def many {α : Type} (r : Rd α) : Rd (List α) := fun xs =>
  match nat xs with
  | none => none
  | some (n, xs) => times r n xs
end Rd

/-- one state of `readStates` (`ATNDeserializer.py:69-84`): LOOP_END (12) and the block starts (3, 4, 5) carry one more
integer -/
def readState : Rd AState := fun xs =>
  match Rd.nat xs with
  | none => none
  | some (0, xs) => some (⟨0, 0, 0, false, false, []⟩, xs)
  | some (t, xs) =>
    if 12 < t then none else
    match Rd.int xs with
    | none => none
    | some (ru, xs) =>
      if t = 12 ∨ t = 3 ∨ t = 4 ∨ t = 5 then
        match Rd.int xs with
        | none => none
        | some (e, xs) => some (⟨t, ru, e, false, false, []⟩, xs)
      else some (⟨t, ru, 0, false, false, []⟩, xs)

/-- a range of `readSets` (`ATNDeserializer.py:139-142`) -/
def readRange : Rd (Int × Int) := fun xs =>
  match xs with
  | a :: b :: xs => some ((a, b), xs)
  | _ => none

/-- one set of `readSets` (`ATNDeserializer.py:133-142`).  Simplification: the intervals are kept as written instead of
merged; membership is the same. -/
def readSet : Rd (List (Int × Int)) := fun xs =>
  match Rd.nat xs with
  | none => none
  | some (n, xs) =>
    match Rd.int xs with
    | none => none
    | some (eof, xs) =>
      match Rd.times readRange n xs with
      | none => none
      | some (rs, xs) => some (if eof = 0 then rs else (-1, -1) :: rs, xs)

/-- a rule of `readRules` (`ATNDeserializer.py:109-115`) -/
def readRule (lexer : Bool) : Rd (Nat × Int) := fun xs =>
  match Rd.nat xs with
  | none => none
  | some (s, xs) =>
    if lexer then
      match Rd.int xs with
      | none => none
      | some (t, xs) => some ((s, t), xs)
    else some ((s, 0), xs)

/-- `edgeFactory` (`ATNDeserializer.py:385-445`). -/
def edgeFactory (sets : List (List (Int × Int))) (type : Nat) (trg : Nat) (arg1 arg2 arg3 : Int) : Option ATrans :=
  match type with
  | 1 => some (.epsilon trg)
  | 2 => some (if arg3 = 0 then .range trg arg1 arg2 else .range trg (-1) arg2)
  | 3 => some (.rule arg1.toNat arg2 arg3 trg)
  | 4 => some (.predicate trg arg1 arg2)
  | 5 => some (if arg3 = 0 then .atom trg arg1 else .atom trg (-1))
  | 6 => some (.action trg arg1 arg2)
  | 7 => (sets[arg1.toNat]?).map (.set trg)
  | 8 => (sets[arg1.toNat]?).map (.notSet trg)
  | 9 => some (.wildcard trg)
  | 10 => some (.precedence trg arg1)
  | _ => none

/-- an edge of `readEdges` (`ATNDeserializer.py:146-155`) with its source state -/
def readEdge (sets : List (List (Int × Int))) : Rd (Nat × ATrans) := fun xs =>
  match xs with
  | .ofNat src :: .ofNat trg :: .ofNat type :: arg1 :: arg2 :: arg3 :: xs =>
    (edgeFactory sets type trg arg1 arg2 arg3).map fun t => ((src, t), xs)
  | _ => none

/-- `srcState.addTransition(trans)` for every edge, in order (`ATNDeserializer.py:153-155`, `ATNState.py:143-152`). -/
def addEdges (states : List AState) (edges : List (Nat × ATrans)) : List AState :=
  edges.foldl (fun ss (src, t) => ss.modify src fun s => { s with trans := s.trans ++ [t] }) states

/-- a lexer action (`ATNDeserializer.py:203-208`) -/
def readAction : Rd LAction := fun xs =>
  match xs with
  | a :: b :: c :: xs => some (⟨a, b, c⟩, xs)
  | _ => none

/-- `deserialize` (`ATNDeserializer.py:24-46`).  Not modelled: the edges derived for rule stop states (157-168; the lexer's
simulator never follows them, it returns through the call stack), loop-back links, `verifyATN`. -/
def deserialize (data : List Int) : Option Atn :=
  match Rd.int data with
  | some (4, xs) =>
    match Rd.int xs with
    | none => none
    | some (gt, xs) =>
    match Rd.int xs with
    | none => none
    | some (mt, xs) =>
    match Rd.many readState xs with
    | none => none
    | some (states, xs) =>
    match Rd.many Rd.nat xs with
    | none => none
    | some (ng, xs) =>
    match Rd.many Rd.nat xs with
    | none => none
    | some (pr, xs) =>
    match Rd.many (readRule (gt = 0)) xs with
    | none => none
    | some (rules, xs) =>
    match Rd.many Rd.nat xs with
    | none => none
    | some (modes, xs) =>
    match Rd.many readSet xs with
    | none => none
    | some (sets, xs) =>
    match Rd.many (readEdge sets) xs with
    | none => none
    | some (edges, xs) =>
    match Rd.many Rd.nat xs with
    | none => none
    | some (decs, xs) =>
    match (if gt = 0 then Rd.many readAction xs else some ([], xs)) with
    | none => none
    | some (acts, _) =>
      let states := ng.foldl (fun ss i => ss.modify i fun s => { s with nonGreedy := true }) states
      let states := pr.foldl (fun ss i => ss.modify i fun s => { s with precRule := true }) states
      some ⟨gt, mt, addEdges states edges, rules, modes, decs, acts⟩
  | _ => none

end Verif
