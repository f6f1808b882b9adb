import Verif.Model.GeneratedParser
/-!
# Threads that parse at the same time

All lexers and parsers of a process share the cached DFAs (`decisionsToDFA`, class attributes: `_grammar/parser/udunits2Lexer.py:5533`,
`_grammar/parser/udunits2Parser.py:1548`), and nothing in `parse` (`_grammar/__init__.py:215-232`) excludes two threads from
parsing at the same time.  A state of the process: every write to the shared caches so far, and the calls of `parse`.

A read sees nothing, or any value written to that place before, not necessarily the last one.  This includes every interleaving
with a memory that always returns the last value, and writes that are lost: two threads create the same DFA state as two
objects, or the same array of edges (`rt/atn/ParserATNSimulator.py:1946-1948`, `rt/atn/LexerATNSimulator.py:656-660`,
`rt/dfa/DFA.py:77-80`).

Not modelled: the caches of `PredictionContextCache` and `nextTokenWithinRule` (`rt/atn/ATN.py:68-79`), which hold values equal to
those computed.
-/

namespace Verif.PSim

/-- a value written to a place -/
abbrev Write := (k : Key) × k.Val

/-- A call of `parse`: its text, and what is left to do. -/
structure PThread where
  text : Str
  prog : CProg (Option (Py Node))

/-- The process: all writes to the caches so far, the calls so far (running, finished or abandoned). -/
structure Process where
  written : List Write
  threads : List PThread

/-- when the module has been imported -/
def Process.init : Process := ⟨[], []⟩

/-- the values written to a place -/
def valuesAt (k : Key) (ws : List Write) : List k.Val :=
  ws.filterMap fun w => if h : w.1 = k then some (h ▸ w.2) else none

/-- the next access of a program to the caches: a read sees the `sees`-th value written to the place, or nothing -/
def CProg.step {α : Type} (sees : Option Nat) (ws : List Write) : CProg α → CProg α × List Write
  | .done a => (.done a, ws)
  | .read k c =>
    match sees with
    | none => (c none, ws)
    | some j => (c (valuesAt k ws)[j]?, ws)
  | .write k v c => (c, ws ++ [⟨k, v⟩])

/-- What can happen: a new call of `parse`, or the next access to the caches of one of the threads.  (A thread that never comes
again has been killed.) -/
inductive Event where
  | call (recover : Recover) (text : Str)
  | access (thread : Nat) (sees : Option Nat)

def Process.step (P : Process) : Event → Process
  | .call rec s => { P with threads := P.threads ++ [⟨s, parseP rec s⟩] }
  | .access i sees =>
    match P.threads[i]? with
    | none => P
    | some t =>
      match t.prog.step sees P.written with
      | (p, ws) => { written := ws, threads := P.threads.set i { t with prog := p } }

/-- the events in this order -/
def Process.run (P : Process) (es : List Event) : Process := es.foldl Process.step P

end Verif.PSim
