import Verif.Lemmas.ParserClosure
/-! Generator of `Verif/Lemmas/ParserTable.lean` (not trusted: the kernel checks the table).
Run in lean/: `lake env lean --run ../tools/MkParserTable.lean.txt > Verif/Lemmas/ParserTable.lean` -/
open Verif PSim

def i (k : Int) : String := if k < 0 then s!"({k})" else s!"{k}"
def sh : ATrans → String
  | .epsilon q => s!".epsilon {q}"
  | .rule q r p f => s!".rule {q} {i r} {i p} {f}"
  | .atom q l => s!".atom {q} {i l}"
  | .range q a b => s!".range {q} {i a} {i b}"
  | .set q rs => s!".set {q} [{", ".intercalate (rs.map fun (a, b) => s!"({a}, {b})")}]"
  | .notSet q rs => s!".notSet {q} {rs}"
  | .wildcard q => s!".wildcard {q}"
  | .precedence q p => s!".precedence {q} {i p}"
  | .predicate q a b => s!".predicate {q} {i a} {i b}"
  | .action q r a => s!".action {q} {i r} {i a}"

partial def rank (A : Atn) (p : Nat) : Nat :=
  match A.states[p]? with
  | none => 0
  | some st =>
    let succs := if st.isRuleStop then follows A st.rule else st.trans.filterMap fun t => match t with
      | .rule q _ _ _ => some q
      | t => t.silent
    succs.foldl (fun m q => max m (rank A q + 1)) 0

partial def next (A : Atn) (p : Nat) : List Int :=
  match A.states[p]? with
  | none => []
  | some st =>
    ((if st.isRuleStop then (follows A st.rule).flatMap (next A) else st.trans.flatMap fun t => match t with
      | .rule q _ _ _ => next A q
      | .atom _ l => [l]
      | .set _ rs => rs.flatMap fun (a, b) => (List.range (b - a + 1).toNat).map fun (k : Nat) => a + (k : Int)
      | t => match t.silent with
        | some q => next A q
        | none => []).eraseDups).mergeSort

def main : IO Unit := do
  let some A := deserialize parserAtnData | throw (IO.userError "no automaton")
  IO.println "import Verif.Lemmas.ParserClosure
/-!
# The automaton of the generated parser as a literal, with a rank that decreases along every silent step

Generated by `tools/MkParserTable.lean.txt`; checked by the kernel in `Lemmas/ParserGood.lean`.
-/

namespace Verif.ParserTable

def states : List AState :="
  IO.println ("  [" ++ ",\n   ".intercalate (A.states.map fun s =>
    s!"⟨{s.type}, {i s.rule}, {i s.extra}, {s.nonGreedy}, {s.precRule}, [{", ".intercalate (s.trans.map sh)}]⟩") ++ "]")
  IO.println s!"
def atn : Atn :=
  ⟨{A.grammarType}, {A.maxTokenType}, states,
   {A.rules},
   {A.modes}, {A.decisions}, []⟩

def ranks : List Nat :=
  {(List.range A.states.length).map (rank A)}

/-- the types of the tokens that can come next -/
def nexts : List (List Int) :=
  [{",\n   ".intercalate ((List.range A.states.length).map fun p => toString (next A p))}]

end Verif.ParserTable"
