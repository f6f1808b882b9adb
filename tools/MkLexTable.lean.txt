import Verif.Lemmas.LexerSim
/-! Generator of `Verif/Lemmas/LexerTable.lean` (not trusted: the kernel checks the table).
Run in lean/: `lake env lean --run ../tools/MkLexTable.lean.txt > Verif/Lemmas/LexerTable.lean` -/
open Verif

def reEnds : Re → List Nat
  | .cls rs => rs.flatMap fun (a, b) => [a.toNat, b.toNat + 1]
  | .seq a b => reEnds a ++ reEnds b
  | .alt a b => reEnds a ++ reEnds b
  | .star a => reEnds a
  | _ => []

def bdsOf (A : Atn) : List Nat := Id.run do
  let mut l : List Int := [0, 0x110000]
  for s in A.states do
    for t in s.trans do
      match t with
      | .range _ a b => l := a :: (b+1) :: l
      | .atom _ a => l := a :: (a+1) :: l
      | .set _ rs => for (a,b) in rs do l := a :: (b+1) :: l
      | _ => pure ()
  let mut r := l.map Int.toNat
  for m in [Mode.DEFAULT_MODE, .SHIFT_MODE, .ID_SEEN] do
    for (_, re, _) in m.rules do r := reEnds re ++ r
  return r.eraseDups.mergeSort

abbrev Pr := List LConfig × List (List Re)

partial def explore (A : Atn) (reps : List Char) (todo : List Pr) (seen : Array Pr) : Array Pr :=
  match todo with
  | [] => seen
  | (D,V) :: todo => Id.run do
    let mut todo := todo
    let mut seen := seen
    for c in reps do
      match computeTarget A D c.toNat with
      | some (some D') =>
        let p := (D', stepV c V)
        if !(seen.contains p) then
          seen := seen.push p
          todo := p :: todo
      | _ => pure ()
    return explore A reps todo seen

structure St where
  names : List (Re × String) := []
  out : Array String := #[]

partial def nm (r : Re) : StateM St String := do
  match (← get).names.find? (·.1 = r) with
  | some (_, n) => return n
  | none =>
    let body ← match r with
      | .void => pure ".void"
      | .eps => pure ".eps"
      | .cls rs => pure (".cls [" ++ ", ".intercalate (rs.map fun (a, b) => s!"(Char.ofNat {a.toNat}, Char.ofNat {b.toNat})") ++ "]")
      | .seq a b => do pure s!".seq {← nm a} {← nm b}"
      | .alt a b => do pure s!".alt {← nm a} {← nm b}"
      | .star a => do pure s!".star {← nm a}"
    let n := s!"q{(← get).names.length}"
    modify fun s => { names := (r, n) :: s.names, out := s.out.push s!"def {n} : Re := {body}" }
    return n

def int (i : Int) : String := if i < 0 then s!"({i})" else s!"{i}"
def lst (l : List String) : String := "[" ++ ", ".intercalate l ++ "]"
def rngs (l : List (Int × Int)) : String := lst (l.map fun (a, b) => s!"({int a}, {int b})")
def act (a : LAction) : String := s!"⟨{int a.type}, {int a.data1}, {int a.data2}⟩"
def tr : ATrans → String
  | .epsilon q => s!".epsilon {q}"
  | .range q a b => s!".range {q} {int a} {int b}"
  | .rule q r p f => s!".rule {q} {int r} {int p} {f}"
  | .predicate q r i => s!".predicate {q} {int r} {int i}"
  | .atom q l => s!".atom {q} {int l}"
  | .action q r i => s!".action {q} {int r} {int i}"
  | .set q rs => s!".set {q} {rngs rs}"
  | .notSet q rs => s!".notSet {q} {rngs rs}"
  | .wildcard q => s!".wildcard {q}"
  | .precedence q p => s!".precedence {q} {int p}"
def cfg (c : LConfig) : String :=
  s!"⟨{c.state}, {c.alt}, {lst (c.ctx.map toString)}, {lst (c.acts.map act)}, {c.nonGreedy}⟩"
def rowsOf (l : List String) (ind : String := "   ") : String := "[" ++ (",\n" ++ ind).intercalate l ++ "]"

def main : IO Unit := do
  let some A := deserialize lexerAtnData | throw (IO.userError "bad")
  let bds := bdsOf A
  let reps := (bds.filter (· < 0x110000)).map Char.ofNat
  IO.println "import Verif.Lemmas.LexerSim\n/-!\n# The table relating the generated lexer's automaton to the grammar's rules\n\nGenerated by `tools/MkLexTable.lean.txt`; checked by the kernel in `Lemmas/LexerCheck.lean`.\n-/\n\nnamespace Verif.LexTable\nset_option maxRecDepth 100000\n"
  IO.println s!"def bds : List Nat :=\n  {lst (bds.map toString)}\n"
  IO.println s!"def reps : List Char :=\n  {lst (reps.map fun c => s!"Char.ofNat {c.toNat}")}\n"
  let sts := A.states.map fun s => s!"⟨{s.type}, {int s.rule}, {int s.extra}, {s.nonGreedy}, {s.precRule}, {lst (s.trans.map tr)}⟩"
  IO.println s!"def states : List AState :=\n  {rowsOf sts}\n"
  IO.println s!"def atn : Atn :=\n  ⟨{int A.grammarType}, {int A.maxTokenType}, states,\n   {lst (A.rules.map fun (a, b) => s!"({a}, {int b})")},\n   {lst (A.modes.map toString)}, {lst (A.decisions.map toString)},\n   {lst (A.actions.map act)}⟩\n"
  let mut st : St := {}
  let mut body := ""
  for m in [Mode.DEFAULT_MODE, .SHIFT_MODE, .ID_SEEN] do
    let some D := startState A m.id | throw (IO.userError "bad start")
    let p : Pr := (D, m.rules.map (fun (x : Kind × Re × Option Mode) => [x.2.1]))
    let S := explore A reps [p] #[p]
    let mut i := 0
    for (D, V) in S do
      let mut vs := []
      for l in V do
        let mut ns := []
        for r in l do
          let (n, st') := (nm r).run st
          st := st'
          ns := ns ++ [n]
        vs := vs ++ [lst ns]
      let ts := reps.map fun c => match computeTarget A D c.toNat with
        | some (some D') => match S.toList.findIdx? (· = (D', stepV c V)) with | some j => j + 1 | none => 99999
        | _ => 0
      body := body ++ s!"def r{m.id}_{i} : List LConfig × List (List Re) :=\n  ({rowsOf (D.map cfg)},\n   {lst vs})\ndef t{m.id}_{i} : List Nat := {lst (ts.map toString)}\n"
      i := i + 1
    let rows := (List.range S.size).map fun j => s!"r{m.id}_{j}"
    let trs := (List.range S.size).map fun j => s!"t{m.id}_{j}"
    body := body ++ s!"def tab{m.id} : List (List LConfig × List (List Re)) :=\n  {lst rows}\ndef tr{m.id} : List (List Nat) :=\n  {lst trs}\n\n"
  for l in st.out do IO.println l
  IO.println ""
  IO.println body
  IO.println "end Verif.LexTable"
