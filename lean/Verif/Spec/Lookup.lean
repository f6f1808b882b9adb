import Verif.Model.System
/-!
# Specification of lookups

A unit system seen as a *fixed* registry: four tables, two prefix tables and the texts of the lazily
defined units.  Nothing here mutates anything.
-/

namespace Verif.Spec

/-- The object registered under a spelling: primary name, else name alias, else symbol, else symbol
alias. -/
def direct (s : System) (n : Str) : Option Entry :=
  match Dict.get n s.names, Dict.get n s.aliasNames, Dict.get n s.symbols, Dict.get n s.aliasSymbols with
  | some e, _, _, _ => some e
  | none, some e, _, _ => some e
  | none, none, some e, _ => some e
  | none, none, none, e => e

/-- `(p, pre)` is the first prefix of the list that starts `n` and whose remainder is a registered
spelling. -/
def FirstSplit (s : System) (n : Str) (l : List (Str × Prefix))
    (p : Str) (pre : Prefix) (rest : Str) (e : Entry) : Prop :=
  n = p ++ rest ∧ direct s rest = some e ∧
  ∃ before after, l = before ++ (p, pre) :: after ∧
    ∀ q ∈ before, ∀ rest', n = q.1 ++ rest' → direct s rest' = none

/-- No prefix of the list gives a reading of `n`. -/
def NoSplit (s : System) (n : Str) (l : List (Str × Prefix)) : Prop :=
  ∀ q ∈ l, ∀ rest, n = q.1 ++ rest → direct s rest = none

/-- First reading of `n` as prefix + registered spelling, computed. -/
def firstSplit (s : System) (n : Str) : List (Str × Prefix) → Option (Str × Prefix × Str × Entry)
  | [] => none
  | (p, pre) :: l =>
    match dropPrefix p n with
    | none => firstSplit s n l
    | some rest =>
      match direct s rest with
      | none => firstSplit s n l
      | some e => some (p, pre, rest, e)

/-- The meaning of a lazily defined unit: parse its text, look its identifiers up, build the unit. -/
def resolve (env : Env) (s : System) (look : Str → Py Ref) (id : Nat) : Py Ref :=
  match s.heap[id]? with
  | none => .error .unmodelled
  | some o => do
    let expr ← env.parse o.defn
    let refs ← (env.order expr.identifiers).mapM fun n => do .ok (n, ← look n)
    mkUnit (some o.names) expr refs

/-- The meaning of a registered object. -/
def entry (env : Env) (s : System) (look : Str → Py Ref) : Entry → Py Ref
  | .unit r => .ok r
  | .lazy id => resolve env s look id

/-- One level of lookup: direct spelling first, then prefix names, then prefix symbols. -/
def step (env : Env) (s : System) (look : Str → Py Ref) (n : Str) : Py Ref :=
  match direct s n with
  | some e => entry env s look e
  | none =>
    match firstSplit s n (s.prefixNames ++ s.prefixSymbols) with
    | none => .error (.unresolvable n)
    | some (p, pre, rest, e) => do
      let u ← entry env s look e
      prefixed p pre rest u

/-- Lookup in a fixed registry, with a bound on the nesting of definitions. -/
def lookup (env : Env) (s : System) : Nat → Str → Py Ref
  | 0, _ => .error .recursionError
  | d + 1, n => step env s (lookup env s d) n

/-- `unit(text)` in a fixed registry. -/
def unit (env : Env) (s : System) (d : Nat) (text : Str) : Py UObj := do
  let expr ← env.parse text
  let refs ← (env.order expr.identifiers).mapM fun n => do .ok (n, ← lookup env s d n)
  unitFromExpr expr refs

/-- No lazily defined unit has been resolved yet (the state right after registration). -/
def Pristine (s : System) : Prop := ∀ o ∈ s.heap, o.resolved = none

/-- Every spelling claimed by a lazily defined unit is registered to that very unit: no other
registration (and no other alias) has taken one of its spellings. -/
def ConflictFree (s : System) : Prop :=
  ∀ id o, s.heap[id]? = some o →
    (∀ k ∈ nameKeys o.names.name, Dict.get k s.names = some (.lazy id)) ∧
    (∀ k ∈ o.names.symbols, Dict.get k s.symbols = some (.lazy id)) ∧
    (∀ k ∈ aliasKeys o.names.aliasNames, Dict.get k s.aliasNames = some (.lazy id)) ∧
    (∀ k ∈ o.names.aliasSymbols, Dict.get k s.aliasSymbols = some (.lazy id))

/-- A query made by a user of the system; `limit` is the interpreter's recursion budget at that
moment. -/
inductive Query where
  | lookup (limit : Nat) (n : Str)
  | unit (limit : Nat) (text : Str)

/-- The state left behind by a query. -/
def Query.effect (env : Env) : Query → System → System
  | .lookup f n, s => (unitByNameOrSymbol env f n s).2
  | .unit f t, s => (System.unit env f t s).2

/-- The state after a history of queries (successful or not). -/
def after (env : Env) (h : List Query) (s : System) : System :=
  h.foldl (fun s q => q.effect env s) s

end Verif.Spec
