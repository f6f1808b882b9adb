import Verif.Model.Unit
/-!
# Unit systems (`_unit_system.py`)

A `UnitSystem` is mutable: looking a spelling up resolves lazily defined units and re-registers them.
Every operation is a function from a state to a result *and* a state, so that mutations made before
an exception persist, as in Python.
-/

namespace Verif

/-- Values of the four unit tables: a `LazilyDefinedUnit` (by identity: an index into the heap) or a
`NamedUnit`/`BasisUnit`. -/
inductive Entry where
  | lazy (id : Nat)
  | unit (r : Ref)
  deriving DecidableEq, Repr

/-- A `LazilyDefinedUnit` object (`_unit_system.py:31-41`). -/
structure LazyObj where
  defn : Str
  names : UnitReference
  resolved : Option Ref
  deriving DecidableEq, Repr

/-- `UnitSystem.__init__` fields (`_unit_system.py:82-95`) plus the heap of lazily defined units. -/
structure System where
  names : Dict Str Entry
  symbols : Dict Str Entry
  aliasNames : Dict Str Entry
  aliasSymbols : Dict Str Entry
  prefixNames : Dict Str Prefix
  prefixSymbols : Dict Str Prefix
  heap : List LazyObj
  deriving DecidableEq, Repr

/-- `UnitSystem()` -/
def System.empty : System := ⟨[], [], [], [], [], [], []⟩

/-- What the environment provides: the expression parser (`_grammar.parse`, modelled in
`Model/Parser.lean`; kept as a parameter here) and the hash-dependent iteration order of a set of
identifiers (`_unit_system.py:53,290`). -/
structure Env where
  parse : Str → Py Node
  order : List Str → List Str

/-- `add_prefix` (`_unit_system.py:117-120`). -/
def System.addPrefix (s : System) (p : Prefix) : System :=
  { s with
    prefixNames := Dict.set p.name p s.prefixNames
    prefixSymbols := p.symbols.foldl (fun d sym => Dict.set sym p d) s.prefixSymbols }

/-- `unit._names`.  Only `NamedUnit`s and `LazilyDefinedUnit`s have it: a plain `Unit` is an
AttributeError. -/
def System.namesOf (s : System) : Entry → Py UnitReference
  | .lazy id => match s.heap[id]? with
    | some o => .ok o.names
    | none => .error .unmodelled      -- a dangling reference cannot be built
  | .unit (.basis b) => .ok b.names
  | .unit (.unit (some n) _ _) => .ok n
  | .unit _ => .error .attributeError

/-- `if x: …` for an optional string: `None` and `""` are both false. -/
def truthy : Option Str → Option Str
  | some [] => none
  | x => x

/-- primary name spellings written by add_unit (`_unit_system.py:141-144`) -/
def nameKeys : Option Name → List Str
  | none => []
  | some n => match truthy n.plural with
    | some p => [n.singular, p]
    | none => [n.singular]

/-- alias name spellings (`_unit_system.py:149-152`) -/
def aliasKeys (l : List Name) : List Str := l.flatMap fun n => nameKeys (some n)

/-- repeated `d[key] = unit` -/
def setAll (keys : List Str) (e : Entry) (d : Dict Str Entry) : Dict Str Entry :=
  keys.foldl (fun d k => Dict.set k e d) d

/-- The collision checks of `add_unit` (`_unit_system.py:124-139`), in order; the spelling reported. -/
def System.collision (s : System) (ref : UnitReference) : Option Str :=
  match (nameKeys ref.name).find? (fun k => Dict.has k s.names) with
  | some k => some k
  | none => ref.symbols.find? (fun k => Dict.has k s.symbols)

/-- The writes of `add_unit` (`_unit_system.py:141-155`). -/
def System.register (s : System) (ref : UnitReference) (e : Entry) : System :=
  { s with
    names := setAll (nameKeys ref.name) e s.names
    symbols := setAll ref.symbols e s.symbols
    aliasNames := setAll (aliasKeys ref.aliasNames) e s.aliasNames
    aliasSymbols := setAll ref.aliasSymbols e s.aliasSymbols }

/-- `add_unit(unit, replace)` (`_unit_system.py:122-155`). -/
def System.addUnit (s : System) (e : Entry) (replace : Bool) : Except PyErr Unit × System :=
  match s.namesOf e with
  | .error err => (.error err, s)
  | .ok ref =>
    match (if replace then none else s.collision ref) with
    | some k => (.error (.alreadyRegistered k), s)
    | none => (.ok (), s.register ref e)

/-- A state-passing Python computation; the state survives exceptions. -/
abbrev SysM (α : Type) := System → Except PyErr α × System

/-- Creating a `LazilyDefinedUnit` allocates a fresh object. -/
def System.alloc (s : System) (defn : Str) (names : UnitReference) : Nat × System :=
  (s.heap.length, { s with heap := s.heap ++ [⟨defn, names, none⟩] })

/-- write the `_resolved_unit` attribute -/
def System.setResolved (s : System) (id : Nat) (r : Ref) : System :=
  { s with heap := s.heap.modify id fun o => { o with resolved := some r } }

/-- The dict comprehension `{identifier: unit_by_name_or_symbol(identifier.content) for …}`
(`_unit_system.py:51-54,288-291`), in iteration order. -/
def lookupAll (look : Str → SysM Ref) : List Str → SysM (List (Str × Ref))
  | [], s => (.ok [], s)
  | n :: ns, s =>
    match look n s with
    | (.error e, s) => (.error e, s)
    | (.ok r, s) =>
      match lookupAll look ns s with
      | (.error e, s) => (.error e, s)
      | (.ok rs, s) => (.ok ((n, r) :: rs), s)

/-- `LazilyDefinedUnit.resolve` (`_unit_system.py:43-62`); `look` is the recursive call of
`unit_by_name_or_symbol`. -/
def resolve (env : Env) (look : Str → SysM Ref) (id : Nat) : SysM Ref := fun s =>
  match s.heap[id]? with
  | none => (.error .unmodelled, s)
  | some o =>
    match o.resolved with
    | some r => (.ok r, s)
    | none =>
      match env.parse o.defn with
      | .error e => (.error e, s)
      | .ok expr =>
        match lookupAll look (env.order expr.identifiers) s with
        | (.error e, s) => (.error e, s)
        | (.ok refs, s) =>
          match mkUnit (some o.names) expr refs with
          | .error e => (.error e, s)
          | .ok r => (.ok r, s.setResolved id r)

/-- Common body of `_unit_by_name` / `_unit_by_symbol` (`_unit_system.py:201-213`): the entry found,
resolved and re-registered if lazy; `none` is Python's `None`. -/
def fetch (env : Env) (look : Str → SysM Ref) (e : Option Entry) : SysM (Option Ref) := fun s =>
  match e with
  | none => (.ok none, s)
  | some (.unit r) => (.ok (some r), s)
  | some (.lazy id) =>
    match resolve env look id s with
    | (.error err, s) => (.error err, s)
    | (.ok r, s) =>
      match s.addUnit (.unit r) true with
      | (.error err, s) => (.error err, s)
      | (.ok (), s) => (.ok (some r), s)

/-- `self._names.get(n) or self._alias_names.get(n)` -/
def System.nameEntry (s : System) (n : Str) : Option Entry :=
  (Dict.get n s.names).or (Dict.get n s.aliasNames)

/-- `self._symbols.get(n) or self._alias_symbols.get(n)` -/
def System.symbolEntry (s : System) (n : Str) : Option Entry :=
  (Dict.get n s.symbols).or (Dict.get n s.aliasSymbols)

/-- `self._unit_by_name(n) or self._unit_by_symbol(n)` (`_unit_system.py:222-226,231-233,255-257`). -/
def byNameOrSymbol (env : Env) (look : Str → SysM Ref) (n : Str) : SysM (Option Ref) := fun s =>
  match fetch env look (s.nameEntry n) s with
  | (.error e, s) => (.error e, s)
  | (.ok (some r), s) => (.ok (some r), s)
  | (.ok none, s) => fetch env look (s.symbolEntry n) s

/-- The dict literal and the `Unit(...)` of `_unit_system.py:235-249,259-273`.  Note that when the
prefix and the remainder are spelled alike the second key overwrites the first. -/
def prefixed (p : Str) (pre : Prefix) (rest : Str) (u : Ref) : Py Ref :=
  mkUnit none (.mul (.ident p) (.ident rest)) (Dict.set rest u (Dict.set p (.pre pre) []))

/-- The prefix loops (`_unit_system.py:229-250` over names, `253-274` over symbols). -/
def prefixLoop (env : Env) (look : Str → SysM Ref) (n : Str) :
    List (Str × Prefix) → SysM (Option Ref)
  | [], s => (.ok none, s)
  | (p, pre) :: ps, s =>
    match dropPrefix p n with
    | none => prefixLoop env look n ps s
    | some rest =>
      match byNameOrSymbol env look rest s with
      | (.error e, s) => (.error e, s)
      | (.ok none, s) => prefixLoop env look n ps s
      | (.ok (some u), s) =>
        match prefixed p pre rest u with
        | .error e => (.error e, s)
        | .ok r => (.ok (some r), s)

/-- Body of `unit_by_name_or_symbol` (`_unit_system.py:215-281`). -/
def lookupStep (env : Env) (look : Str → SysM Ref) (n : Str) : SysM Ref := fun s =>
  match byNameOrSymbol env look n s with
  | (.error e, s) => (.error e, s)
  | (.ok (some r), s) => (.ok r, s)
  | (.ok none, s) =>
    match prefixLoop env look n s.prefixNames s with
    | (.error e, s) => (.error e, s)
    | (.ok (some r), s) => (.ok r, s)
    | (.ok none, s) =>
      match prefixLoop env look n s.prefixSymbols s with
      | (.error e, s) => (.error e, s)
      | (.ok (some r), s) => (.ok r, s)
      | (.ok none, s) => (.error (.unresolvable n), s)

/-- `unit_by_name_or_symbol` with a recursion limit: each nested call (through `resolve`) uses one
unit of `fuel`; when it is exhausted Python raises `RecursionError`.
Simplification: Python's limit counts interpreter frames, not nested lookups. -/
def unitByNameOrSymbol (env : Env) : Nat → Str → SysM Ref
  | 0, _ => fun s => (.error .recursionError, s)
  | fuel + 1, n => lookupStep env (unitByNameOrSymbol env fuel) n

/-- `UnitSystem.unit` (`_unit_system.py:283-292`). -/
def System.unit (env : Env) (fuel : Nat) (text : Str) : SysM UObj := fun s =>
  match env.parse text with
  | .error e => (.error e, s)
  | .ok expr =>
    match lookupAll (unitByNameOrSymbol env fuel) (env.order expr.identifiers) s with
    | (.error e, s) => (.error e, s)
    | (.ok refs, s) => (unitFromExpr expr refs, s)

end Verif
