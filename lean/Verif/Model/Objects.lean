import Verif.Model.Sympy
/-!
# Unit objects in memory: shared mappings, the cached symbolic definition, several threads

Elsewhere in the model a unit is a value: a tree of definitions.  In the program it is an object.  Its
`_identifier_references` is the mapping object that the caller passed (not a copy), which other units may share and which the
caller can still change, and its `_cached_symbolic_definition` is filled in by the first call that needs it
(`_unit.py:347-349,383-400`).  Here the objects, the mappings and the caches are in a store, and calls of several threads
are interleaved at their accesses to the caches.
-/

namespace Verif.Objects

/-- what `_symbolic_definition` returns: the value transformation and the definition in symbols -/
abbrev SymForm := List TOp × Mono

/-- An object (`_unit.py:328-349,478-486,544-570`, `_unit_reference.py:9-17`): what its constructor stores, except for the
cache.  `refs` is the address of a mapping, `unit` of an object. -/
inductive Cell where
  | basis (b : Basis)
  | pre (p : Prefix)
  | unit (names : Option UnitReference) (defn : Node) (refs : Nat)
  | date (unit : Nat) (reference : Option Str)

/-- The memory.  `caches[i]` is the attribute `_cached_symbolic_definition` of object `i`, absent if it is `None`. -/
structure Store where
  cells : List Cell := []
  maps : List (Dict Str Nat) := []
  caches : Dict Nat SymForm := []

/-- the references of a unit, followed one after the other -/
def followAll (follow : Nat → Py Ref) : Dict Str Nat → Py (List (Str × Ref))
  | [] => .ok []
  | (k, i) :: rest => do
    let r ← follow i
    let rs ← followAll follow rest
    .ok ((k, r) :: rs)

/-- The tree that a method walks when it follows `_identifier_references` from object `i`
(`_unit.py:402-412,427-444`), with the recursion limit: references that go round in a circle end in a `RecursionError`.
A `DateUnit` is not a `Unit` and has no place in a mapping; dangling addresses do not exist in Python.
Simplified: the whole tree is walked in one step (mappings do not change meanwhile unless the caller changes them), and also
the references that `dimensionality` would not need. -/
def Store.follow (st : Store) : Nat → Nat → Py Ref
  | 0, _ => .error .recursionError
  | n + 1, i =>
    match st.cells[i]? with
    | some (.basis b) => .ok (.basis b)
    | some (.pre p) => .ok (.pre p)
    | some (.unit names defn m) => do
      let refs ← followAll (st.follow n) ((st.maps[m]?).getD [])
      .ok (.unit names defn refs)
    | _ => .error .unmodelled

/-- the object `i` as a value -/
def Store.load (st : Store) (limit i : Nat) : Py UObj :=
  match st.cells[i]? with
  | some (.date u reference) => do .ok (.date (← st.follow limit u) reference)
  | _ => do .ok (.unit (← st.follow limit i))

/-- The object whose cache `_symbolic_definition()` of object `i` uses: a `DateUnit` delegates to its unit
(`_unit.py:511-513`). -/
def Store.owner (st : Store) (i : Nat) : Nat :=
  match st.cells[i]? with
  | some (.date u _) => u
  | _ => i

/-! ## Calls -/

/-- What a caller can do with objects: create them, change a mapping he has passed to one, and call methods. -/
inductive Call where
  | newBasis (names : UnitReference) (dimensionless isTime : Bool)
  | newPrefix (p : Prefix)
  | newMap (entries : Dict Str Nat)
  | newUnit (names : Option UnitReference) (defn : Node) (refs : Nat)
  | newDate (unit : Nat) (reference : Option Str)
  /-- `mapping[k] = object` -/
  | setItem (m : Nat) (k : Str) (i : Nat)
  | expanded (i : Nat)
  | dimensionality (i : Nat)
  | isConvertibleTo (i j : Nat)
  | equal (i j : Nat)
  | converter (i j : Nat)
  deriving DecidableEq

/-- what a call returns -/
inductive Result where
  | address (i : Nat)
  | nothing
  | text (s : Str)
  | dims (d : DimObj)
  | bool (b : Bool)
  | converter (ops : List COp)
  deriving DecidableEq

/-- A program that accesses the caches; everything between two accesses to caches is one step, which sees the memory as it
is then. -/
inductive Prog where
  | done (r : Py Result)
  /-- look at the memory -/
  | look (k : Store → Prog)
  /-- read a cache -/
  | get (i : Nat) (k : Option SymForm → Prog)
  /-- fill a cache -/
  | set (i : Nat) (v : SymForm) (k : Prog)

/-- `x._symbolic_definition()` (`_unit.py:383-400,511-513`): read the cache; if it is `None` compute and store; read it again
and return it. -/
def symbolic (limit i : Nat) (k : SymForm → Prog) : Prog :=
  .look fun st =>
    let o := st.owner i
    let return_ : Prog := .get o fun
      | some v => k v
      | none => .done (.error .typeError)     -- would unpack `None`
    .get o fun
      | some _ => return_
      | none => .look fun st =>
        match (do (← st.load limit i).symDef) with
        | .ok v => .set o v return_
        | .error e => .done (.error e)

/-- `Unit.__eq__` (`_unit.py:364-381`) of two units.  `DateUnit` inherits identity. -/
def equalP (limit i j : Nat) : Prog :=
  .look fun st =>
    match st.load limit i, st.load limit j with
    | .ok (.unit a), .ok (.unit b) =>
      if b.defn.str = a.defn.str then .done (.ok (.bool true))
      else symbolic limit i fun (ta, da) => symbolic limit j fun (tb, db) =>
        .done (.ok (.bool (da.beq db && transEq ta tb)))
    | .error e, _ => .done (.error e)
    | _, .error e => .done (.error e)
    | _, _ => .done (.ok (.bool (i == j)))

/-- `Converter.__init__` (`_unit.py:182-236`) after the symbolic definitions are there. -/
def link (direct : Bool) : SymForm → SymForm → Py (List COp)
  | (t1, d1), (t2, d2) => do
    let t1i ← invertAll t1
    let l ← if direct then do .ok [COp.scale (← d1.div d2)]
            else do .ok [COp.recip, COp.scale (← (d1.mul d2).inv)]
    .ok (t1i ++ l ++ t2.map TOp.forward)

/-- `Converter.__init__` (`_unit.py:182-236`): is the conversion direct or inverted? -/
def directness (a b : UObj) : Py Bool := do
  let fd ← a.dimObj
  let td ← b.dimObj
  let inv ← fd.inverted
  if !(fd.eq td || inv.eq td) then .error .incompatible else .ok (fd.eq td)

/-- `Converter(x, y)` -/
def converterP (limit i j : Nat) : Prog :=
  .look fun st =>
    match (do directness (← st.load limit i) (← st.load limit j)) with
    | .error e => .done (.error e)
    | .ok direct => symbolic limit i fun v => symbolic limit j fun w =>
      .done ((link direct v w).map .converter)

/-- what the methods other than the constructors do -/
def Call.prog (limit : Nat) : Call → Prog
  | .expanded i => .look fun st => .done (do .ok (.text (← (← st.load limit i).expanded)))
  | .dimensionality i => .look fun st => .done (do .ok (.dims (← (← st.load limit i).dimObj)))
  | .isConvertibleTo i j => .look fun st =>
    .done (do .ok (.bool (← (← st.load limit i).isConvertibleTo (← st.load limit j))))
  | .equal i j => equalP limit i j
  | .converter i j => converterP limit i j
  | _ => .done (.ok .nothing)

/-- The objects a call mentions must exist: a caller has no other. -/
def Call.mentions (st : Store) : Call → Bool
  | .newBasis _ _ _ => true
  | .newPrefix _ => true
  | .newMap entries => entries.all fun e => decide (e.2 < st.cells.length)
  | .newUnit _ _ m => decide (m < st.maps.length)
  | .newDate u _ => decide (u < st.cells.length)
  | .setItem m _ i => decide (m < st.maps.length) && decide (i < st.cells.length)
  | .expanded i => decide (i < st.cells.length)
  | .dimensionality i => decide (i < st.cells.length)
  | .isConvertibleTo i j => decide (i < st.cells.length) && decide (j < st.cells.length)
  | .equal i j => decide (i < st.cells.length) && decide (j < st.cells.length)
  | .converter i j => decide (i < st.cells.length) && decide (j < st.cells.length)

/-- a new object; its cache is `None` -/
def Store.alloc (st : Store) (c : Cell) : Py Result × Store :=
  (.ok (.address st.cells.length), { st with cells := st.cells ++ [c] })

/-- The constructors and `mapping[k] = object`: what they return and the memory they leave.  A constructor that raises leaves
nothing behind. -/
def Call.construct (limit : Nat) (st : Store) : Call → Py Result × Store
  | .newBasis names dl t =>
    match mkBasis names dl t with
    | .ok b => st.alloc (.basis b)
    | .error e => (.error e, st)
  | .newPrefix p => st.alloc (.pre p)
  | .newMap entries => (.ok (.address st.maps.length), { st with maps := st.maps ++ [entries] })
  | .newUnit names defn m =>
    match (do mkUnit names defn (← followAll (st.follow limit) ((st.maps[m]?).getD []))) with
    | .ok _ => st.alloc (.unit names defn m)
    | .error e => (.error e, st)
  | .newDate u reference =>
    match (do mkDate (← st.follow limit u) reference) with
    | .ok _ => st.alloc (.date u reference)
    | .error e => (.error e, st)
  | .setItem m k i => (.ok .nothing, { st with maps := st.maps.modify m (Dict.set k i) })
  | _ => (.ok .nothing, st)

/-- is it a constructor or an assignment (one step), or a method? -/
def Call.isMethod : Call → Bool
  | .expanded _ | .dimensionality _ | .isConvertibleTo _ _ | .equal _ _ | .converter _ _ => true
  | _ => false

/-! ## Threads -/

/-- a thread: the call it makes and what is left to do (`none` if it was killed) -/
structure Thread where
  call : Call
  rest : Option Prog

/-- the memory and the threads that use it -/
structure Pool where
  store : Store := {}
  threads : List Thread := []

/-- What can happen next: a new call (a constructor runs at once), thread `i` does one step, thread `i` dies. -/
inductive Event where
  | call (c : Call)
  | run (i : Nat)
  | kill (i : Nat)

/-- one step of a thread -/
def Prog.step (st : Store) : Prog → Prog × Store
  | .done r => (.done r, st)
  | .look k => (k st, st)
  | .get i k => (k (Dict.get i st.caches), st)
  | .set i v k => (k, { st with caches := Dict.set i v st.caches })

/-- one event -/
def Pool.step (limit : Nat) (p : Pool) : Event → Pool
  | .call c =>
    if c.mentions p.store then
      if c.isMethod then { p with threads := p.threads ++ [⟨c, some (c.prog limit)⟩] }
      else
        let (r, st) := c.construct limit p.store
        { store := st, threads := p.threads ++ [⟨c, some (.done r)⟩] }
    else p
  | .run i =>
    match p.threads[i]? with
    | some ⟨c, some m⟩ =>
      let (m', st) := m.step p.store
      { store := st, threads := p.threads.set i ⟨c, some m'⟩ }
    | _ => p
  | .kill i =>
    match p.threads[i]? with
    | some ⟨c, _⟩ => { p with threads := p.threads.set i ⟨c, none⟩ }
    | none => p

/-- a schedule -/
def Pool.run (limit : Nat) (p : Pool) (evs : List Event) : Pool := evs.foldl (Pool.step limit) p

end Verif.Objects
