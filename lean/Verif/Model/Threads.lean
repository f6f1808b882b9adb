import Verif.Model.System
/-!
# Lookups and registrations as sequences of atomic steps

`Model/System.lean` gives each method of `UnitSystem` as one function from a state to a state.  Here the same Python
code (`_unit_system.py:43-62,117-155,201-292`) is written as a *program*: a tree of the single accesses
it makes to the objects shared between threads (one `dict.get`, one `dict[key] = value`, one step of an iteration
over a dict, one read or write of the attribute `_resolved_unit`).  Between two accesses another thread may run, or the program may be
abandoned by an exception raised asynchronously (`KeyboardInterrupt`, `MemoryError`, a `RecursionError`
deep in the call stack, the death of the thread).  None of these functions has a `try`/`finally`, so an
abandoned program performs no further access.

The grain of interleaving is that of CPython, where a `dict.get`/`dict.__setitem__`/`in` with `str` keys, one step of a
dict iterator and an attribute access are each atomic.  A dict iterator remembers the size of the dict and raises
`RuntimeError` when it has changed; nothing is ever removed from these dicts, so the entries keep their places.
Everything else a lookup does (parsing, building a unit) touches only objects of its own.
-/

namespace Verif

/-- The four unit tables (`_unit_system.py:87-91`). -/
inductive Table where
  | names | symbols | aliasNames | aliasSymbols
  deriving DecidableEq, Repr

/-- the table itself -/
def System.table (s : System) : Table → Dict Str Entry
  | .names => s.names
  | .symbols => s.symbols
  | .aliasNames => s.aliasNames
  | .aliasSymbols => s.aliasSymbols

/-- `table[n] = e` -/
def System.setEntry (s : System) (t : Table) (n : Str) (e : Entry) : System :=
  match t with
  | .names => { s with names := Dict.set n e s.names }
  | .symbols => { s with symbols := Dict.set n e s.symbols }
  | .aliasNames => { s with aliasNames := Dict.set n e s.aliasNames }
  | .aliasSymbols => { s with aliasSymbols := Dict.set n e s.aliasSymbols }

/-- The two prefix tables (`_unit_system.py:93-94`). -/
inductive PTable where
  | names | symbols
  deriving DecidableEq, Repr

/-- the table itself -/
def System.ptable (s : System) : PTable → Dict Str Prefix
  | .names => s.prefixNames
  | .symbols => s.prefixSymbols

/-- `table[k] = p` -/
def System.setPrefix (s : System) (t : PTable) (k : Str) (p : Prefix) : System :=
  match t with
  | .names => { s with prefixNames := Dict.set k p s.prefixNames }
  | .symbols => { s with prefixSymbols := Dict.set k p s.prefixSymbols }

/-- What a step of a dict iterator gives. -/
inductive NextItem where
  /-- `RuntimeError: dictionary changed size during iteration` -/
  | changed
  /-- the iteration is over -/
  | stop
  | item (p : Str) (pre : Prefix)

/-- CPython's `dictiter_iternextitem`: first the size is compared with the size at the start, then the next entry, if any,
is returned. -/
def nextItem (d : Dict Str Prefix) (size i : Nat) : NextItem :=
  if d.length ≠ size then .changed
  else match d[i]? with
    | none => .stop
    | some (p, pre) => .item p pre

/-- One atomic access to shared objects. -/
inductive Act where
  /-- `table.get(n, None)` (`_unit_system.py:202,209`), and `n in table` (`_unit_system.py:125,130,136`) -/
  | get (t : Table) (n : Str)
  /-- `table[n] = unit` (`_unit_system.py:142,144,147,150,152,155`) -/
  | set (t : Table) (n : Str) (e : Entry)
  /-- reading the `_resolved_unit` attribute of a lazily defined unit (`_unit_system.py:44,62`); the
  other two attributes, `_definition` and `_names`, are never written, so they are returned along. -/
  | read (id : Nat)
  /-- `self._resolved_unit = unit` (`_unit_system.py:56`) -/
  | write (id : Nat) (r : Ref)
  /-- starting an iteration over `_prefix_names.items()` or `_prefix_symbols.items()` (`_unit_system.py:229,253`):
  the iterator remembers the number of entries -/
  | iter (t : PTable)
  /-- the next step of an iteration that has made `i` steps over a dict of `size` entries -/
  | next (t : PTable) (size i : Nat)
  /-- `table[k] = prefix` (`_unit_system.py:118,120`) -/
  | setPrefix (t : PTable) (k : Str) (p : Prefix)

/-- what an access returns -/
def Act.Resp : Act → Type
  | .get _ _ => Option Entry
  | .set _ _ _ => Unit
  | .read _ => Option LazyObj
  | .write _ _ => Unit
  | .iter _ => Nat
  | .next _ _ _ => NextItem
  | .setPrefix _ _ _ => Unit

/-- the effect of an access on the shared objects -/
def Act.run : (a : Act) → System → a.Resp × System
  | .get t n, s => (Dict.get n (s.table t), s)
  | .set t n e, s => ((), s.setEntry t n e)
  | .read id, s => (s.heap[id]?, s)
  | .write id r, s => ((), s.setResolved id r)
  | .iter t, s => ((s.ptable t).length, s)
  | .next t size i, s => (nextItem (s.ptable t) size i, s)
  | .setPrefix t k p, s => ((), s.setPrefix t k p)

/-- A program: finished with a result or an exception, or about to make an access. -/
inductive Prog (α : Type) where
  | done (r : Except PyErr α)
  | act (a : Act) (k : a.Resp → Prog α)

/-- run `m`, then `k` on its result; an exception propagates -/
def Prog.bind {α β} : Prog α → (α → Prog β) → Prog β
  | .done (.ok x), k => k x
  | .done (.error e), _ => .done (.error e)
  | .act a c, k => .act a fun x => (c x).bind k

/-- one access -/
def Prog.one (a : Act) : Prog a.Resp := .act a fun x => .done (.ok x)

/-- the program run with no other thread around -/
def Prog.alone {α} : Prog α → System → Except PyErr α × System
  | .done r, s => (r, s)
  | .act a k, s => (k (a.run s).1).alone (a.run s).2

/-- `table[k] = e` for each key in turn -/
def setKeysP (t : Table) (e : Entry) : List Str → Prog Unit
  | [] => .done (.ok ())
  | k :: ks => (Prog.one (.set t k e)).bind fun _ => setKeysP t e ks

/-- The writes of `add_unit` (`_unit_system.py:141-155`), one at a time and in order. -/
def writeUnitP (ref : UnitReference) (e : Entry) : Prog Unit :=
  (setKeysP .names e (nameKeys ref.name)).bind fun _ =>
  (setKeysP .symbols e ref.symbols).bind fun _ =>
  (setKeysP .aliasNames e (aliasKeys ref.aliasNames)).bind fun _ =>
  setKeysP .aliasSymbols e ref.aliasSymbols

/-- `self.add_unit(unit, replace=True)` (`_unit_system.py:205,212`); with `replace=True` nothing is read before.
`unit = None` and a unit without names are the AttributeError of `unit._names`. -/
def addUnitP (r : Option Ref) : Prog Unit :=
  match r with
  | some (.basis b) => writeUnitP b.names (.unit (.basis b))
  | some (.unit (some n) d refs) => writeUnitP n (.unit (.unit (some n) d refs))
  | _ => .done (.error .attributeError)

/-- The dict comprehension `{identifier: unit_by_name_or_symbol(identifier.content) for …}`
(`_unit_system.py:51-54,288-291`). -/
def lookupAllP (look : Str → Prog Ref) : List Str → Prog (List (Str × Ref))
  | [] => .done (.ok [])
  | n :: ns =>
    (look n).bind fun r =>
    (lookupAllP look ns).bind fun rs => .done (.ok ((n, r) :: rs))

/-- `return self._resolved_unit` (`_unit_system.py:62`): a *second* read of the attribute. -/
def returnResolvedP (id : Nat) : Prog (Option Ref) :=
  (Prog.one (.read id)).bind fun o =>
    match (o : Option LazyObj) with
    | none => .done (.error .unmodelled)
    | some o => .done (.ok o.resolved)

/-- `LazilyDefinedUnit.resolve` (`_unit_system.py:43-62`): test the attribute, compute and write it if it
is `None`, then return whatever it holds by then. -/
def resolveP (env : Env) (look : Str → Prog Ref) (id : Nat) : Prog (Option Ref) :=
  (Prog.one (.read id)).bind fun o =>
    match (o : Option LazyObj) with
    | none => .done (.error .unmodelled)
    | some o =>
      match o.resolved with
      | some _ => returnResolvedP id
      | none =>
        (Prog.done (env.parse o.defn)).bind fun expr =>
        (lookupAllP look (env.order expr.identifiers)).bind fun refs =>
        (Prog.done (mkUnit (some o.names) expr refs)).bind fun r =>
        (Prog.one (.write id r)).bind fun _ => returnResolvedP id

/-- The `isinstance(unit, LazilyDefinedUnit)` branch of `_unit_by_name` / `_unit_by_symbol`
(`_unit_system.py:203-206,210-213`). -/
def fetchP (env : Env) (look : Str → Prog Ref) : Option Entry → Prog (Option Ref)
  | none => .done (.ok none)
  | some (.unit r) => .done (.ok (some r))
  | some (.lazy id) =>
    (resolveP env look id).bind fun r =>
    (addUnitP r).bind fun _ => .done (.ok r)

/-- `self.<t>.get(n, None) or self.<t'>.get(n, None)` (`_unit_system.py:202,209`): two separate reads. -/
def entryP (t t' : Table) (n : Str) : Prog (Option Entry) :=
  (Prog.one (.get t n)).bind fun e =>
    match (e : Option Entry) with
    | some e => .done (.ok (some e))
    | none => Prog.one (.get t' n)

/-- `_unit_by_name` (`_unit_system.py:201-206`) -/
def byNameP (env : Env) (look : Str → Prog Ref) (n : Str) : Prog (Option Ref) :=
  (entryP .names .aliasNames n).bind (fetchP env look)

/-- `_unit_by_symbol` (`_unit_system.py:208-213`) -/
def bySymbolP (env : Env) (look : Str → Prog Ref) (n : Str) : Prog (Option Ref) :=
  (entryP .symbols .aliasSymbols n).bind (fetchP env look)

/-- `self._unit_by_name(n) or self._unit_by_symbol(n)` (`_unit_system.py:222-226,231-233,255-257`) -/
def byNameOrSymbolP (env : Env) (look : Str → Prog Ref) (n : Str) : Prog (Option Ref) :=
  (byNameP env look n).bind fun u =>
    match u with
    | some r => .done (.ok (some r))
    | none => bySymbolP env look n

/-- The prefix loops (`_unit_system.py:229-250,253-274`), with `left` of `size` entries still to come. -/
def prefixLoopP (env : Env) (look : Str → Prog Ref) (n : Str) (t : PTable) (size : Nat) : Nat → Prog (Option Ref)
  | 0 =>
    (Prog.one (.next t size size)).bind fun x =>
      match (x : NextItem) with
      | .changed => .done (.error .runtimeError)
      | _ => .done (.ok none)
  | left + 1 =>
    (Prog.one (.next t size (size - (left + 1)))).bind fun x =>
      match (x : NextItem) with
      | .changed => .done (.error .runtimeError)
      | .stop => .done (.ok none)
      | .item p pre =>
        match dropPrefix p n with
        | none => prefixLoopP env look n t size left
        | some rest =>
          (byNameOrSymbolP env look rest).bind fun u =>
            match u with
            | none => prefixLoopP env look n t size left
            | some u => (Prog.done (prefixed p pre rest u)).bind fun r => .done (.ok (some r))

/-- `for prefix_name, prefix in self._prefix_names.items(): …` (`_unit_system.py:229,253`) -/
def prefixesP (env : Env) (look : Str → Prog Ref) (n : Str) (t : PTable) : Prog (Option Ref) :=
  (Prog.one (.iter t)).bind fun size => prefixLoopP env look n t size size

/-- Body of `unit_by_name_or_symbol` (`_unit_system.py:215-281`). -/
def lookupStepP (env : Env) (look : Str → Prog Ref) (n : Str) : Prog Ref :=
  (byNameOrSymbolP env look n).bind fun u =>
    match u with
    | some r => .done (.ok r)
    | none =>
      (prefixesP env look n .names).bind fun u =>
        match u with
        | some r => .done (.ok r)
        | none =>
          (prefixesP env look n .symbols).bind fun u =>
            match u with
            | some r => .done (.ok r)
            | none => .done (.error (.unresolvable n))

/-- `unit_by_name_or_symbol`, with the recursion budget of `unitByNameOrSymbol`. -/
def lookupP (env : Env) : Nat → Str → Prog Ref
  | 0, _ => .done (.error .recursionError)
  | fuel + 1, n => lookupStepP env (lookupP env fuel) n

/-- `UnitSystem.unit` (`_unit_system.py:283-292`). -/
def unitP (env : Env) (fuel : Nat) (text : Str) : Prog UObj :=
  (Prog.done (env.parse text)).bind fun expr =>
  (lookupAllP (lookupP env fuel) (env.order expr.identifiers)).bind fun refs =>
  Prog.done (unitFromExpr expr refs)

/-- `if not replace and key in table: raise ValueError` for each key in turn (`_unit_system.py:124-139`) -/
def checkKeysP (t : Table) : List Str → Prog Unit
  | [] => .done (.ok ())
  | k :: ks =>
    (Prog.one (.get t k)).bind fun e =>
      match (e : Option Entry) with
      | some _ => .done (.error (.alreadyRegistered k))
      | none => checkKeysP t ks

/-- `add_unit(unit, replace)` (`_unit_system.py:122-155`) of an object whose `_names` is `ref`: first all checks, then all
writes; nothing is held in between. -/
def registerP (ref : UnitReference) (e : Entry) (replace : Bool) : Prog Unit :=
  if replace then writeUnitP ref e
  else
    (checkKeysP .names (nameKeys ref.name)).bind fun _ =>
    (checkKeysP .symbols ref.symbols).bind fun _ => writeUnitP ref e

/-- `self._prefix_symbols[symbol] = prefix` for each symbol in turn (`_unit_system.py:119-120`) -/
def setPrefixSymbolsP (p : Prefix) : List Str → Prog Unit
  | [] => .done (.ok ())
  | y :: ys => (Prog.one (.setPrefix .symbols y p)).bind fun _ => setPrefixSymbolsP p ys

/-- `add_prefix` (`_unit_system.py:117-120`). -/
def addPrefixP (p : Prefix) : Prog Unit :=
  (Prog.one (.setPrefix .names p.name p)).bind fun _ => setPrefixSymbolsP p p.symbols

/-! ## Threads -/

/-- A call made by some thread. -/
inductive Job where
  /-- `unit_by_name_or_symbol(n)` -/
  | lookup (limit : Nat) (n : Str)
  /-- `unit(text)` -/
  | unit (limit : Nat) (text : Str)
  /-- `add_unit(u, replace)` -/
  | addUnit (u : Ref) (replace : Bool)
  /-- `add_unit(LazilyDefinedUnit(system, defn, names), replace)` -/
  | define (defn : Str) (names : UnitReference) (replace : Bool)
  /-- `add_prefix(p)` -/
  | addPrefix (p : Prefix)
  deriving DecidableEq, Repr

/-- What a call returns. -/
inductive Answer where
  | ref (r : Ref)
  | obj (u : UObj)
  /-- `None`, from a registration -/
  | nothing

/-- The program of a call; `id` is the identity of the object it creates, if it is a definition. -/
def Job.prog (env : Env) (id : Nat) : Job → Prog Answer
  | .lookup l n => (lookupP env l n).bind fun r => .done (.ok (.ref r))
  | .unit l t => (unitP env l t).bind fun u => .done (.ok (.obj u))
  | .addUnit (.basis b) replace => (registerP b.names (.unit (.basis b)) replace).bind fun _ => .done (.ok .nothing)
  | .addUnit (.unit (some n) d refs) replace =>
    (registerP n (.unit (.unit (some n) d refs)) replace).bind fun _ => .done (.ok .nothing)
  | .addUnit _ _ => .done (.error .attributeError)
  | .define _ names replace => (registerP names (.lazy id) replace).bind fun _ => .done (.ok .nothing)
  | .addPrefix p => (addPrefixP p).bind fun _ => .done (.ok .nothing)

/-- The object a definition creates before it is registered (`_unit_system.py:32-41`); no other thread can see it yet. -/
def Job.create : Job → System → System
  | .define defn names _, s => (s.alloc defn names).2
  | _, s => s

/-- A call in flight: what it was, and what remains of it; `none` once it has been abandoned. -/
structure Thread where
  job : Job
  rest : Option (Prog Answer)

/-- All the threads and the unit system they share. -/
structure Pool where
  shared : System
  threads : List Thread

/-- What can happen next. -/
inductive Event where
  /-- a new thread makes a call -/
  | call (j : Job)
  /-- thread `i` makes its next access -/
  | run (i : Nat)
  /-- thread `i` is abandoned where it stands -/
  | kill (i : Nat)
  deriving DecidableEq, Repr

/-- the next access of a thread (nothing if it has finished or has been abandoned) -/
def Thread.step (t : Thread) (s : System) : Thread × System :=
  match t.rest with
  | some (.act a k) => ({ t with rest := some (k (a.run s).1) }, (a.run s).2)
  | _ => (t, s)

/-- one event -/
def Pool.step (env : Env) (p : Pool) : Event → Pool
  | .call j => ⟨j.create p.shared, p.threads ++ [⟨j, some (j.prog env p.shared.heap.length)⟩]⟩
  | .run i =>
    match p.threads[i]? with
    | none => p
    | some t => ⟨(t.step p.shared).2, p.threads.set i (t.step p.shared).1⟩
  | .kill i => { p with threads := p.threads.modify i fun t => { t with rest := none } }

/-- a schedule -/
def Pool.run (env : Env) (p : Pool) (evs : List Event) : Pool := evs.foldl (Pool.step env) p

/-- a unit system nobody is using yet -/
def Pool.start (s : System) : Pool := ⟨s, []⟩

/-- the result of a finished call -/
def Thread.result (t : Thread) : Option (Except PyErr Answer) :=
  match t.rest with
  | some (.done r) => some r
  | _ => none

end Verif
