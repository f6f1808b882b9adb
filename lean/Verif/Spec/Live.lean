import Verif.Spec.Threads
import Verif.Spec.Build
/-!
# Specification: registering units while other threads use the system

What the completed system is, what a spelling can mean in it, and when the registrations leave each spelling with one
meaning.
-/

namespace Verif.Spec

/-- the calls made in a schedule, in order -/
def called : List Event → List Job
  | [] => []
  | .call j :: evs => j :: called evs
  | _ :: evs => called evs

/-- The system after the call, if it is a registration, as if nobody else was there (and collisions were not checked). -/
def complete : Job → System → System
  | .addUnit u _, s =>
    match s.namesOf (.unit u) with
    | .ok ref => s.register ref (.unit u)
    | .error _ => s
  | .define d names _, s => (s.alloc d names).2.register names (.lazy s.heap.length)
  | .addPrefix p, s => s.addPrefix p
  | _, s => s

/-- The calls one after the other; of those marked `false` only the object they create is there. -/
def build (l : List (Job × Bool)) (s : System) : System :=
  l.foldl (fun s x => if x.2 then complete x.1 s else x.1.create s) s

/-- The system with all registrations made. -/
def completed (js : List Job) (s : System) : System := build (js.map fun j => (j, true)) s

/-- the call has returned, without an exception -/
def Returned (t : Thread) : Bool :=
  match t.rest with
  | some (.done (.ok _)) => true
  | _ => false

/-- The system with exactly those registrations made that have returned. -/
def returnedOnly (p : Pool) (s : System) : System := build (p.threads.map fun t => (t.job, Returned t)) s

/-- `k` is a key under which the unit is put into the table. -/
def KeyOf (ref : UnitReference) (k : Str) : Table → Prop
  | .names => IsName ref k
  | .symbols => k ∈ ref.symbols
  | .aliasNames => IsAlias ref k
  | .aliasSymbols => k ∈ ref.aliasSymbols

/-- The call registers the object `e` with the names `ref`; a definition creates the object `id`. -/
inductive Registers (id : Nat) : Job → UnitReference → Entry → Prop
  | basis (b : Basis) (replace : Bool) : Registers id (.addUnit (.basis b) replace) b.names (.unit (.basis b))
  | unit (n : UnitReference) (d : Node) (refs : List (Str × Ref)) (replace : Bool) :
      Registers id (.addUnit (.unit (some n) d refs) replace) n (.unit (.unit (some n) d refs))
  | define (d : Str) (names : UnitReference) (replace : Bool) : Registers id (.define d names replace) names (.lazy id)

/-- The number of objects created before. -/
def created (js : List Job) (s : System) : Nat := (js.foldl (fun s j => j.create s) s).heap.length

/-- `table[k] = e` holds at the beginning, or is what one of the registrations wants. -/
inductive Claim (s : System) (js : List Job) (t : Table) (k : Str) (e : Entry) : Prop
  | base (h : Dict.get k (s.table t) = some e)
  | call (before after : List Job) (j : Job) (ref : UnitReference) (h : js = before ++ j :: after)
      (hr : Registers (created before s) j ref e) (hk : KeyOf ref k t)

/-- The same for the prefix tables. -/
inductive PrefixClaim (s : System) (js : List Job) : PTable → Str → Prefix → Prop
  | base (t : PTable) (k : Str) (p : Prefix) (h : Dict.get k (s.ptable t) = some p) : PrefixClaim s js t k p
  | name (p : Prefix) (h : Job.addPrefix p ∈ js) : PrefixClaim s js .names p.name p
  | symbol (p : Prefix) (y : Str) (h : Job.addPrefix p ∈ js) (hy : y ∈ p.symbols) : PrefixClaim s js .symbols y p

/-- A way to read a spelling: the key of a table, or a prefix in front of one. -/
inductive Way where
  | direct (t : Table) (e : Entry)
  | prefixed (pt : PTable) (p : Str) (pre : Prefix) (t : Table) (e : Entry)

/-- what the reading says the spelling is, whichever tables that is found in -/
def Way.what : Way → Option (Str × Prefix) × Entry
  | .direct _ e => (none, e)
  | .prefixed _ p pre _ e => (some (p, pre), e)

/-- `n` can be read so, once the registrations are made. -/
def CanRead (s : System) (js : List Job) (n : Str) : Way → Prop
  | .direct t e => Claim s js t n e
  | .prefixed pt p pre t e => PrefixClaim s js pt p pre ∧ ∃ rest, n = p ++ rest ∧ Claim s js t rest e

/-- The registrations give no spelling a second meaning: a reading of a spelling that was not there at the beginning says
what all its readings say. -/
def NoSecondMeaning (s : System) (js : List Job) : Prop :=
  ∀ n c, CanRead s js n c → CanRead s [] n c ∨ ∀ c', CanRead s js n c' → c'.what = c.what

/-- as in every dict, keys are distinct -/
def PrefixDicts (s : System) : Prop := ∀ t, Dict.Nodup (s.ptable t)

end Verif.Spec
