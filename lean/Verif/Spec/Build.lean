import Verif.Spec.Registry
/-!
# Specification: using a system while it is being built
-/

namespace Verif.Spec

/-- One step in the life of a unit system. -/
inductive Step where
  /-- `add_prefix(p)` -/
  | addPrefix (p : Prefix)
  /-- `add_unit(u)` for a `NamedUnit` or a `BasisUnit` -/
  | addUnit (u : Ref)
  /-- `add_unit(LazilyDefinedUnit(system, defn, names))` -/
  | define (defn : Str) (names : UnitReference)
  /-- a lookup or `unit(text)`, whatever comes of it -/
  | query (q : Query)

/-- The state after the step; a refused `add_unit` raises and changes nothing but the heap. -/
def Step.apply (env : Env) : Step → System → System
  | .addPrefix p, s => s.addPrefix p
  | .addUnit u, s => (s.addUnit (.unit u) false).2
  | .define d names, s => ((s.alloc d names).2.addUnit (.lazy (s.alloc d names).1) false).2
  | .query q, s => q.effect env s

/-- The system after a history of registrations and queries. -/
def live (env : Env) (ts : List Step) (s : System) : System := ts.foldl (fun s t => t.apply env s) s

/-- the step, if it is a registration -/
def Step.register : Step → System → System
  | .addPrefix p, s => s.addPrefix p
  | .addUnit u, s => (s.addUnit (.unit u) false).2
  | .define d names, s => ((s.alloc d names).2.addUnit (.lazy (s.alloc d names).1) false).2
  | .query _, s => s

/-- The system after the same registrations, with no queries made. -/
def registry (ts : List Step) (s : System) : System := ts.foldl (fun s t => t.register s) s

/-- all prefixes of a system, in the order in which they are tried -/
def prefixes (s : System) : List (Str × Prefix) := s.prefixNames ++ s.prefixSymbols

/-- The spelling has no reading, with or without a prefix: looking it up raises
`UnresolvableUnitException` (C04). -/
def Unread (s : System) (k : Str) : Prop := direct s k = none ∧ NoSplit s k (prefixes s)

/-- `k` is a spelling of the unit, of whatever kind. -/
def Spelling (ref : UnitReference) (k : Str) : Prop :=
  IsName ref k ∨ IsAlias ref k ∨ k ∈ ref.symbols ∨ k ∈ ref.aliasSymbols

/-- Registering the unit gives no new reading to a spelling that already had one: each of its spellings
was without a reading, and so were these with a prefix in front (unless they are registered). -/
def FreshUnit (s : System) (ref : UnitReference) : Prop :=
  ∀ k, Spelling ref k → Unread s k ∧ ∀ q ∈ prefixes s, direct s (q.1 ++ k) = none → Unread s (q.1 ++ k)

/-- Registering the prefix gives no new reading to a spelling that already had one. -/
def FreshPrefix (s : System) (p : Prefix) : Prop :=
  ∀ k, (k = p.name ∨ k ∈ p.symbols) →
    Dict.get k s.prefixNames = none ∧ Dict.get k s.prefixSymbols = none ∧
    ∀ rest, direct s rest ≠ none → direct s (k ++ rest) = none → Unread s (k ++ rest)

/-- The step gives no new reading to a spelling that already had one. -/
def Step.Fresh (s : System) : Step → Prop
  | .addPrefix p => FreshPrefix s p
  | .addUnit u => ∀ ref, s.namesOf (.unit u) = .ok ref → FreshUnit s ref
  | .define _ names => FreshUnit s names
  | .query _ => True

/-- Every registration of the history is fresh when it is made. -/
def AllFresh : List Step → System → Prop
  | [], _ => True
  | t :: ts, s => t.Fresh s ∧ AllFresh ts (t.register s)

end Verif.Spec
