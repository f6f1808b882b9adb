import Verif.Spec.Build
/-!
# Specification: the order in which a system is filled
-/

namespace Verif.Spec

/-- The spellings a registration declares; a plain `Unit` (or a prefix) handed to `add_unit` has none. -/
def Step.names : Step → Option UnitReference
  | .addUnit (.basis b) => some b.names
  | .addUnit (.unit n _ _) => n
  | .addUnit (.pre _) => none
  | .define _ n => some n
  | .addPrefix _ => none
  | .query _ => none

/-- The prefix a step adds. -/
def Step.prefix? : Step → Option Prefix
  | .addPrefix p => some p
  | _ => none

/-- What a registration returns or raises. -/
def Step.outcome : Step → System → Except PyErr Unit
  | .addPrefix _, _ => .ok ()
  | .addUnit u, s => (s.addUnit (.unit u) false).1
  | .define d names, s => ((s.alloc d names).2.addUnit (.lazy (s.alloc d names).1) false).1
  | .query _, _ => .ok ()

/-- Every registration of the list returns, none raises. -/
def Accepted : List Step → System → Prop
  | [], _ => True
  | t :: ts, s => t.outcome s = .ok () ∧ Accepted ts (t.register s)

/-- The prefixes added, in order. -/
def prefixesAdded (ts : List Step) : List Prefix := ts.filterMap Step.prefix?

/-- Two units have no spelling of the same kind in common. -/
structure Separate (a b : UnitReference) : Prop where
  names : ∀ k, IsName a k → IsName b k → False
  symbols : ∀ k, k ∈ a.symbols → k ∈ b.symbols → False
  aliasNames : ∀ k, IsAlias a k → IsAlias b k → False
  aliasSymbols : ∀ k, k ∈ a.aliasSymbols → k ∈ b.aliasSymbols → False

/-- No two registrations declare the same spelling of the same kind. -/
def NoShared (ts : List Step) : Prop :=
  ts.Pairwise fun t u => ∀ a b, t.names = some a → u.names = some b → Separate a b

/-- Some registration declares the spelling. -/
def Declared (ts : List Step) (k : Str) : Prop := ∃ t ∈ ts, ∃ ref, t.names = some ref ∧ Spelling ref k

/-- Separate from declared spellings, which are read as they stand, no spelling can be read both with one
prefix and with another: neither by two prefix names, nor by two prefix symbols. -/
def OneReading (ts : List Step) : Prop :=
  ∀ p ∈ prefixesAdded ts, ∀ q ∈ prefixesAdded ts, ∀ k l rest rest' : Str,
    (k = p.name ∧ l = q.name ∨ k ∈ p.symbols ∧ l ∈ q.symbols) →
    k ++ rest = l ++ rest' → Declared ts rest → Declared ts rest' → ¬ Declared ts (k ++ rest) →
    p = q ∧ k = l

end Verif.Spec
