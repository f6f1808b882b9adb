import Verif.Spec.Lookup
/-!
# Specification of registration
-/

namespace Verif.Spec

/-- The unit described by `ref` claims a spelling that is already taken: its singular name or its
non-empty plural name is a registered name, or one of its symbols is a registered symbol. -/
def Collides (s : System) (ref : UnitReference) : Prop :=
  (∃ n, ref.name = some n ∧
    (Dict.has n.singular s.names = true ∨
     ∃ p, n.plural = some p ∧ p ≠ [] ∧ Dict.has p s.names = true)) ∨
  (∃ y ∈ ref.symbols, Dict.has y s.symbols = true)

/-- `k` is a name of the unit: its singular, or its plural if that is not empty. -/
def IsName (ref : UnitReference) (k : Str) : Prop :=
  ∃ n, ref.name = some n ∧ (k = n.singular ∨ (n.plural = some k ∧ k ≠ []))

/-- `k` is an alias name of the unit. -/
def IsAlias (ref : UnitReference) (k : Str) : Prop :=
  ∃ n ∈ ref.aliasNames, k = n.singular ∨ (n.plural = some k ∧ k ≠ [])

/-- Everything a program can do to a unit system through its API, in any order: add prefixes, create
lazily defined units, add units (successfully or not, replacing or not), and make queries. -/
inductive Reachable (env : Env) : System → Prop
  | empty : Reachable env System.empty
  | addPrefix {s} (p : Prefix) : Reachable env s → Reachable env (s.addPrefix p)
  | newLazy {s} (defn : Str) (names : UnitReference) :
      Reachable env s → Reachable env (s.alloc defn names).2
  | addUnit {s} (e : Entry) (replace : Bool) :
      (∀ id, e = .lazy id → id < s.heap.length) →
      Reachable env s → Reachable env (s.addUnit e replace).2
  | query {s} (q : Query) : Reachable env s → Reachable env (q.effect env s)

end Verif.Spec
