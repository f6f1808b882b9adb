import Verif.Spec.Lookup
/-!
# Specification: which spellings have a meaning in a registry
-/

namespace Verif.Spec

/-- A spelling is read as a registered object: directly, or else behind the first prefix that leaves a registered
spelling. -/
def Reads (s : System) (n : Str) (e : Entry) : Prop :=
  direct s n = some e ∨
  (direct s n = none ∧ ∃ p pre rest, FirstSplit s n (s.prefixNames ++ s.prefixSymbols) p pre rest e)

/-- An expression without offsets (`@`, `since`, …). -/
def ShiftFree : Node → Prop
  | .number _ _ | .ident _ => True
  | .unhandled _ | .shift _ _ => False
  | .mul l r | .div l r | .raise l r => ShiftFree l ∧ ShiftFree r
  | .log _ t => ShiftFree t

/-- The unit can be built from the expression whatever its identifiers were resolved to in this registry.
(Only offsets can make this fail.) -/
def Builds (env : Env) (s : System) (names : UnitReference) (expr : Node) : Prop :=
  ∀ refs : List (Str × Ref), (∀ k r, Dict.get k refs = some r → ∃ d, lookup env s d k = .ok r) →
    (∀ k ∈ expr.identifiers, (Dict.get k refs).isSome) → ∃ r, mkUnit (some names) expr refs = .ok r

/-- `good` is a set of lazily defined units with well-founded definitions: each definition parses, can be built, and
mentions only spellings that are read as basis units (or other finished units) or as members of smaller rank. -/
def WellFounded (env : Env) (s : System) (good : Nat → Prop) (rank : Nat → Nat) : Prop :=
  ∀ id, good id → ∃ o expr, s.heap[id]? = some o ∧ env.parse o.defn = .ok expr ∧
    (ShiftFree expr ∨ Builds env s o.names expr) ∧
    ∀ n ∈ expr.identifiers, ∃ e, Reads s n e ∧ ∀ b, e = .lazy b → good b ∧ rank b < rank id

/-- A lazily defined unit that can never be resolved: its definition does not parse, or mentions a spelling without
reading, or one that is read as another such unit. -/
inductive Broken (env : Env) (s : System) : Nat → Prop
  | badSyntax {id : Nat} {o : LazyObj} {e : PyErr} : s.heap[id]? = some o → env.parse o.defn = .error e → Broken env s id
  | unreadable {id : Nat} {o : LazyObj} {expr : Node} {n : Str} : s.heap[id]? = some o → env.parse o.defn = .ok expr →
      n ∈ expr.identifiers → (∀ e, ¬ Reads s n e) → Broken env s id
  | uses {id b : Nat} {o : LazyObj} {expr : Node} {n : Str} : s.heap[id]? = some o → env.parse o.defn = .ok expr →
      n ∈ expr.identifiers → Reads s n (.lazy b) → Broken env s b → Broken env s id

end Verif.Spec
