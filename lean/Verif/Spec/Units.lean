import Verif.Spec.Registry
/-!
# Well-formed units
-/

namespace Verif

/-- `sub` occurs in the expression. -/
inductive Occurs (sub : Node) : Node → Prop
  | here : Occurs sub sub
  | mulL {l r} : Occurs sub l → Occurs sub (.mul l r)
  | mulR {l r} : Occurs sub r → Occurs sub (.mul l r)
  | divL {l r} : Occurs sub l → Occurs sub (.div l r)
  | divR {l r} : Occurs sub r → Occurs sub (.div l r)
  | raiseL {l r} : Occurs sub l → Occurs sub (.raise l r)
  | raiseR {l r} : Occurs sub r → Occurs sub (.raise l r)
  | shiftU {u f} : Occurs sub u → Occurs sub (.shift u f)
  | shiftF {u f} : Occurs sub f → Occurs sub (.shift u f)
  | log {fn t} : Occurs sub t → Occurs sub (.log fn t)

/-- The expression may be the definition of a unit: every shift in it is by a number and shifts
something that has a dimensionality and is not a time unit; nothing is left unhandled. -/
def Admissible (refs : List (Str × Ref)) (e : Node) : Prop :=
  (∀ u f, Occurs (.shift u f) e →
    (∃ v raw, f = .number v raw) ∧ (Ref.unit none u refs).isTimeUnit = .ok false) ∧
  ∀ raw, ¬ Occurs (.unhandled raw) e

/-- Everything below the unit is admissible and every identifier of every definition is bound. -/
inductive WellBuilt : Ref → Prop
  | basis (b : Basis) : WellBuilt (.basis b)
  | pre (p : Prefix) : WellBuilt (.pre p)
  | unit (names : Option UnitReference) (e : Node) (refs : List (Str × Ref)) :
      (∀ n ∈ e.identifiers, n ∈ Dict.keys refs) → Admissible refs e →
      (∀ n r, Dict.get n refs = some r → WellBuilt r) → WellBuilt (.unit names e refs)

/-- `x` is the unit itself or one of the objects its definition refers to, directly or not. -/
inductive Uses (x : Ref) : Ref → Prop
  | here : Uses x x
  | unit {names e refs n r} : (n, r) ∈ refs → Uses x r → Uses x (.unit names e refs)

/-- The objects that can be built: basis units, prefixes, and what the `Unit`/`NamedUnit` constructor returns
on already built references. -/
inductive Constructed : Ref → Prop
  | basis (b : Basis) : Constructed (.basis b)
  | pre (p : Prefix) : Constructed (.pre p)
  | unit {names : Option UnitReference} {e : Node} {refs : List (Str × Ref)} {r : Ref} :
      (∀ n x, (n, x) ∈ refs → Constructed x) → mkUnit names e refs = .ok r → Constructed r

/-- the reference text of a shift: what was written after `@`/`since` -/
def Node.rawText : Node → Option (Option Str)
  | .number _ raw => some raw
  | .unhandled raw => some (some raw)
  | _ => none

/-- a basis unit below a unit -/
inductive Below (b : Basis) : Ref → Prop
  | basis : Below b (.basis b)
  | unit {names e refs n r} : n ∈ e.identifiers → Dict.get n refs = some r → Below b r → Below b (.unit names e refs)

namespace Spec

/-- Histories in which every unit object added directly satisfies `P` (lazily defined units, prefixes and
queries are unrestricted). -/
inductive BuiltFrom (P : Ref → Prop) (env : Env) : System → Prop
  | empty : BuiltFrom P env System.empty
  | addPrefix {s} (p : Prefix) : BuiltFrom P env s → BuiltFrom P env (s.addPrefix p)
  | newLazy {s} (defn : Str) (names : UnitReference) :
      BuiltFrom P env s → BuiltFrom P env (s.alloc defn names).2
  | addUnit {s} (r : Ref) (replace : Bool) : P r → BuiltFrom P env s → BuiltFrom P env (s.addUnit (.unit r) replace).2
  | addLazy {s} (id : Nat) (replace : Bool) : id < s.heap.length →
      BuiltFrom P env s → BuiltFrom P env (s.addUnit (.lazy id) replace).2
  | query {s} (q : Query) : BuiltFrom P env s → BuiltFrom P env (q.effect env s)

end Spec
end Verif
