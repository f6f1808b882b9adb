import Verif.Model.Xml
import Verif.Spec.Registry
/-!
# Specification of database loading
-/

namespace Verif.Spec

/-- The first child of a tag with a given name. -/
def firstNamed (t : Tag) (n : Str) : Option Tag := t.children.find? fun c => decide (c.name = n)

/-- English-style plural: *es* after s, sh, ch, x, z; otherwise *s*. -/
inductive Plural : Str → Str → Prop
  | es (stem e : Str) : e ∈ [c!"s", c!"sh", c!"ch", c!"x", c!"z"] → Plural (stem ++ e) (stem ++ e ++ c!"es")
  | s (w : Str) : (∀ stem, ∀ e ∈ [c!"s", c!"sh", c!"ch", c!"x", c!"z"], w ≠ stem ++ e) → Plural w (w ++ c!"s")

/-- The names under which a declared unit is to be known. -/
def declRef : UnitDecl → UnitReference
  | .lazy _ r => r
  | .basis b => b.names

/-- The units of a document with the object each one is registered as: the `i`-th unit with a definition is lazily
defined object number `i` (counting from `h`). -/
def withEntries : Nat → List UnitDecl → List (UnitReference × Entry)
  | _, [] => []
  | h, .lazy _ r :: ds => (r, .lazy h) :: withEntries (h + 1) ds
  | h, .basis b :: ds => (b.names, .unit (.basis b)) :: withEntries h ds

/-- The lazily defined units of a document, in order, none of them resolved. -/
def lazyObjs : List UnitDecl → List LazyObj
  | [] => []
  | .lazy t r :: ds => ⟨t, r, none⟩ :: lazyObjs ds
  | .basis _ :: ds => lazyObjs ds

/-- A table contains exactly the spellings claimed (by `f`), each for the unit claiming it. -/
def TableIs (claims : UnitReference → Str → Prop) (units : List (UnitReference × Entry)) (d : Dict Str Entry) : Prop :=
  ∀ k e, Dict.get k d = some e ↔ ∃ r, (r, e) ∈ units ∧ claims r k

/-- No two units of the list claim the same spelling. -/
def Distinct (claims : UnitReference → Str → Prop) (ds : List UnitDecl) : Prop :=
  ds.Pairwise fun a b => ∀ k, ¬ (claims (declRef a) k ∧ claims (declRef b) k)

/-- `k` is a symbol of the unit -/
def IsSymbol (r : UnitReference) (k : Str) : Prop := k ∈ r.symbols
/-- `k` is an alias symbol of the unit -/
def IsAliasSymbol (r : UnitReference) (k : Str) : Prop := k ∈ r.aliasSymbols

/-- The children of a tag with a given name, in order. -/
def allNamed (t : Tag) (n : Str) : List Tag := t.children.filter fun c => decide (c.name = n)

/-- Two lists related element by element. -/
inductive Each {α β : Type} (R : α → β → Prop) : List α → List β → Prop
  | nil : Each R [] []
  | cons {a : α} {b : β} {l : List α} {m : List β} : R a b → Each R l m → Each R (a :: l) (b :: m)

/-- What a `name` element says: its `singular`; its `plural`, or none if it has `noplural`, or the English plural. -/
def NameIs (t : Tag) (n : Name) : Prop :=
  ∃ sing, firstNamed t c!"singular" = some sing ∧ sing.children = [] ∧ n.singular = sing.text ∧
    ((∃ p, firstNamed t c!"plural" = some p ∧ firstNamed t c!"noplural" = none ∧ n.plural = some p.text) ∨
     (∃ np, firstNamed t c!"plural" = none ∧ firstNamed t c!"noplural" = some np ∧ np.children = [] ∧ np.text = [] ∧
        n.plural = none) ∨
     (firstNamed t c!"plural" = none ∧ firstNamed t c!"noplural" = none ∧ ∃ p, Plural sing.text p ∧ n.plural = some p))

/-- What a `prefix` element says: its `name`, its `value` as written, and the set of its `symbol`s (iterated in `order`). -/
def PrefixIs (order : List Str → List Str) (t : Tag) (p : Prefix) : Prop :=
  ∃ name value, firstNamed t c!"name" = some name ∧ name.children = [] ∧
    firstNamed t c!"value" = some value ∧ value.children = [] ∧
    p.name = name.text ∧ p.value = value.text ∧ p.symbols = order (symbolSet ((allNamed t c!"symbol").map Tag.text))

/-- How a `unit` element names its unit: its `name` if any, its `symbol`s, and in its `aliases` the further names and
symbols. -/
def RefIs (t : Tag) (r : UnitReference) : Prop :=
  ((firstNamed t c!"name" = none ∧ r.name = none) ∨
    ∃ nt n, firstNamed t c!"name" = some nt ∧ NameIs nt n ∧ r.name = some n) ∧
  r.symbols = (allNamed t c!"symbol").map Tag.text ∧
  ((firstNamed t c!"aliases" = none ∧ r.aliasNames = [] ∧ r.aliasSymbols = []) ∨
    ∃ a, firstNamed t c!"aliases" = some a ∧ a.text = [] ∧ Each NameIs (allNamed a c!"name") r.aliasNames ∧
      r.aliasSymbols = (allNamed a c!"symbol").map Tag.text ∧
      ∀ c ∈ allNamed a c!"symbol", c.text ≠ [] ∧ c.children = [])

/-- What a `unit` element declares: with a `def`, a unit with that definition; otherwise a basis unit, dimensionless if it
has a `dimensionless` element (else it must have an empty `base`), referred to by its singular name or, if that is empty, by
its first symbol; it is the unit of time if it is called `second`. -/
def UnitIs (t : Tag) (d : UnitDecl) : Prop :=
  (∃ df r, firstNamed t c!"def" = some df ∧ df.children = [] ∧ RefIs t r ∧ d = .lazy df.text r) ∨
  (firstNamed t c!"def" = none ∧ ∃ (b : Basis) (n : Name), RefIs t b.names ∧ b.names.name = some n ∧
    (b.ref = n.singular ∧ n.singular ≠ [] ∨ n.singular = [] ∧ ∃ rest, b.names.symbols = b.ref :: rest) ∧
    (b.dimensionless = true ∧ (∃ x, firstNamed t c!"dimensionless" = some x) ∨
      b.dimensionless = false ∧ firstNamed t c!"dimensionless" = none ∧
        ∃ x, firstNamed t c!"base" = some x ∧ x.text = [] ∧ x.children = []) ∧
    (b.isTime = true ↔ n.singular = c!"second") ∧ d = .basis b)

/-- The prefixes and units a `unit-system` element declares, in document order, whatever else it contains. -/
def Declares (order : List Str → List Str) (t : Tag) (ps : List Prefix) (ds : List UnitDecl) : Prop :=
  Each (PrefixIs order) (allNamed t c!"prefix") ps ∧ Each UnitIs (allNamed t c!"unit") ds

/-- The element reached from the root by following child numbers. -/
def at? : Elem → List Nat → Option Elem
  | e, [] => some e
  | .comment, _ :: _ => none
  | .node _ _ cs, i :: path => match cs[i]? with
    | some c => at? c path
    | none => none

/-- The local part of a tag is `l`: what follows `{uri}`, or everything if there is no namespace. -/
inductive LocalName : Str → Str → Prop
  | plain (l : Str) : '}' ∉ l → LocalName l l
  | namespaced (uri l : Str) : '}' ∉ uri → LocalName (uri ++ '}' :: l) l

/-- An element called `unit-system` is found by following `path`. -/
def IsUnitSystem (doc : Elem) (path : List Nat) (e : Elem) : Prop :=
  at? doc path = some e ∧ ∃ tag text cs, e = .node tag text cs ∧ LocalName tag c!"unit-system"

mutual
/-- The tag read for an element: the part of its tag after the first `}` (nothing if there is none), its text without
surrounding blanks, its children in order; impossible for comments. -/
inductive ReadAs : Elem → Tag → Prop
  | plain {tag : Str} {text : Option Str} {cs : List Elem} {ts : List Tag} : '}' ∉ tag → ReadAll cs ts →
      ReadAs (.node tag text cs) (.mk [] ts (strip (text.getD [])))
  | namespaced {uri l : Str} {text : Option Str} {cs : List Elem} {ts : List Tag} : '}' ∉ uri → ReadAll cs ts →
      ReadAs (.node (uri ++ '}' :: l) text cs) (.mk l ts (strip (text.getD [])))
/-- element by element -/
inductive ReadAll : List Elem → List Tag → Prop
  | nil : ReadAll [] []
  | cons {e : Elem} {t : Tag} {es : List Elem} {ts : List Tag} : ReadAs e t → ReadAll es ts → ReadAll (e :: es) (t :: ts)
end

end Verif.Spec
