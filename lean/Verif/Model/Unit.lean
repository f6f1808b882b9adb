import Verif.Model.Graph
/-!
# Units, dimensionality and normalisation
(`_unit_reference.py`, `_unit.py`, `_expr/normaliser.py`)
-/

namespace Verif

/-- `_unit_reference.py:29-32` -/
structure Name where
  singular : Str
  plural : Option Str
  deriving DecidableEq, Repr

/-- `_unit_reference.py:10-17` -/
structure Prefix where
  name : Str
  value : Str
  symbols : List Str
  deriving DecidableEq, Repr

/-- `_unit_reference.py:35-44` (the `description` field is never read and is left out). -/
structure UnitReference where
  name : Option Name
  symbols : List Str
  aliasNames : List Name
  aliasSymbols : List Str
  deriving DecidableEq, Repr

/-- A `BasisUnit` object (`_unit.py:558-592`). -/
structure Basis where
  ref : Str
  dimensionless : Bool
  isTime : Bool
  names : UnitReference
  deriving DecidableEq, Repr

/-- `BasisUnit.__init__` (`_unit.py:559-570`): `ref = names.name.singular or names.symbols[0]`.
`names.name` is `None` → AttributeError, no symbol → IndexError.
(The `Unit.__init__` call normalises an `Identifier`, which cannot fail.) -/
def mkBasis (names : UnitReference) (dimensionless isTime : Bool) : Py Basis :=
  match names.name with
  | none => .error .attributeError
  | some n =>
    if n.singular ≠ [] then .ok ⟨n.singular, dimensionless, isTime, names⟩
    else match names.symbols with
      | [] => .error .indexError
      | s :: _ => .ok ⟨s, dimensionless, isTime, names⟩

/-- What an identifier of a definition can refer to (`_unit.py:300,332`): a `BasisUnit`, a `Prefix`,
or a `Unit`/`NamedUnit` (`names = none` for a plain `Unit`) with its own definition and references.
Object identity is not modelled: units are values. -/
inductive Ref where
  | basis (b : Basis)
  | pre (p : Prefix)
  | unit (names : Option UnitReference) (defn : Node) (refs : List (Str × Ref))
  deriving Repr

mutual
/-- decidable equality of unit values (used to evaluate examples) -/
def Ref.decEq : (a b : Ref) → Decidable (a = b)
  | .basis a, .basis b => if h : a = b then isTrue (by rw [h]) else isFalse (by intro h'; cases h'; exact h rfl)
  | .pre a, .pre b => if h : a = b then isTrue (by rw [h]) else isFalse (by intro h'; cases h'; exact h rfl)
  | .unit n d r, .unit n' d' r' =>
    if h : n = n' ∧ d = d' then
      match Ref.decEqList r r' with
      | isTrue h' => isTrue (by rw [h.1, h.2, h'])
      | isFalse h' => isFalse (by intro h''; cases h''; exact h' rfl)
    else isFalse (by intro h''; cases h''; exact h ⟨rfl, rfl⟩)
  | .basis _, .pre _ => isFalse (by intro h; cases h)
  | .basis _, .unit .. => isFalse (by intro h; cases h)
  | .pre _, .basis _ => isFalse (by intro h; cases h)
  | .pre _, .unit .. => isFalse (by intro h; cases h)
  | .unit .., .basis _ => isFalse (by intro h; cases h)
  | .unit .., .pre _ => isFalse (by intro h; cases h)
def Ref.decEqList : (a b : List (Str × Ref)) → Decidable (a = b)
  | [], [] => isTrue rfl
  | [], _ :: _ => isFalse (by intro h; cases h)
  | _ :: _, [] => isFalse (by intro h; cases h)
  | (n, r) :: l, (n', r') :: l' =>
    if h : n = n' then
      match Ref.decEq r r' with
      | isTrue h1 =>
        match Ref.decEqList l l' with
        | isTrue h2 => isTrue (by rw [h, h1, h2])
        | isFalse h2 => isFalse (by intro h''; cases h''; exact h2 rfl)
      | isFalse h1 => isFalse (by intro h''; cases h''; exact h1 rfl)
    else isFalse (by intro h''; cases h''; exact h rfl)
end
instance : DecidableEq Ref := Ref.decEq

/-! ## Dimensionality -/

/-- `dict[BasisUnit, int]`.  `BasisUnit.__hash__` is constant and `__eq__` (inherited from `Unit`,
`_unit.py:364-381`) compares the definitions `Identifier(ref)`, so keys are equal iff their `ref`s are. -/
abbrev Dims := List (Basis × Int)

namespace Dims
/-- `d.get(b, None)` -/
def get? (r : Str) : Dims → Option Int
  | [] => none
  | (b, v) :: d => if b.ref = r then some v else get? r d

/-- the power of a basis unit, 0 if absent -/
def power (r : Str) (d : Dims) : Int := (get? r d).getD 0

/-- `d[b] = v` (an existing equal key object is kept) -/
def set (b : Basis) (v : Int) : Dims → Dims
  | [] => [(b, v)]
  | (b', v') :: d => if b'.ref = b.ref then (b', v) :: d else (b', v') :: set b v d

/-- `Dimensionality.inverted` (`_unit.py:264-267`) -/
def inverted (d : Dims) : Dims := d.map fun (b, v) => (b, -v)

/-- Python `dict.__eq__`: same length and every item of the left one is in the right one. -/
def eq (a b : Dims) : Bool :=
  a.length == b.length && a.all fun (k, v) => get? k.ref b == some v

/-- drop zero powers (`_unit.py:442-444`) -/
def dropZero (d : Dims) : Dims := d.filter fun (_, v) => v ≠ 0
end Dims

/-- Inner loop of `Unit.dimensionality` (`_unit.py:440-441`):
`result[basis] = result.get(basis, 0) + basis_order * order`. -/
def dimsAddAll (order : PyVal) : List (Basis × Int) → Dims → Py Dims
  | [], r => .ok r
  | (b, k) :: rest, r => do
    let p ← PyVal.mul (.int k) order
    let v ← PyVal.add (.int (Dims.power b.ref r)) p
    match v with
    | .int i => dimsAddAll order rest (Dims.set b i r)
    | .str _ => .error .typeError  -- unreachable: `int + str` already failed

/-- Outer loop of `Unit.dimensionality` (`_unit.py:434-441`).  `look n` is the dimensionality of
`identifier_references[n]`: `none` if the key is missing (`KeyError`), `some (.ok none)` for a
`Prefix` (skipped). -/
def dimsLoop (look : Str → Option (Py (Option Dims))) : List (Str × PyVal) → Dims → Py Dims
  | [], r => .ok r
  | (n, order) :: items, r =>
    match look n with
    | none => .error .keyError
    | some p => do
      match ← p with
      | none => dimsLoop look items r
      | some ud => do
        let r' ← dimsAddAll order ud r
        dimsLoop look items r'

/-- `Unit.dimensionality` (`_unit.py:427-444`) given the dimensionalities of the references. -/
def unitDims (look : Str → Option (Py (Option Dims))) (defn : Node) : Py Dims := do
  let (_, d) ← defn.split true
  let r ← d.dimCount
  let result ← dimsLoop look r []
  .ok (Dims.dropZero result)

mutual
/-- `.dimensionality()` of a referenced object; `none` for a `Prefix` (which has no such method and
is skipped by the caller, `_unit.py:437-438`).  `BasisUnit.dimensionality`: `_unit.py:585-589`. -/
def Ref.dims? : Ref → Py (Option Dims)
  | .basis b => .ok (some (if b.dimensionless then [] else [(b, 1)]))
  | .pre _ => .ok none
  | .unit _ defn refs => do
    let d ← unitDims (fun n => Dict.get n (Ref.dimsList refs)) defn
    .ok (some d)
/-- dimensionalities of all references -/
def Ref.dimsList : List (Str × Ref) → List (Str × Py (Option Dims))
  | [] => []
  | (n, r) :: rest => (n, r.dims?) :: Ref.dimsList rest
end

/-- `Unit(definition=defn, identifier_references=refs).dimensionality()` (no normalisation check). -/
def defnDims (refs : List (Str × Ref)) (defn : Node) : Py Dims :=
  unitDims (fun n => Dict.get n (Ref.dimsList refs)) defn

/-- `.dimensionality()` as a dict; calling it on a `Prefix` is an AttributeError. -/
def Ref.dims (r : Ref) : Py Dims := do
  match ← r.dims? with
  | some d => .ok d
  | none => .error .attributeError

/-- `Unit.is_time_unit` on a computed dimensionality (`_unit.py:449-454`). -/
def Dims.isTime : Dims → Bool
  | [(b, v)] => b.isTime && v == 1
  | _ => false

/-- `unit.is_time_unit()` (`_unit.py:449-454`, overridden for basis units at 591-592). -/
def Ref.isTimeUnit : Ref → Py Bool
  | .basis b => .ok b.isTime
  | .pre _ => .error .attributeError
  | r => do .ok (Dims.isTime (← r.dims))

/-! ## Normalisation (`_expr/normaliser.py`) -/

/-- Shared tail of `visit_Multiply/Divide/Raise` (`normaliser.py:45-52,57-64,75-82`): rebuild the
node if a child was rebuilt, else `None`. -/
def rebuild (mk : Node → Node → Node) (l r : Node) : Option Node → Option Node → Option Node
  | none, none => none
  | nl, nr => some (mk (nl.getD l) (nr.getD r))

/-- `NormalisedExpressionGraph(orig, refs).visit(node)` (`normaliser.py:13-117`); `none` is the
code's "no normalisation needed". -/
def normalise (refs : List (Str × Ref)) : Node → Py (Option Node)
  | .ident _ => .ok none
  | .number _ _ => .ok none
  | .unhandled _ => .error .notImplemented             -- generic_visit, line 36-37
  | .mul l r => do
    let nl ← normalise refs l
    let nr ← normalise refs r
    .ok (rebuild .mul l r nl nr)
  | .div l r => do
    let nl ← normalise refs l
    let nr ← normalise refs r
    .ok (rebuild .div l r nl nr)
  | .raise l r => do
    let nl ← normalise refs l
    let nr ← normalise refs r
    .ok (rebuild .raise l r nl nr)
  | .log fn t => do
    let nt ← normalise refs t
    .ok (nt.map (.log fn))
  | .shift u f => do                                    -- line 91-117
    let nu ← normalise refs u
    let nu := nu.getD u
    let d ← defnDims refs nu
    if Dims.isTime d then .error .refusingDates
    else match f with
      | .number _ _ => .ok (some (.shift nu f))
      | _ => .error .nonNumericShift

/-- `NormalisedNode(unit_expr, refs).unit_expr` (`normaliser.py:125-132`). -/
def normalisedNode (refs : List (Str × Ref)) (n : Node) : Py Node := do
  let r ← normalise refs n
  .ok (r.getD n)

/-- `Unit(definition=defn, identifier_references=refs)` / `NamedUnit(…, names=…)`
(`_unit.py:328-349,544-555`): the definition is normalised as a check and stored unnormalised. -/
def mkUnit (names : Option UnitReference) (defn : Node) (refs : List (Str × Ref)) : Py Ref := do
  let _ ← normalisedNode refs defn
  .ok (.unit names defn refs)

/-! ## Objects returned by the API -/

/-- What `UnitSystem.unit` can return: a `Unit` or a `DateUnit` (`_unit.py:475-516`) holding the
reference text (`raw_content` may be `None` only for hand-built graphs). -/
inductive UObj where
  | unit (r : Ref)
  | date (unit : Ref) (reference : Option Str)
  deriving DecidableEq, Repr

/-- `DateUnit.__init__` (`_unit.py:478-486`). -/
def mkDate (unit : Ref) (reference : Option Str) : Py UObj := do
  if ← unit.isTimeUnit then .ok (.date unit reference) else .error .assertionError

/-- `_unit_from_expression_and_identifiers` (`_unit.py:298-324`). -/
def unitFromExpr (e : Node) (refs : List (Str × Ref)) : Py UObj :=
  match e with
  | .shift u f => do
    let su ← mkUnit none u refs
    if ← su.isTimeUnit then
      match f with
      | .number _ raw => mkDate su raw
      | .unhandled raw => mkDate su (some raw)
      | _ => .error .unexpectedDateType
    else do
      let r ← mkUnit none e refs
      .ok (.unit r)
  | _ => do
    let r ← mkUnit none e refs
    .ok (.unit r)

/-! ## Expansion to basis units -/

/-- `Prefix._expanded_expr` (`_unit_reference.py:19-26`).  The test `"." or "e" in self.value` is
always true (it is `"." or (...)`), so the value is always parsed as a Decimal. -/
def Prefix.expand (p : Prefix) : Py Node := do
  let d ← Dec.parse p.value
  .ok (.number (.dec d) (some p.value))

mutual
/-- `_expanded_expr` (`_unit.py:402-412`; `BasisUnit`: 579-580; `Prefix`: `_unit_reference.py:19`). -/
def Ref.expand : Ref → Py Node
  | .basis b => .ok (.ident b.ref)
  | .pre p => p.expand
  | .unit _ defn refs => do
    let subs ← Ref.expandList refs
    .ok (defn.substitute subs)
/-- the dict comprehension of `_unit.py:407-410` -/
def Ref.expandList : List (Str × Ref) → Py (List (Str × Node))
  | [] => .ok []
  | (n, r) :: rest => do
    let e ← r.expand
    let es ← Ref.expandList rest
    .ok ((n, e) :: es)
end

/-- `Unit.expanded` / `DateUnit.expanded` (`_unit.py:414-417,515-516`).
`None` as a reference prints as `None` in an f-string. -/
def UObj.expanded : UObj → Py Str
  | .unit r => do .ok (← r.expand).str
  | .date u ref => do .ok ((← u.expand).str ++ (c!" since " ++ ref.getD c!"None"))

/-- `str(unit)` for units (`_unit.py:351-352`, BasisUnit: 582-583).  A `DateUnit` has the default
`object.__str__`, not modelled. -/
def Ref.str : Ref → Str
  | .basis b => b.ref
  | .pre _ => []     -- never called: dataclass repr of a Prefix is not modelled
  | .unit _ defn _ => defn.str

/-! ## `is_convertible_to`, `is_dimensionless` -/

/-- What `.dimensionality()` returns at the API level: a `Dimensionality` object for a `Unit`, a plain
`dict` for a `BasisUnit` (`_unit.py:585`). -/
inductive DimObj where
  | dimensionality (d : Dims)
  | dict (d : Dims)
  deriving DecidableEq, Repr

/-- `x.dimensionality()` -/
def Ref.dimObj : Ref → Py DimObj
  | .basis b => .ok (.dict (if b.dimensionless then [] else [(b, 1)]))
  | .pre _ => .error .attributeError
  | r => do .ok (.dimensionality (← r.dims))

/-- `DateUnit.dimensionality` (`_unit.py:508-509`) delegates. -/
def UObj.dimObj : UObj → Py DimObj
  | .unit r => r.dimObj
  | .date u _ => u.dimObj

/-- The items of either kind of object. -/
def DimObj.items : DimObj → Dims
  | .dimensionality d => d
  | .dict d => d

/-- Python `==` between dimensionality objects.  `Dimensionality == dict` compares
`{str(basis): order}` with the dict (`_unit.py:254-262`): a dict with `BasisUnit` keys never equals a
non-empty dict with `str` keys.  `dict == Dimensionality` falls back to the reflected method. -/
def DimObj.eq : DimObj → DimObj → Bool
  | .dimensionality a, .dimensionality b => Dims.eq a b
  | .dict a, .dict b => Dims.eq a b
  | .dimensionality a, .dict b => a.isEmpty && b.isEmpty
  | .dict a, .dimensionality b => a.isEmpty && b.isEmpty

/-- `.inverted()`: a plain dict has no such attribute. -/
def DimObj.inverted : DimObj → Py DimObj
  | .dimensionality d => .ok (.dimensionality d.inverted)
  | .dict _ => .error .attributeError

/-- `Unit.is_dimensionless` (`_unit.py:446-447`), `DateUnit.is_dimensionless` (501-502). -/
def UObj.isDimensionless : UObj → Py Bool
  | .unit r => do .ok (← r.dims).isEmpty
  | .date _ _ => .ok false

/-- `is_time_unit` (`_unit.py:449-454,504-506,591-592`). -/
def UObj.isTimeUnit : UObj → Py Bool
  | .unit r => r.isTimeUnit
  | .date _ _ => .ok true

/-- `Unit.is_convertible_to` (`_unit.py:456-469`), `DateUnit.is_convertible_to` (488-490). -/
def UObj.isConvertibleTo : UObj → UObj → Py Bool
  | .date _ _, _ => .ok false
  | .unit _, .date _ _ => .ok false
  | .unit a, .unit b => do
    let sd ← a.dimObj
    let od ← b.dimObj
    if sd.eq od then .ok true
    else do
      let inv ← sd.inverted
      .ok (inv.eq od)

end Verif
