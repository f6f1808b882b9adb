import Verif.Model.Unit
/-!
# Expressions and units under Python's recursion limit

The visitors of expression graphs, `dimensionality()`, `expanded()`, `str()` and the construction of units walk their arguments by
nested calls.  The interpreter allows only a number of nested calls (`sys.getrecursionlimit()`) and raises `RecursionError` beyond
it.  Here the functions of `Model/Graph.lean` and `Model/Unit.lean` are given that number; otherwise they are the same.

Frames counted are those of Python functions: `Visitor.visit` and the method `visit_…`/`generic_visit` at each node
(`graph.py:173-185`), the generated `__hash__` of an `Identifier` used as a key, comprehensions (frames before Python 3.12), methods
of units.  Where the code makes two calls one after the other and the second never needs more frames than the first, only the first
is counted: this is said at each definition.  Not counted: frames inside sympy (comparing two basis units of different names, which
share a hash, `_unit.py:575-577,364-381`) and those of C functions.
-/

namespace Verif.Frames

/-- a call that itself needs `c` frames and leaves the rest to `f` -/
def calls {α : Type} (c k : Nat) (f : Nat → Py α) : Py α :=
  if k < c then .error .recursionError else f (k - c)

/-- `str(node)`: a frame for each `__str__` (`graph.py:53,66,80,103,108,113-116,151,156`) -/
def str : Node → Nat → Py Str
  | .number v _, k => calls 1 k fun _ => .ok v.toStr
  | .ident n, k => calls 1 k fun _ => .ok n
  | .unhandled r, k => calls 1 k fun _ => .ok r
  | .mul l r, k => calls 1 k fun k => do
    let a ← str l k
    let b ← str r k
    .ok (a ++ '·' :: b)
  | .div l r, k => calls 1 k fun k => do
    let a ← str l k
    let b ← str r k
    .ok (a ++ '/' :: b)
  | .raise l r, k => calls 1 k fun k => do
    let a ← str l k
    let b ← str r k
    .ok (a ++ '^' :: b)
  | .shift u f, k => calls 1 k fun k => do
    let a ← str u k
    let b ← str f k
    .ok ('(' :: (a ++ (c!" @ " ++ (b ++ c!")"))))
  | .log fn t, k => calls 1 k fun k => do
    let a ← str t k
    .ok ('(' :: (fn ++ (c!"(re " ++ (a ++ c!"))"))))

/-- `ExtractIdentifiers().visit(node)` (`atoms.py:61-72`): `visit`, `visit_Identifier` and the `__hash__` of the set's member; or
`visit`, `generic_visit` and `children` (`graph.py:14-23,30`; of an operation it calls `dataclasses.fields` with a generator, two
more frames, no more than visiting a child) -/
def identifiers : Node → Nat → Py (List Str)
  | .ident n, k => calls 3 k fun _ => .ok [n]
  | .number _ _, k => calls 3 k fun _ => .ok []
  | .unhandled _, k => calls 3 k fun _ => .ok []
  | .mul l r, k => calls 2 k fun k => do
    let a ← identifiers l k
    let b ← identifiers r k
    .ok (setUnion (setUnion [] a) b)
  | .div l r, k => calls 2 k fun k => do
    let a ← identifiers l k
    let b ← identifiers r k
    .ok (setUnion (setUnion [] a) b)
  | .raise l r, k => calls 2 k fun k => do
    let a ← identifiers l k
    let b ← identifiers r k
    .ok (setUnion (setUnion [] a) b)
  | .shift u f, k => calls 2 k fun k => do
    let a ← identifiers u k
    let b ← identifiers f k
    .ok (setUnion (setUnion [] a) b)
  | .log _ t, k => calls 2 k fun k => do
    let a ← identifiers t k
    .ok (setUnion [] a)

/-- `Substitute(subs).visit(node)` (`substitute.py:6-36`): `visit` and `generic_visit`, with the `__hash__` of an identifier that is
searched; `visit` and `visit_…` (the constructor called afterwards needs one frame, less than the children) -/
def substitute (subs : Dict Str Node) : Node → Nat → Py Node
  | .ident n, k => calls 3 k fun _ =>
    match Dict.get n subs with
    | some e => .ok e
    | none => .ok (.ident n)
  | .number v r, k => calls 2 k fun _ => .ok (.number v r)
  | .unhandled r, k => calls 2 k fun _ => .ok (.unhandled r)
  | .mul l r, k => calls 2 k fun k => do
    let a ← substitute subs l k
    let b ← substitute subs r k
    .ok (.mul a b)
  | .div l r, k => calls 2 k fun k => do
    let a ← substitute subs l k
    let b ← substitute subs r k
    .ok (.div a b)
  | .raise l r, k => calls 2 k fun k => do
    let a ← substitute subs l k
    let b ← substitute subs r k
    .ok (.raise a b)
  | .shift u f, k => calls 2 k fun k => do
    let a ← substitute subs u k
    let b ← substitute subs f k
    .ok (.shift a b)
  | .log fn t, k => calls 2 k fun k => do
    let a ← substitute subs t k
    .ok (.log fn a)

/-- what `visit_Raise` of `SplitExpr` does with the results of the children (`split.py:53-57`) -/
def splitRaise (x y : Option Trans × Node) : Py (Option Trans × Node) :=
  if y.1.isSome then .error .assertionError else .ok (x.1, .raise x.2 y.2)

/-- what `visit_Multiply` of `SplitExpr` does with the results of the children (`split.py:59-71`) -/
def splitMul (x y : Option Trans × Node) : Py (Option Trans × Node) :=
  match x.1, y.1 with
  | some _, some _ => .error .twoTransforms
  | some t1, none => .ok (some (.mulR t1 y.2), x.2)
  | none, some t2 => .ok (some (.mulL x.2 t2), y.2)
  | none, none => .ok (none, .mul x.2 y.2)

/-- what `visit_Divide` of `SplitExpr` does with the results of the children (`split.py:73-78`) -/
def splitDiv (x y : Option Trans × Node) : Py (Option Trans × Node) :=
  match x.1, y.1 with
  | some _, some _ => .error .twoTransforms
  | some t1, none => .ok (some t1, .div x.2 y.2)
  | none, t2 => .ok (t2, .div x.2 y.2)

/-- `SplitExpr(root).visit(node)` (`split.py:24-84`): `visit` and `generic_visit` or `visit_…` (the constructors called afterwards
need one frame, less than the children) -/
def split : Node → Bool → Nat → Py (Option Trans × Node)
  | .number v r, _, k => calls 2 k fun _ => .ok (none, .number v r)
  | .ident n, _, k => calls 2 k fun _ => .ok (none, .ident n)
  | .unhandled r, _, k => calls 2 k fun _ => .ok (none, .unhandled r)
  | .shift u f, root, k => calls 2 k fun k => do
    let x ← split u false k
    .ok (if root then (some (.shift (Trans.orValue x.1) f), x.2) else (some (Trans.orValue x.1), x.2))
  | .raise l r, _, k => calls 2 k fun k => do
    let x ← split l false k
    let y ← split r false k
    splitRaise x y
  | .mul l r, _, k => calls 2 k fun k => do
    let x ← split l false k
    let y ← split r false k
    splitMul x y
  | .div l r, _, k => calls 2 k fun k => do
    let x ← split l false k
    let y ← split r false k
    splitDiv x y
  | .log fn t, _, k => calls 2 k fun k => do
    let x ← split t false k
    .ok (some (.log fn (Trans.orValue x.1)), x.2)

/-- `DimensionalityCounter().visit(node)` (`dimensionality.py:6-48`): `visit` and `visit_…`, and the `__hash__` of an identifier
used as a key (for the keys merged afterwards one frame again, less than the children) -/
def dimCount : Node → Nat → Py (Dict Str PyVal)
  | .number _ _, k => calls 2 k fun _ => .ok []
  | .ident n, k => calls 3 k fun _ => .ok [(n, .int 1)]
  | .unhandled _, k => calls 2 k fun _ => .error .notImplemented
  | .mul l r, k => calls 2 k fun k => do
    let scope ← dimCount l k
    let items ← dimCount r k
    dimMerge PyVal.add items scope
  | .div l r, k => calls 2 k fun k => do
    let scope ← dimCount l k
    let items ← dimCount r k
    dimMerge PyVal.sub items scope
  | .raise l r, k => calls 2 k fun k =>
    match r with
    | .number n _ => do
      let scope ← dimCount l k
      dimScale n scope
    | _ => .error .assertionError
  | .shift u _, k => calls 2 k fun k => dimCount u k
  | .log _ t, k => calls 2 k fun k => dimCount t k

/-- The loop of `Unit.dimensionality` (`_unit.py:434-441`); `look n k` is the dimensionality of what `n` refers to, with `k` frames
left.  (Hashing the keys needs one frame, less than the visitors run before.) -/
def dimsLoop (look : Str → Option (Nat → Py (Option Dims))) (k : Nat) : List (Str × PyVal) → Dims → Py Dims
  | [], r => .ok r
  | (n, order) :: items, r =>
    match look n with
    | none => .error .keyError
    | some p => do
      match ← p k with
      | none => dimsLoop look k items r
      | some ud => do
        let r' ← dimsAddAll order ud r
        dimsLoop look k items r'

/-- `Unit.dimensionality` (`_unit.py:427-444`): its own frame; the comprehension and the constructor at the end need one frame each,
less than the visitors -/
def unitDims (look : Str → Option (Nat → Py (Option Dims))) (defn : Node) (k : Nat) : Py Dims := calls 1 k fun k => do
  let x ← split defn true k
  let r ← dimCount x.2 k
  let result ← dimsLoop look k r []
  .ok (Dims.dropZero result)

mutual
/-- `.dimensionality()` of a referenced object; nothing is called for a `Prefix` (`_unit.py:437-438`).  `BasisUnit.dimensionality`
(`_unit.py:585-589`): a frame, and `__hash__` of the key -/
def dims? : Ref → Nat → Py (Option Dims)
  | .basis b, k => if b.dimensionless then calls 1 k fun _ => .ok (some []) else calls 2 k fun _ => .ok (some [(b, 1)])
  | .pre _, _ => .ok none
  | .unit _ defn refs, k => do
    let d ← unitDims (fun n => Dict.get n (dimsList refs)) defn k
    .ok (some d)
/-- dimensionalities of all references -/
def dimsList : List (Str × Ref) → List (Str × (Nat → Py (Option Dims)))
  | [] => []
  | (n, r) :: rest => (n, dims? r) :: dimsList rest
end

/-- `unit.dimensionality()` -/
def dims (r : Ref) (k : Nat) : Py Dims := do
  match ← dims? r k with
  | some d => .ok d
  | none => .error .attributeError

/-- `unit.is_time_unit()` (`_unit.py:449-454,591-592`): its own frame (`len(basis)` and the question to the basis unit need one
frame, less than `dimensionality()`) -/
def isTimeUnit : Ref → Nat → Py Bool
  | .basis b, k => calls 1 k fun _ => .ok b.isTime
  | .pre _, _ => .error .attributeError
  | r, k => calls 1 k fun k => do .ok (Dims.isTime (← dims r k))

/-- `NormalisedExpressionGraph(orig, refs).visit(node)` (`normaliser.py:13-117`): `visit` and `visit_…`; a shift makes a unit (one
frame, less than asking it) and calls `is_time_unit` (91-117) -/
def normalise (refs : List (Str × Ref)) : Node → Nat → Py (Option Node)
  | .ident _, k => calls 2 k fun _ => .ok none
  | .number _ _, k => calls 2 k fun _ => .ok none
  | .unhandled _, k => calls 2 k fun _ => .error .notImplemented
  | .mul l r, k => calls 2 k fun k => do
    let nl ← normalise refs l k
    let nr ← normalise refs r k
    .ok (rebuild .mul l r nl nr)
  | .div l r, k => calls 2 k fun k => do
    let nl ← normalise refs l k
    let nr ← normalise refs r k
    .ok (rebuild .div l r nl nr)
  | .raise l r, k => calls 2 k fun k => do
    let nl ← normalise refs l k
    let nr ← normalise refs r k
    .ok (rebuild .raise l r nl nr)
  | .log fn t, k => calls 2 k fun k => do
    let nt ← normalise refs t k
    .ok (nt.map (.log fn))
  | .shift u f, k => calls 2 k fun k => do
    let nu ← normalise refs u k
    let time ← isTimeUnit (.unit none (nu.getD u) refs) k
    if time then .error .refusingDates
    else match f with
      | .number _ _ => .ok (some (.shift (nu.getD u) f))
      | _ => .error .nonNumericShift

/-- `Unit(definition=defn, identifier_references=refs)` (`_unit.py:328-349`): the frames of `Unit.__init__` and
`NormalisedNode.__init__` (`normaliser.py:125-132`), and of `NamedUnit.__init__` (`_unit.py:544-555`) -/
def mkUnit (names : Option UnitReference) (defn : Node) (refs : List (Str × Ref)) (k : Nat) : Py Ref :=
  calls (if names.isSome then 3 else 2) k fun k => do
    let _ ← normalise refs defn k
    .ok (.unit names defn refs)

/-- `DateUnit.__init__` (`_unit.py:478-486`) -/
def mkDate (unit : Ref) (reference : Option Str) (k : Nat) : Py UObj := calls 1 k fun k => do
  let time ← isTimeUnit unit k
  if time then .ok (.date unit reference) else .error .assertionError

/-- `_unit_from_expression_and_identifiers` (`_unit.py:298-324`) -/
def unitFromExpr (e : Node) (refs : List (Str × Ref)) (k : Nat) : Py UObj := calls 1 k fun k =>
  match e with
  | .shift u f => do
    let su ← mkUnit none u refs k
    let time ← isTimeUnit su k
    if time then
      match f with
      | .number _ raw => mkDate su raw k
      | .unhandled raw => mkDate su (some raw) k
      | _ => .error .unexpectedDateType
    else do
      let r ← mkUnit none e refs k
      .ok (.unit r)
  | _ => do
    let r ← mkUnit none e refs k
    .ok (.unit r)

mutual
/-- `_expanded_expr` (`_unit.py:402-412`): its own frame and that of the comprehension; of a `BasisUnit` (579-580) one, of a
`Prefix` (`_unit_reference.py:19-26`) one and the constructor's -/
def expand : Ref → Nat → Py Node
  | .basis b, k => calls 1 k fun _ => .ok (.ident b.ref)
  | .pre p, k => calls 2 k fun _ => p.expand
  | .unit _ defn refs, k => calls 1 k fun k => do
    let subs ← expandList refs k
    substitute subs defn k
/-- the dict comprehension of `_unit.py:407-410`; hashing a key needs one frame, no more than expanding the reference -/
def expandList : List (Str × Ref) → Nat → Py (List (Str × Node))
  | [], _ => .ok []
  | (n, r) :: rest, k => do
    let e ← calls 1 k fun k => expand r k
    let es ← expandList rest k
    .ok ((n, e) :: es)
end

/-- `Unit.expanded` / `DateUnit.expanded` (`_unit.py:414-417,515-516`) -/
def expanded : UObj → Nat → Py Str
  | .unit r, k => calls 1 k fun k => do
    let e ← expand r k
    str e k
  | .date u ref, k => calls 1 k fun k => do
    let e ← calls 1 k fun k => do
      let e ← expand u k
      str e k
    .ok (e ++ (c!" since " ++ ref.getD c!"None"))

/-- `str(unit)` (`_unit.py:351-352,582-583`); nothing is modelled for a `Prefix` -/
def unitStr : Ref → Nat → Py Str
  | .basis b, k => calls 1 k fun _ => .ok b.ref
  | .pre _, _ => .ok []
  | .unit _ defn _, k => calls 1 k fun k => str defn k

/-- the first half of `_symbolic_definition` (`_unit.py:383-390`), which comparing and converting units rest on: the value
transformation and the definition; the conversion to sympy that follows is not counted -/
def symbolic (r : Ref) (k : Nat) : Py (Option Trans × Node) := calls 1 k fun k => do
  let e ← expand r k
  split e true k

end Verif.Frames
