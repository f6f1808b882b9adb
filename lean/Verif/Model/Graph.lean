import Verif.Py
/-!
# Expression graphs (`pyudunits2/_expr/graph.py`)
-/

namespace Verif

/-- A finite `decimal.Decimal`: `(-1)^neg · coeff · 10^exp`.
Simplification: no `NaN`, `Infinity`, and no context precision (construction from text is exact
in Python; no arithmetic is done on Decimals except in `Expander`). -/
structure Dec where
  neg : Bool
  coeff : Nat
  exp : Int
  deriving DecidableEq, Repr

/-- `"%+d" % i` -/
def signedStr (i : Int) : Str :=
  match i with
  | .ofNat n => '+' :: natStr n
  | .negSucc n => '-' :: natStr (n + 1)

/-- `str(Decimal)`: CPython `_pydecimal.py` `Decimal.__str__` (eng=False). -/
def Dec.str (d : Dec) : Str :=
  let int := natStr d.coeff
  let len : Int := int.length
  let leftdigits : Int := d.exp + len
  let dotplace : Int := if d.exp ≤ 0 ∧ -6 < leftdigits then leftdigits else 1
  let body : Str :=
    if dotplace ≤ 0 then '0' :: '.' :: (List.replicate (-dotplace).toNat '0' ++ int)
    else if len ≤ dotplace then int ++ List.replicate (dotplace - len).toNat '0'
    else int.take dotplace.toNat ++ '.' :: int.drop dotplace.toNat
  let e : Str := if leftdigits = dotplace then [] else 'E' :: signedStr (leftdigits - dotplace)
  (if d.neg then ['-'] else []) ++ body ++ e

/-- split off the longest run of ASCII digits -/
def spanDigits : Str → Str × Str
  | [] => ([], [])
  | c :: cs => match digitVal? c with
    | some _ => let (a, b) := spanDigits cs; (c :: a, b)
    | none => ([], c :: cs)

/-- optional sign -/
def takeSign : Str → Bool × Str
  | '+' :: s => (false, s)
  | '-' :: s => (true, s)
  | s => (false, s)

/-- the digits after a decimal point, if there is one, and what follows -/
def spanFraction : Str → Str × Str
  | '.' :: s => spanDigits s
  | s => ([], s)

/-- `Decimal(text)` for the numeric-string syntax `[sign] digits [. digits] [e [sign] digits]`
(`[sign] . digits` too).  Anything else is `InvalidOperation`.
Simplification: the spellings of NaN/Infinity, underscores, surrounding blanks and non-ASCII digits
(all accepted by Python) are treated as invalid. -/
def Dec.parse (s : Str) : Py Dec :=
  let (neg, s) := takeSign s
  let (ip, s) := spanDigits s
  let (fp, s) := spanFraction s
  if ip ++ fp = [] then .error .invalidOperation else
  match digitsVal? (ip ++ fp) 0 with
  | none => .error .invalidOperation
  | some coeff =>
    let mk (e : Int) : Py Dec := .ok ⟨neg, coeff, e - (fp.length : Int)⟩
    match s with
    | [] => mk 0
    | c :: s' =>
      if c = 'e' ∨ c = 'E' then
        match parseInt? s' with
        | some e => mk e
        | none => .error .invalidOperation
      else .error .invalidOperation

/-- The `value` field of `Number` (`graph.py:58-60`): `int`, `Decimal`, or — contrary to the
annotation — the `str` stored by `handle_UNICODE_EXPONENT` (`_grammar/__init__.py:22-27`). -/
inductive Num where
  | int (i : Int)
  | dec (d : Dec)
  | str (s : Str)
  deriving DecidableEq, Repr

/-- `str(self.value)` (`graph.py:66-67`). -/
def Num.toStr : Num → Str
  | .int i => intStr i
  | .dec d => d.str
  | .str s => s

/-- The node classes of `graph.py:7-157`.  `raw_content` of `Number` is `str | None`. -/
inductive Node where
  | number (value : Num) (raw : Option Str)   -- graph.py:57-67
  | ident (name : Str)                         -- graph.py:70-81
  | unhandled (raw : Str)                      -- graph.py:45-54
  | mul (lhs rhs : Node)                       -- graph.py:107-109
  | div (lhs rhs : Node)                       -- graph.py:112-116
  | raise (lhs rhs : Node)                     -- graph.py:102-104
  | shift (unit from_ : Node)                  -- graph.py:119-152
  | log (fn : Str) (term : Node)               -- graph.py:155-157
  deriving DecidableEq, Repr

namespace Node

/-- `__str__` of each class: `graph.py:53,66,80,103,108,113-116,151,156`. -/
def str : Node → Str
  | number v _ => v.toStr
  | ident n => n
  | unhandled r => r
  | mul l r => l.str ++ '·' :: r.str
  | div l r => l.str ++ '/' :: r.str
  | raise l r => l.str ++ '^' :: r.str
  | shift u f => '(' :: (u.str ++ (c!" @ " ++ (f.str ++ c!")")))
  | log fn t => '(' :: (fn ++ (c!"(re " ++ (t.str ++ c!"))")))

/-- `isinstance(node, Number)` -/
def isNumber : Node → Bool
  | number _ _ => true
  | _ => false

end Node

/-- set insertion keeping first-occurrence order (canonical order of a Python `set`; the real
iteration order is hash dependent and is modelled by an explicit oracle where it matters). -/
def setInsert (x : Str) (l : List Str) : List Str := if x ∈ l then l else l ++ [x]

/-- `result |= other` -/
def setUnion (a b : List Str) : List Str := b.foldl (fun acc x => setInsert x acc) a

/-- `ExtractIdentifiers` (`_expr/atoms.py:61-72`): identifiers of all sub-nodes.
`Node.children` (`graph.py:14-23`) lists the dataclass fields in order. -/
def Node.identifiers : Node → List Str
  | .ident n => [n]
  | .number _ _ => []
  | .unhandled _ => []
  | .mul l r | .div l r | .raise l r => setUnion (setUnion [] l.identifiers) r.identifiers
  | .shift u f => setUnion (setUnion [] u.identifiers) f.identifiers
  | .log _ t => setUnion [] t.identifiers

/-- `Substitute(subs).visit` (`_expr/substitute.py:6-36`). -/
def Node.substitute (subs : Dict Str Node) : Node → Node
  | .ident n => match Dict.get n subs with
    | some e => e
    | none => .ident n
  | .number v r => .number v r
  | .unhandled r => .unhandled r
  | .mul l r => .mul (l.substitute subs) (r.substitute subs)
  | .div l r => .div (l.substitute subs) (r.substitute subs)
  | .raise l r => .raise (l.substitute subs) (r.substitute subs)
  | .shift u f => .shift (u.substitute subs) (f.substitute subs)
  | .log fn t => .log fn (t.substitute subs)

/-! ## `SplitExpr` (`_expr/split.py`) -/

/-- The value transformation returned by `SplitExpr`.  In the code it is a `Node` in which
`Identifier("value")` marks the hole (`split.py:45,83`); a dedicated tree avoids the collision with a
unit that happens to be called `value` (not modelled). -/
inductive Trans where
  | value
  | shift (t : Trans) (from_ : Node)
  | mulR (t : Trans) (d : Node)     -- `Multiply(t1, d2)`, split.py:66
  | mulL (d : Node) (t : Trans)     -- `Multiply(d1, t2)`, split.py:69
  | log (fn : Str) (t : Trans)
  deriving DecidableEq, Repr

/-- The node the code actually builds. -/
def Trans.toNode : Trans → Node
  | .value => .ident c!"value"
  | .shift t f => .shift t.toNode f
  | .mulR t d => .mul t.toNode d
  | .mulL d t => .mul d t.toNode
  | .log fn t => .log fn t.toNode

/-- `t1 if t1 is not None else Identifier("value")` (`split.py:44-45,82-83`). -/
def Trans.orValue : Option Trans → Trans
  | none => .value
  | some t => t

/-- `SplitExpr(root).visit(node)` (`split.py:24-84`); `root` says whether `node is self._root_node`
(nodes are trees, so only the initial call can be at the root). -/
def Node.split (root : Bool) : Node → Py (Option Trans × Node)
  | .number v r => .ok (none, .number v r)
  | .ident n => .ok (none, .ident n)
  | .unhandled r => .ok (none, .unhandled r)
  | .shift u f => do                                   -- split.py:38-51
    let (t1, d1) ← u.split false
    let t1 := Trans.orValue t1
    if root then .ok (some (.shift t1 f), d1) else .ok (some t1, d1)
  | .raise l r => do                                   -- split.py:53-57
    let (t1, d1) ← l.split false
    let (t2, d2) ← r.split false
    if t2.isSome then .error .assertionError else .ok (t1, .raise d1 d2)
  | .mul l r => do                                     -- split.py:59-71
    let (t1, d1) ← l.split false
    let (t2, d2) ← r.split false
    match t1, t2 with
    | some _, some _ => .error .twoTransforms
    | some t1, none => .ok (some (.mulR t1 d2), d1)
    | none, some t2 => .ok (some (.mulL d1 t2), d2)
    | none, none => .ok (none, .mul d1 d2)
  | .div l r => do                                     -- split.py:73-78
    let (t1, d1) ← l.split false
    let (t2, d2) ← r.split false
    match t1, t2 with
    | some _, some _ => .error .twoTransforms
    | some t1, none => .ok (some t1, .div d1 d2)
    | none, t2 => .ok (t2, .div d1 d2)
  | .log fn t => do                                    -- split.py:80-84
    let (t1, d1) ← t.split false
    .ok (some (.log fn (Trans.orValue t1)), d1)

/-! ## `DimensionalityCounter` (`_expr/dimensionality.py`) -/

/-- A Python value used as an exponent: `int`, or the `str` coming from a superscript exponent. -/
inductive PyVal where
  | int (i : Int)
  | str (s : Str)
  deriving DecidableEq, Repr

/-- `s * n` for a string. -/
def strRepeat (s : Str) (n : Int) : Str := (List.replicate n.toNat s).flatten

/-- Python `a + b` -/
def PyVal.add : PyVal → PyVal → Py PyVal
  | .int a, .int b => .ok (.int (a + b))
  | .str a, .str b => .ok (.str (a ++ b))
  | _, _ => .error .typeError

/-- Python `a - b` -/
def PyVal.sub : PyVal → PyVal → Py PyVal
  | .int a, .int b => .ok (.int (a - b))
  | _, _ => .error .typeError

/-- Python `a * b` -/
def PyVal.mul : PyVal → PyVal → Py PyVal
  | .int a, .int b => .ok (.int (a * b))
  | .int a, .str b => .ok (.str (strRepeat b a))
  | .str a, .int b => .ok (.str (strRepeat a b))
  | .str _, .str _ => .error .typeError

/-- `Number.content` as an exponent.  Decimal exponents cannot come from the parser
(`power: logarithm RAISE integer`) and are not modelled. -/
def Num.asPyVal : Num → Py PyVal
  | .int i => .ok (.int i)
  | .str s => .ok (.str s)
  | .dec _ => .error .unmodelled

/-- `for ut, order in items: scope[ut] = scope.get(ut, 0) + order`
(`dimensionality.py:23-24,31-32`; `op` is `+` or `-`). -/
def dimMerge (op : PyVal → PyVal → Py PyVal) :
    List (Str × PyVal) → Dict Str PyVal → Py (Dict Str PyVal)
  | [], scope => .ok scope
  | (ut, order) :: items, scope => do
    let v ← op ((Dict.get ut scope).getD (.int 0)) order
    dimMerge op items (Dict.set ut v scope)

/-- `for ut in scope: scope[ut] *= content` (`dimensionality.py:38-39`). -/
def dimScale (n : Num) : Dict Str PyVal → Py (Dict Str PyVal)
  | [] => .ok []
  | (ut, order) :: scope => do
    let k ← n.asPyVal
    let v ← PyVal.mul order k
    let rest ← dimScale n scope
    .ok ((ut, v) :: rest)

/-- `DimensionalityCounter().visit` (`dimensionality.py:6-48`). -/
def Node.dimCount : Node → Py (Dict Str PyVal)
  | .number _ _ => .ok []
  | .ident n => .ok [(n, .int 1)]
  | .unhandled _ => .error .notImplemented
  | .mul l r => do
    let scope ← l.dimCount
    let items ← r.dimCount
    dimMerge PyVal.add items scope
  | .div l r => do
    let scope ← l.dimCount
    let items ← r.dimCount
    dimMerge PyVal.sub items scope
  | .raise l r => match r with
    | .number n _ => do
      let scope ← l.dimCount
      dimScale n scope
    | _ => .error .assertionError
  | .shift u _ => u.dimCount
  | .log _ t => t.dimCount

end Verif
