import Verif.Model.Graph
/-!
# `Expander` (`pyudunits2/_expr/expander.py:14-240`)

The visitor's stacks of chains are replaced by return values: what `visit_internal(node)` appends to the innermost expansion
and to the innermost offset terms.
-/

namespace Verif

/-- `ChainedExpr._chain` (`expander.py:16-17`): terminals with the power they are raised to. -/
abbrev Chain := List (Node × PyVal)

/-- `add_term(term, -raise_to)` for each term (`expander.py:196-197`); a `str` cannot be negated. -/
def chainNeg : Chain → Py Chain
  | [] => .ok []
  | (t, .int k) :: c => do .ok ((t, .int (-k)) :: (← chainNeg c))
  | (_, .str _) :: _ => .error .typeError

/-- `add_term(term, raise_to * node.rhs.content)` for each term (`expander.py:222-225`).  Decimal exponents are not modelled
(the parser makes none). -/
def chainScale (n : Num) : Chain → Py Chain
  | [] => .ok []
  | (t, k) :: c => do
    let v ← n.asPyVal
    let k' ← PyVal.mul k v
    .ok ((t, k') :: (← chainScale n c))

/-! ## Decimal arithmetic in the default context -/

/-- number of digits of a coefficient -/
def coeffDigits (n : Nat) : Nat := (natStr n).length

/-- Rounding to the default context's 28 significant digits, half even.  (Exponent limits are not modelled.) -/
def Dec.round (d : Dec) : Dec :=
  let extra := coeffDigits d.coeff - 28
  if extra = 0 then d else
    let p := 10 ^ extra
    let q := d.coeff / p
    let r := d.coeff % p
    let q' := if p < 2 * r ∨ (p = 2 * r ∧ q % 2 = 1) then q + 1 else q
    if coeffDigits q' ≤ 28 then { d with coeff := q', exp := d.exp + extra }
    else { d with coeff := q' / 10, exp := d.exp + extra + 1 }

/-- `Decimal.__mul__` -/
def Dec.mulCtx (a b : Dec) : Dec := Dec.round ⟨a.neg != b.neg, a.coeff * b.coeff, a.exp + b.exp⟩

/-- `Decimal.__pow__` for a positive int exponent; inexact powers (other than the first) are not modelled. -/
def Dec.powCtx (a : Dec) (k : Nat) : Py Dec :=
  let e : Dec := ⟨a.neg && k % 2 == 1, a.coeff ^ k, a.exp * k⟩
  if k = 1 then .ok e.round
  else if coeffDigits e.coeff ≤ 28 then .ok e else .error .unmodelled

/-- `last_term.content * (node.content**raised_to)` for contents of the same type (`expander.py:94-97`). -/
def Num.mulPow : Num → Num → Nat → Py Num
  | .int a, .int b, k => .ok (.int (a * b ^ k))
  | .dec a, .dec b, k => do .ok (.dec (a.mulCtx (← b.powCtx k)))
  | _, _, _ => .error .typeError                    -- str ** int

/-- the value of a finite Decimal is that of another (`Decimal.__eq__`) -/
def Dec.numEq (a b : Dec) : Bool :=
  let m := min a.exp b.exp
  let v (d : Dec) : Int := (if d.neg then -1 else 1) * (d.coeff : Int) * 10 ^ (d.exp - m).toNat
  v a == v b

/-- Python `==` on the contents of numbers. -/
def Num.pyEq : Num → Num → Bool
  | .int a, .int b => a == b
  | .dec a, .dec b => Dec.numEq a b
  | .int a, .dec b | .dec b, .int a => Dec.numEq ⟨decide (a < 0), a.natAbs, 0⟩ b
  | .str a, .str b => a == b
  | _, _ => false

/-- `==` of two terminals (generated by `dataclass`: same class, equal fields; `raw_content` is a field). -/
def termEq : Node → Node → Bool
  | .number v r, .number v' r' => v.pyEq v' && r == r'
  | .ident a, .ident b => a == b
  | .unhandled a, .unhandled b => a == b
  | _, _ => false

/-- `isinstance(node, Terminal)` -/
def Node.isTerminal : Node → Bool
  | .number _ _ | .ident _ | .unhandled _ => true
  | _ => false

/-! ## Sorting (`expander.py:25-32,37`) -/

/-- lexicographic order by code points (`str.__le__`) -/
def strLe : Str → Str → Bool
  | [], _ => true
  | _ :: _, [] => false
  | a :: s, b :: t => bif Nat.blt a.toNat b.toNat then true else bif Nat.blt b.toNat a.toNat then false else strLe s t

/-- `(str(type(content)), str(content))` (`expander.py:27-30`) -/
def sortKey : Node → Str × Str
  | .number (.int i) _ => (c!"<class 'int'>", intStr i)
  | .number (.dec d) _ => (c!"<class 'decimal.Decimal'>", d.str)
  | .number (.str s) _ => (c!"<class 'str'>", s)
  | .ident n => (c!"<class 'str'>", n)
  | .unhandled s => (c!"<class 'str'>", s)
  | _ => ([], [])                                    -- not a terminal: never in a chain

/-- tuple comparison -/
def keyLe (a b : Str × Str) : Bool := if a.1 = b.1 then strLe a.2 b.2 else strLe a.1 b.1

/-- insertion in front of the first element that is not smaller -/
def insertItem (x : Node × PyVal) : Chain → Chain
  | [] => [x]
  | y :: c => bif keyLe (sortKey x.1) (sortKey y.1) then x :: y :: c else y :: insertItem x c

/-- stable ascending sort -/
def sortItems : Chain → Chain
  | [] => []
  | x :: c => insertItem x (sortItems c)

/-- `sorted(chain, key=…, reverse=True)[::-1]`: ascending, equal keys in reverse order of insertion. -/
def sortedChain (c : Chain) : Chain := sortItems c.reverse

/-! ## Combining terms (`expander.py:33-137`) -/

/-- the `Number` made of an exponent -/
def PyVal.toNode : PyVal → Node
  | .int i => .number (.int i) none
  | .str s => .number (.str s) none

/-- `type(a) is type(b)` of two contents -/
def Num.sameType : Num → Num → Bool
  | .int _, .int _ | .dec _, .dec _ | .str _, .str _ => true
  | _, _ => false

/-- `a^n` as the code writes it (`expander.py:38-44`) -/
def powTerm (node : Node) (k : PyVal) : Node := if k = .int 1 then node else .raise node k.toNode

/-- `a · a^n` and `a^n · a^m`: what replaces the last term, given the new exponent (`expander.py:62-83,111-129`). -/
def combined (node : Node) (k : PyVal) (rest : List Node) : List Node :=
  if k = .int 0 then rest else powTerm node k :: rest

/-- One iteration of the loop (`expander.py:37-137`); `terms` is kept in reverse (last term first). -/
def expandStep (terms : List Node) (node : Node) (k : PyVal) : Py (List Node) :=
  if k = .int 0 then .ok terms else
  match terms with
  | [] => .ok [powTerm node k]
  | last :: rest =>
    if last.isTerminal && termEq last node then do        -- a · a^n  (n + 1 is never 1 here)
      .ok (combined node (← PyVal.add k (.int 1)) rest)
    else
      match last, node, k with
      | .number v _, .number v' _, .int (.ofNat (j + 1)) =>
        if v.sameType v' then do .ok (.number (← v.mulPow v' (j + 1)) none :: rest)
        else .ok (powTerm node k :: terms)
      | .raise lhs (.number e _), _, _ =>
        if termEq lhs node then do
          let e ← e.asPyVal
          let e' ← PyVal.add e k
          .ok (if e' = .int 1 then lhs :: rest else combined node e' rest)
        else .ok (powTerm node k :: terms)
      | _, _, _ => .ok (powTerm node k :: terms)

/-- the loop -/
def expandLoop : Chain → List Node → Py (List Node)
  | [], terms => .ok terms
  | (node, k) :: c, terms => do expandLoop c (← expandStep terms node k)

/-- `result = terms.pop(); for term in terms[::-1]: result = Multiply(term, result)` on the reversed list
(`expander.py:139-146`). -/
def productOf : List Node → Node
  | [] => .number (.int 1) none
  | last :: rest => rest.foldl (fun acc t => .mul t acc) last

/-- `ChainedExpr.terms` (`expander.py:22-146`). -/
def Chain.terms (c : Chain) : Py Node := do .ok (productOf (← expandLoop (sortedChain c) []))

/-! ## The visitor (`expander.py:149-240`) -/

/-- `visit_internal(node)`: the terms it appends to the expansion and to the offset. -/
def expandChains : Node → Py (Chain × Chain)
  | .ident n => .ok ([(.ident n, .int 1)], [])           -- 211-212
  | .number v r => .ok ([(.number v r, .int 1)], [])     -- 214-215
  | .unhandled _ | .log _ _ => .error .notImplemented    -- generic_visit, 154-155
  | .mul l r => do                                        -- 179-189
    let (e1, o1) ← expandChains l
    let (e2, o2) ← expandChains r
    .ok (e1 ++ e2, o1 ++ o2)
  | .div l r => do                                        -- 191-201
    let (e1, o1) ← expandChains l
    let (e2, o2) ← expandChains r
    .ok (e1 ++ (← chainNeg e2), o1 ++ o2)
  | .raise l r => do                                      -- 217-225
    let (e, o) ← expandChains l
    match r with
    | .number n _ => do .ok (← chainScale n e, ← chainScale n o)
    | _ => .error .assertionError
  | .shift u f => do                                      -- 227-240
    let (e, o) ← expandChains u
    let (e', o') ← expandChains f
    if o' = [] then .ok (e, o ++ e')
    else do
      let _ ← Chain.terms o'
      .error .nestedOffset

/-- `Expander().visit(node)` on an expander that has already visited things: it keeps its chains
(`expander.py:150-165`). -/
def expandWith (state : Chain × Chain) (n : Node) : Py ((Chain × Chain) × Node) := do
  let (e, o) ← expandChains n
  let state := (state.1 ++ e, state.2 ++ o)
  let t ← Chain.terms state.1
  if state.2 = [] then .ok (state, t) else do .ok (state, .shift t (← Chain.terms state.2))

/-- `Expander().visit(node)` on a new expander. -/
def expand (n : Node) : Py Node := do .ok (← expandWith ([], []) n).2

end Verif
