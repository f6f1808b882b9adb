import Verif.Model.Unit
/-!
# Symbolic definitions, equality and converters
(`_expr/sympy.py`, `_unit.py:96-241,364-400`)

sympy itself is not modelled.  Its result on the expressions this package builds is modelled as
exact data: a unit definition (after `SplitExpr` it only has numbers, symbols, `*`, `/`, `^integer`)
is a monomial `coef · Π symbolᵢ^eᵢ` (sympy's automatic canonical form of such an expression), and
a value transformation is a chain of operations applied to `value`.
Simplifications: numbers are exact rationals (the code feeds Decimals as sympy `Float`s);
identically named symbols `value`, `to_value`, … are kept apart from unit symbols.
-/

namespace Verif

/-- `coef · Π s^e`, with `e ≠ 0`, distinct symbols, and no symbols when `coef = 0`. -/
structure Mono where
  coef : Rat
  exps : Dict Str Int
  deriving DecidableEq, Repr

namespace Mono

/-- exponent of a symbol -/
def exp (m : Mono) (s : Str) : Int := (Dict.get s m.exps).getD 0

/-- a number -/
def ofRat (q : Rat) : Mono := ⟨q, []⟩

/-- `Symbol(s)` -/
def sym (s : Str) : Mono := ⟨1, [(s, 1)]⟩

/-- zero kills every symbol, exponent zero removes the symbol -/
def norm (m : Mono) : Mono :=
  if m.coef = 0 then ⟨0, []⟩ else ⟨m.coef, m.exps.filter fun (_, e) => e ≠ 0⟩

/-- add up exponents -/
def mergeExps : List (Str × Int) → Dict Str Int → Dict Str Int
  | [], d => d
  | (s, e) :: rest, d => mergeExps rest (Dict.set s ((Dict.get s d).getD 0 + e) d)

/-- sympy `a * b` -/
def mul (a b : Mono) : Mono := norm ⟨a.coef * b.coef, mergeExps b.exps a.exps⟩

/-- sympy `1 / a` (`zoo` when `a = 0`) -/
def inv (a : Mono) : Py Mono :=
  if a.coef = 0 then .error .zoo else .ok ⟨a.coef⁻¹, a.exps.map fun (s, e) => (s, -e)⟩

/-- sympy `a / b` -/
def div (a b : Mono) : Py Mono := do .ok (a.mul (← b.inv))

/-- sympy `a ** n` for an integer `n` (`0**0 = 1`, `0**-1 = zoo`) -/
def pow (a : Mono) (n : Int) : Py Mono :=
  match n with
  | .ofNat k => .ok (norm ⟨a.coef ^ k, a.exps.map fun (s, e) => (s, e * k)⟩)
  | .negSucc k => do
    let b ← a.inv
    .ok (norm ⟨b.coef ^ (k + 1), b.exps.map fun (s, e) => (s, e * (k + 1 : Nat))⟩)

/-- mathematical equality of two monomials (`simplify(a - b)` expands to 0, `_unit.py:379-381`) -/
def beq (a b : Mono) : Bool :=
  a.coef == b.coef &&
    (a.exps.all fun (s, e) => b.exp s == e) && (b.exps.all fun (s, e) => a.exp s == e)

end Mono

/-- `(-1)^neg · coeff · 10^exp` -/
def Dec.toRat (d : Dec) : Rat :=
  let m : Rat := match d.exp with
    | .ofNat k => (d.coeff : Rat) * ((10 ^ k : Nat) : Rat)
    | .negSucc k => (d.coeff : Rat) / ((10 ^ (k + 1) : Nat) : Rat)
  if d.neg then -m else m

/-- `ToSympy.visit_Number` (`sympy.py:31-39`): `sympy_parse(str(content))`.
For the `str` content of a superscript exponent only plain signed integers are modelled
(sympy would also evaluate e.g. `"2+3"`). -/
def Num.toRat : Num → Py Rat
  | .int i => .ok i
  | .dec d => .ok d.toRat
  | .str s => match parseInt? s with
    | some i => .ok i
    | none => .error .unmodelled

/-- exponents: integers only (the parser produces nothing else) -/
def Node.asExponent : Node → Py Int
  | .number (.int i) _ => .ok i
  | .number (.str s) _ => match parseInt? s with
    | some i => .ok i
    | none => .error .unmodelled
  | _ => .error .unmodelled

/-- `ToSympy().visit` on a unit definition (`sympy.py:20-50`). -/
def Node.toMono : Node → Py Mono
  | .number v _ => do .ok (Mono.ofRat (← v.toRat))
  | .ident n => .ok (Mono.sym n)
  | .unhandled _ => .error .notImplemented
  | .mul l r => do .ok ((← l.toMono).mul (← r.toMono))
  | .div l r => do (← l.toMono).div (← r.toMono)
  | .raise l r => do (← l.toMono).pow (← r.asExponent)
  | .shift _ _ => .error .unmodelled   -- cannot occur: removed by SplitExpr
  | .log _ _ => .error .unmodelled     -- cannot occur: removed by SplitExpr

/-- One step of a value transformation. -/
inductive TOp where
  | scale (m : Mono)
  | sub (q : Rat)
  | log (base : Option Nat)   -- `none` is base e
  deriving DecidableEq, Repr

/-- `ToSympy.visit_Logarithm`'s table (`sympy.py:54-60`); an unknown name is a KeyError. -/
def logBase (fn : Str) : Py (Option Nat) :=
  if fn = c!"lb" then .ok (some 2)
  else if fn = c!"lg" then .ok (some 10)
  else if fn = c!"ln" then .ok none
  else if fn = c!"log" then .ok none
  else .error .keyError

/-- a scaling by a monomial; a zero factor inside a value transformation is not modelled -/
def TOp.mkScale (m : Mono) : Py TOp :=
  if m.coef = 0 then .error .unmodelled else .ok (.scale m)

/-- `ToSympy().visit(t)` for a value transformation (`sympy.py:41-64`), as the list of operations
applied to `value`, innermost first. -/
def Trans.ops : Trans → Py (List TOp)
  | .value => .ok []
  | .shift t f => do
    let o ← t.ops
    match f with
    | .number v _ => do .ok (o ++ [.sub (← v.toRat)])
    | .unhandled _ => .error .notImplemented
    | _ => .error .unmodelled
  | .mulR t d => do
    let o ← t.ops
    let m ← d.toMono
    .ok (o ++ [← TOp.mkScale m])
  | .mulL d t => do
    let m ← d.toMono
    let o ← t.ops
    .ok (o ++ [← TOp.mkScale m])
  | .log fn t => do
    let b ← logBase fn
    let o ← t.ops
    .ok (o ++ [.log b])

/-- `Unit._symbolic_definition` (`_unit.py:383-400`) on an expanded definition. -/
def Node.symDef (e : Node) : Py (List TOp × Mono) := do
  let (t, d) ← e.split true
  let ops ← match t with
    | some t => t.ops
    | none => .ok []
  let m ← d.toMono
  .ok (ops, m)

/-- `unit._symbolic_definition()` (without the cache `_cached_symbolic_definition`; that it is unobservable
is C73, `Model/Objects.lean`). -/
def Ref.symDef (r : Ref) : Py (List TOp × Mono) := do (← r.expand).symDef

/-- `DateUnit._symbolic_definition` (`_unit.py:511-513`). -/
def UObj.symDef : UObj → Py (List TOp × Mono)
  | .unit r => r.symDef
  | .date u _ => u.symDef

/-- sympy's canonical form of a transformation chain: adjacent factors are multiplied together,
a factor 1 and a shift by 0 disappear.  `pending` is the factor collected so far. -/
def canonT (pending : Mono) : List TOp → List TOp
  | [] => if pending = ⟨1, []⟩ then [] else [.scale pending]
  | .scale m :: r => canonT (pending.mul m) r
  | .sub q :: r =>
    let tail := if q = 0 then canonT ⟨1, []⟩ r else .sub q :: canonT ⟨1, []⟩ r
    if pending = ⟨1, []⟩ then tail else .scale pending :: tail
  | .log b :: r =>
    let tail := .log b :: canonT ⟨1, []⟩ r
    if pending = ⟨1, []⟩ then tail else .scale pending :: tail

/-- one operation of two canonical chains -/
def TOp.beq : TOp → TOp → Bool
  | .scale a, .scale b => a.beq b
  | .sub p, .sub q => p == q
  | .log a, .log b => a == b
  | _, _ => false

/-- `self_t == other_t` (`_unit.py:381`). -/
def transEq (a b : List TOp) : Bool :=
  let rec go : List TOp → List TOp → Bool
    | [], [] => true
    | x :: xs, y :: ys => x.beq y && go xs ys
    | _, _ => false
  go (canonT ⟨1, []⟩ a) (canonT ⟨1, []⟩ b)

/-- the stored `_definition` (`_unit.py:347,567`) -/
def Ref.defn : Ref → Node
  | .basis b => .ident b.ref
  | .pre _ => .unhandled []     -- a Prefix is never compared
  | .unit _ d _ => d

/-- `Unit.__eq__` (`_unit.py:364-381`): string short-circuit first. -/
def Ref.eq (a b : Ref) : Py Bool :=
  if b.defn.str = a.defn.str then .ok true
  else do
    let (ta, da) ← a.symDef
    let (tb, db) ← b.symDef
    .ok (da.beq db && transEq ta tb)

/-! ## Converter -/

/-- One step of a compiled conversion. -/
inductive COp where
  | scale (m : Mono)
  | add (q : Rat)
  | log (base : Option Nat)
  | exp (base : Option Nat)
  | recip
  deriving DecidableEq, Repr

/-- `sympy.solve(t1 - value, …)` inverts the chain step by step (`_unit.py:209-220`). -/
def TOp.invert : TOp → Py COp
  | .scale m => do .ok (.scale (← m.inv))
  | .sub q => .ok (.add q)
  | .log b => .ok (.exp b)

/-- a transformation step in the forward direction -/
def TOp.forward : TOp → COp
  | .scale m => .scale m
  | .sub q => .add (-q)
  | .log b => .log b

/-- inverse chain: last operation first -/
def invertAll : List TOp → Py (List COp)
  | [] => .ok []
  | op :: r => do
    let rest ← invertAll r
    .ok (rest ++ [← op.invert])

/-- `Converter.__init__` (`_unit.py:182-236`): the operations of `convert_expr`, in application order.
Direct conversion has priority over inverted conversion. -/
def Converter.build (from_ to_ : UObj) : Py (List COp) := do
  let fd ← from_.dimObj
  let td ← to_.dimObj
  let inv ← fd.inverted
  let direct := fd.eq td
  let inverted := inv.eq td
  if !(direct || inverted) then .error .incompatible
  else do
    let (t1, d1) ← from_.symDef
    let (t2, d2) ← to_.symDef
    let t1i ← invertAll t1
    let link ← if direct then do .ok [COp.scale (← d1.div d2)]
               else do .ok [COp.recip, COp.scale (← (d1.mul d2).inv)]
    .ok (t1i ++ link ++ t2.map TOp.forward)

/-- Simplification sympy performs on the built expression: neighbouring factors are multiplied
together (so symbols cancel), also across the reciprocal.  `pending` is the factor so far. -/
def simplifyOps (pending : Mono) : List COp → Py (List COp)
  | [] => .ok [.scale pending]
  | .scale m :: r => simplifyOps (pending.mul m) r
  | .recip :: r => do
    let p ← pending.inv
    .ok (.recip :: (← simplifyOps p r))
  | op :: r => do .ok (.scale pending :: op :: (← simplifyOps ⟨1, []⟩ r))

/-- does a unit symbol remain in this step? -/
def COp.hasSymbol : COp → Bool
  | .scale m => !m.exps.isEmpty
  | _ => false

end Verif
