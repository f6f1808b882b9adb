import Verif.Model.Convert
/-!
# Conversions computed with rounding (`_expr/sympy.py:20-64`, `_unit.py:182-241,383-400`)

`Model/Sympy.lean` and `Model/Convert.lean` compute with exact numbers.  The code computes with sympy `Float`s and, in the
lambdified function, with Python floats.  This file models the same computation with every intermediate number replaced by a
rounded one.  Nothing is assumed about the rounding except its relative accuracy `u`; whether a number is an exact sympy
`Integer` or a `Float`, and of which precision, does not matter: an exact result is a rounded one.  Overflow and underflow
are not modelled.
-/

namespace Verif.Fl

/-- `y` is `x`, rounded with relative accuracy `u`. -/
def Rounded (u x y : ℝ) : Prop := |y - x| ≤ u * |x|

/-- The number in front of `ToSympy().visit(node)` (`sympy.py:31-50`), a product of a number and powers of symbols (compare
`Node.toMono`): a literal is read (`sympy_parse`), a product multiplies, `lhs / rhs` is `lhs * rhs**-1`, a power is taken at
once.  `R x y` says that `x` may be rounded to `y`. -/
inductive Coef (R : ℝ → ℝ → Prop) : Node → ℝ → Prop
  | number {v : Num} {raw : Option Str} {q : Rat} {c : ℝ} : v.toRat = .ok q → R q c → Coef R (.number v raw) c
  | ident (n : Str) : Coef R (.ident n) 1
  | mul {l r : Node} {a b c : ℝ} : Coef R l a → Coef R r b → R (a * b) c → Coef R (.mul l r) c
  | div {l r : Node} {a b i c : ℝ} : Coef R l a → Coef R r b → R b⁻¹ i → R (a * i) c → Coef R (.div l r) c
  | raise {l r : Node} {a c : ℝ} {n : Int} : Coef R l a → r.asExponent = .ok n → R (a ^ n) c → Coef R (.raise l r) c

/-- One step of a value transformation (compare `TOp`). -/
inductive Op where
  | scale (c : ℝ)
  | sub (q : ℝ)
  | log (base : Option Nat)

/-- `ToSympy().visit(t)` for a value transformation (`sympy.py:41-64`; compare `Trans.ops`). -/
inductive Ops (u : ℝ) : Trans → List Op → Prop
  | value : Ops u .value []
  | shift {t : Trans} {o : List Op} {v : Num} {raw : Option Str} {q : Rat} {c : ℝ} : Ops u t o → v.toRat = .ok q →
      Rounded u q c → Ops u (.shift t (.number v raw)) (o ++ [.sub c])
  | mulR {t : Trans} {o : List Op} {d : Node} {c : ℝ} : Ops u t o → Coef (Rounded u) d c → Ops u (.mulR t d) (o ++ [.scale c])
  | mulL {t : Trans} {o : List Op} {d : Node} {c : ℝ} : Ops u t o → Coef (Rounded u) d c → Ops u (.mulL d t) (o ++ [.scale c])
  | log {t : Trans} {o : List Op} {fn : Str} {b : Option Nat} : logBase fn = .ok b → Ops u t o →
      Ops u (.log fn t) (o ++ [.log b])

/-- `_symbolic_definition()` (`_unit.py:383-400`; compare `Ref.symDef`): the transformation and the number in front of the
definition. -/
inductive SymDef (u : ℝ) (r : Ref) : List Op → ℝ → Prop
  | none {e d : Node} {c : ℝ} : r.expand = .ok e → e.split true = .ok (none, d) → Coef (Rounded u) d c → SymDef u r [] c
  | some {e d : Node} {t : Trans} {o : List Op} {c : ℝ} : r.expand = .ok e → e.split true = .ok (some t, d) → Ops u t o →
      Coef (Rounded u) d c → SymDef u r o c

/-- One step of a compiled conversion (compare `COp`). -/
inductive Step where
  | scale (c : ℝ)
  | add (q : ℝ)
  | log (base : Option Nat)
  | exp (base : Option Nat)
  | recip

/-- a transformation step, forward (compare `TOp.forward`) -/
def Op.forward : Op → Step
  | .scale c => .scale c
  | .sub q => .add (-q)
  | .log b => .log b

/-- `sympy.solve` inverts a transformation, last step first (`_unit.py:209-220`; compare `invertAll`). -/
inductive Inverted (u : ℝ) : List Op → List Step → Prop
  | nil : Inverted u [] []
  | scale {o : List Op} {l : List Step} {c i : ℝ} : Inverted u o l → Rounded u c⁻¹ i → Inverted u (.scale c :: o) (l ++ [.scale i])
  | sub {o : List Op} {l : List Step} {q : ℝ} : Inverted u o l → Inverted u (.sub q :: o) (l ++ [.add q])
  | log {o : List Op} {l : List Step} {b : Option Nat} : Inverted u o l → Inverted u (.log b :: o) (l ++ [.exp b])

/-- `transformer1 * d1 / d2`, or `1 / (transformer1 * d1 * d2)` for an inverted conversion (`_unit.py:222-225`). -/
inductive Link (u : ℝ) : Bool → ℝ → ℝ → List Step → Prop
  | direct {c₁ c₂ i k : ℝ} : Rounded u c₂⁻¹ i → Rounded u (c₁ * i) k → Link u true c₁ c₂ [.scale k]
  | inverted {c₁ c₂ p k : ℝ} : Rounded u (c₁ * c₂) p → Rounded u p⁻¹ k → Link u false c₁ c₂ [.recip, .scale k]

/-- One rearrangement of the expression by sympy: factors are multiplied, a factor is distributed over a sum, the
constants of a sum are collected. -/
inductive Rearrange (u : ℝ) : List Step → List Step → Prop
  | merge {a b c : ℝ} (r : List Step) : Rounded u (a * b) c → Rearrange u (.scale a :: .scale b :: r) (.scale c :: r)
  | distribute {q c p : ℝ} (r : List Step) : Rounded u (c * q) p →
      Rearrange u (.add q :: .scale c :: r) (.scale c :: .add p :: r)
  | collect {p q s : ℝ} (r : List Step) : Rounded u (p + q) s → Rearrange u (.add p :: .add q :: r) (.add s :: r)
  | under {l l' : List Step} (s : Step) : Rearrange u l l' → Rearrange u (s :: l) (s :: l')

/-- any number of rearrangements -/
inductive Rearranged (u : ℝ) : Nat → List Step → List Step → Prop
  | refl (l : List Step) : Rearranged u 0 l l
  | step {n : Nat} {l l' l'' : List Step} : Rearrange u l l' → Rearranged u n l' l'' → Rearranged u (n + 1) l l''

/-- `sympy.lambdify` (`_unit.py:227-230`) prints the constants (with 15 digits) into Python source, which is compiled. -/
inductive Printed (u : ℝ) : List Step → List Step → Prop
  | nil : Printed u [] []
  | scale {l l' : List Step} {c c' : ℝ} : Rounded u c c' → Printed u l l' → Printed u (.scale c :: l) (.scale c' :: l')
  | add {l l' : List Step} {c c' : ℝ} : Rounded u c c' → Printed u l l' → Printed u (.add c :: l) (.add c' :: l')
  | log {l l' : List Step} (b : Option Nat) : Printed u l l' → Printed u (.log b :: l) (.log b :: l')
  | exp {l l' : List Step} (b : Option Nat) : Printed u l l' → Printed u (.exp b :: l) (.exp b :: l')
  | recip {l l' : List Step} : Printed u l l' → Printed u (.recip :: l) (.recip :: l')

/-- Running the compiled function (`_unit.py:238-241`; compare `runOps`): `log(x)/log(10)`, `exp(x*log(10))`. -/
inductive Run (u : ℝ) : List Step → ℝ → ℝ → Prop
  | nil (x : ℝ) : Run u [] x x
  | scale {l : List Step} {c x y z : ℝ} : Rounded u (c * x) y → Run u l y z → Run u (.scale c :: l) x z
  | add {l : List Step} {q x y z : ℝ} : Rounded u (x + q) y → Run u l y z → Run u (.add q :: l) x z
  | log {l : List Step} {b : Option Nat} {x g k y z : ℝ} : 0 < x → Rounded u (Real.log x) g → Rounded u (lnBase b) k →
      Rounded u (g / k) y → Run u l y z → Run u (.log b :: l) x z
  | exp {l : List Step} {b : Option Nat} {x k w y z : ℝ} : Rounded u (lnBase b) k → Rounded u (x * k) w →
      Rounded u (Real.exp w) y → Run u l y z → Run u (.exp b :: l) x z
  | recip {l : List Step} {x y z : ℝ} : x ≠ 0 → Rounded u x⁻¹ y → Run u l y z → Run u (.recip :: l) x z

/-- `Converter(a, b).convert(x)` can give `y` (`_unit.py:182-241`; compare `Converter.build` and `Converter.convert`).  The
dimensionalities, which decide between a direct and an inverted conversion, are counted in integers. -/
inductive Converts (u : ℝ) (a b : Ref) (x y : ℝ) : Prop
  | mk {fd td : DimObj} {direct : Bool} {o₁ o₂ : List Op} {c₁ c₂ : ℝ} {i₁ link l l' : List Step} {n : Nat} :
      (UObj.unit a).dimObj = .ok fd → (UObj.unit b).dimObj = .ok td → fd.eq td = direct →
      SymDef u a o₁ c₁ → SymDef u b o₂ c₂ → Inverted u o₁ i₁ → Link u direct c₁ c₂ link →
      Rearranged u n (i₁ ++ link ++ o₂.map Op.forward) l → Printed u l l' → Run u l' x y → Converts u a b x y

end Verif.Fl
