import Verif.Spec.Lexer
import Verif.Spec.Grammar
import Verif.Spec.Numbers
/-!
# Expressions whose printed form can be read back
-/

namespace Verif.Spec

/-- the characters of identifiers: ASCII letters, underscore, À–Ö Ø–ö ø–ÿ, U+0080, soft hyphen, degree sign, micro sign, π, Ω -/
def identRanges : List (Char × Char) :=
  [('A', 'Z'), ('a', 'z'), ('_', '_'), ('À', 'Ö'), ('Ø', 'ö'), ('ø', 'ÿ'), ('\u0080', '\u0080'), ('\u00AD', '\u00AD'),
   ('°', '°'), ('µ', 'µ'), ('π', 'π'), ('Ω', 'Ω')]

/-- an identifier character -/
abbrev IdentChar (c : Char) : Prop := inRanges c identRanges = true

/-- a word the lexer takes for an identifier: letters, underscore and the extra Latin/Greek characters of the grammar, not
one of the words for a shift sign -/
def IdentWord (w : Str) : Prop :=
  w ≠ [] ∧ (∀ c ∈ w, IdentChar c) ∧ w ≠ c!"after" ∧ w ≠ c!"from" ∧ w ≠ c!"since" ∧ w ≠ c!"ref"

/-- a date text: it tokenises (in shift mode) as a timestamp that is not a lone integer -/
def DateText (raw : Str) : Prop := ∃ b, Tokenises .SHIFT_MODE raw b ∧ Timestamp b ∧ ¬ LoneNumber b

/-- positions in a printed expression -/
inductive Level where
  | atom | factor | product | whole
  deriving DecidableEq, Repr

/-- Expressions that need no brackets of their own when printed: powers of atoms with an integer exponent, left-nested
products and quotients of these, and — outermost only — a shift by a number or a date. -/
inductive Printable : Level → Node → Prop
  | ident {w} : IdentWord w → Printable .atom (.ident w)
  | int {i raw} : Printable .atom (.number (.int i) raw)
  | dec {d raw} : Printable .atom (.number (.dec d) raw)
  | log {fn t} : fn ∈ [c!"log", c!"lg", c!"ln", c!"lb"] → Printable .product t → Printable .atom (.log fn t)
  | plain {a} : Printable .atom a → Printable .factor a
  | power {a i raw} : Printable .atom a → Printable .factor (.raise a (.number (.int i) raw))
  | superscript {a s v raw} : Printable .atom a → IntLiteral s v → Printable .factor (.raise a (.number (.str s) raw))
  | factor {a} : Printable .factor a → Printable .product a
  | mul {a b} : Printable .product a → Printable .factor b → Printable .product (.mul a b)
  | div {a b} : Printable .product a → Printable .factor b → Printable .product (.div a b)
  | product {a} : Printable .product a → Printable .whole a
  | shiftInt {a i raw} : Printable .product a → Printable .whole (.shift a (.number (.int i) raw))
  | shiftDec {a d raw} : Printable .product a → Printable .whole (.shift a (.number (.dec d) raw))
  | shiftDate {a raw} : Printable .product a → DateText raw → Printable .whole (.shift a (.unhandled raw))

/-- the integer a decimal with exponent zero is -/
def decInt (d : Dec) : Int := (if d.neg then -1 else 1) * (d.coeff : Int)

/-- a number as it comes back after printing: spelled as printed; a decimal with exponent zero (`5.`) and a superscript come
back as integers -/
def respellNum : Num → Node
  | .int i => .number (.int i) (some (intStr i))
  | .dec d => if d.exp = 0 then .number (.int (decInt d)) (some d.str) else .number (.dec d) (some d.str)
  | .str s => match parseInt? s with
    | some i => .number (.int i) (some s)
    | none => .number (.str s) (some s)

/-- the same expression with its numbers respelled -/
def respell : Node → Node
  | .number v _ => respellNum v
  | .ident n => .ident n
  | .unhandled r => .unhandled r
  | .mul a b => .mul (respell a) (respell b)
  | .div a b => .div (respell a) (respell b)
  | .raise a b => .raise (respell a) (respell b)
  | .shift a b => .shift (respell a) (respell b)
  | .log fn t => .log fn (respell t)

/-- no superscript exponent -/
def NoSuperscript : Node → Prop
  | .number (.str _) _ => False
  | .number _ _ | .ident _ | .unhandled _ => True
  | .mul a b | .div a b | .raise a b | .shift a b => NoSuperscript a ∧ NoSuperscript b
  | .log _ t => NoSuperscript t

/-- no date -/
def NoDate : Node → Prop
  | .unhandled _ => False
  | .number _ _ | .ident _ => True
  | .mul a b | .div a b | .raise a b | .shift a b => NoDate a ∧ NoDate b
  | .log _ t => NoDate t

/-- no decimal spelled `-0.`, and superscripts spelled the usual way (no `+`, no leading zeros) -/
def Tidy : Node → Prop
  | .number (.dec d) _ => d.exp = 0 → d.neg = true → d.coeff ≠ 0
  | .number (.str s) _ => ∀ v, IntLiteral s v → intStr v = s
  | .number (.int _) _ | .ident _ | .unhandled _ => True
  | .mul a b | .div a b | .raise a b | .shift a b => Tidy a ∧ Tidy b
  | .log _ t => Tidy t

end Verif.Spec
