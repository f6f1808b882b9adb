import Verif.Model.Parser
/-!
# Numbers that Python refuses to convert

`Model/Parser` converts the digits of a number of any length.  CPython does not: `int(c)`
(`_grammar/__init__.py:50,57`) raises `ValueError` for more than `sys.get_int_max_str_digits()` digits (4300 by
default), and `Decimal(c)` (`_grammar/__init__.py:44-46`) raises `decimal.InvalidOperation` for a number that has no
exact value within the limits of the decimal module.  This file adds these limits to the parser.
-/

namespace Verif

/-- The limits of the interpreter: `sys.get_int_max_str_digits()` (0: none) and, for `decimal.Decimal`, the exponents
of the last and of the first digit (`decimal.MIN_ETINY`, `decimal.MAX_EMAX`). -/
structure NumLimits where
  intDigits : Nat
  decMin : Int
  decMax : Int
  deriving Repr

/-- CPython 3.11 and later, on a 64-bit machine, as they are started. -/
def NumLimits.default : NumLimits := ⟨4300, -1999999999999999997, 999999999999999999⟩

/-- `int(c)` is carried out: CPython counts the digits of the text, leading zeros included, before it converts them
(`Objects/longobject.c` `long_from_string_base`).  `_grammar/__init__.py:50,57`. -/
def NumLimits.intOk (l : NumLimits) (c : Str) : Bool :=
  decide (l.intDigits = 0 ∨ (c.filter fun ch => (digitVal? ch).isSome).length ≤ l.intDigits)

/-- `Decimal(c)` is exact: the last digit and the first significant digit (the last one for zero) lie within the limits
(`Modules/_decimal/libmpdec` `mpd_qset_string_exact`, which refuses what would be rounded, clamped or overflow).
`_grammar/__init__.py:44-46`. -/
def NumLimits.decOk (l : NumLimits) (d : Dec) : Bool :=
  decide (l.decMin ≤ d.exp ∧ d.exp + ((natStr d.coeff).length : Int) - 1 ≤ l.decMax)

/-- `visitTerminal` (`_grammar/__init__.py:85-110`) for every number in the tree, in the order in which the visitor
comes to them: children from left to right (`_antlr4_runtime/tree/Tree.py:97-106`).  The parse tree is complete when the
visitor starts, so a `SyntaxError` comes first.  Numbers within a timestamp are not converted
(`_grammar/__init__.py:125-129`), nor are superscripts (22-27). -/
def Node.checkNumbers (l : NumLimits) : Node → Py Unit
  | .number (.int _) (some c) => if l.intOk c then .ok () else .error .tooManyDigits
  | .number (.int _) none => .ok ()
  | .number (.dec d) _ => if l.decOk d then .ok () else .error .invalidOperation
  | .number (.str _) _ => .ok ()
  | .ident _ => .ok ()
  | .unhandled _ => .ok ()
  | .mul a b | .div a b | .raise a b | .shift a b =>
    match a.checkNumbers l with
    | .error e => .error e
    | .ok () => b.checkNumbers l
  | .log _ t => t.checkNumbers l

/-- `parse` (`_grammar/__init__.py:154-193`) with the limits of the interpreter. -/
def parseWithin (l : NumLimits) (text : Str) : Py Node :=
  match parse text with
  | .error e => .error e
  | .ok n =>
    match n.checkNumbers l with
    | .error e => .error e
    | .ok () => .ok n

end Verif
