import Lean.Elab.Command
/-!
# Python runtime vocabulary used by the model

Strings are lists of code points, exceptions are values, and `dict` is an insertion-ordered
association list whose keys are distinct (see `Dict.Nodup`).
-/

namespace Verif

/-- Python `str`: a sequence of Unicode code points. -/
abbrev Str := List Char

open Lean in
/-- `c!"abc"` is the explicit list `['a','b','c']` (reduces in the kernel without unfolding `String`). -/
macro:max "c!" s:str : term => do
  let cs := s.getString.toList
  let lits : Array (TSyntax `term) := cs.toArray.map fun c => ⟨Syntax.mkCharLit c⟩
  `(([ $lits,* ] : List Char))

/-- The exceptions the modelled code can raise.  One constructor per raise site (or family of raise
sites) so that theorems can distinguish them; `PyErr.cls` below maps to the Python exception class. -/
inductive PyErr where
  /-- `_unit_system.py:126,131,137` add_unit: spelling already registered (`ValueError`). -/
  | alreadyRegistered (spelling : Str)
  /-- `normaliser.py:107` "Refusing to represent dates in a nested unit" (`ValueError`). -/
  | refusingDates
  /-- `normaliser.py:112` "Normalisation of non-numeric shift not possible" (`ValueError`). -/
  | nonNumericShift
  /-- `_unit.py:317` "Unexpected parse type for date" (`ValueError`). -/
  | unexpectedDateType
  /-- `split.py:63,77` "Unable to apply two unit transformations" (`ValueError`). -/
  | twoTransforms
  /-- `_udunits2_xml_parser.py:71,111,116` missing mandatory tag (`ValueError`). -/
  | missingTag
  /-- `_udunits2_xml_parser.py:251` strict parser: unhandled content (`ValueError`). -/
  | unhandledContent
  /-- `_udunits2_xml_parser.py:142` not exactly one `unit-system` element to unpack (`ValueError`). -/
  | unpackError
  /-- `expander.py:233` nested offset in an offset (`ValueError`). -/
  | nestedOffset
  /-- `_exceptions.py` `UnresolvableUnitException` (a `ValueError`). -/
  | unresolvable (spelling : Str)
  /-- `_exceptions.py` `IncompatibleUnitsError` (a `ValueError`). -/
  | incompatible
  /-- `SyntaxError` raised by the parser's error listener. -/
  | syntaxError
  | typeError
  | attributeError
  | assertionError
  | notImplemented
  | recursionError
  | keyError
  | indexError
  | nameError
  | importError
  /-- `RuntimeError`: a dict changed size while it was being iterated over -/
  | runtimeError
  /-- `int(text)` with more digits than `sys.get_int_max_str_digits()` (`ValueError`). -/
  | tooManyDigits
  /-- `decimal.InvalidOperation` -/
  | invalidOperation
  | zeroDivision
  /-- a value outside of `math.log`'s domain (`ValueError`, or `nan` with numpy) -/
  | domainError
  /-- sympy produced `zoo` (complex infinity): division by an exact zero inside a unit definition -/
  | zoo
  /-- behaviour deliberately left out of the model (each use says what) -/
  | unmodelled
  deriving DecidableEq, Repr

/-- The Python class names of the modelled exceptions. -/
inductive PyCls where
  | ValueError | UnresolvableUnitException | IncompatibleUnitsError | SyntaxError | TypeError
  | AttributeError | AssertionError | NotImplementedError | RecursionError | KeyError | IndexError
  | NameError | ModuleNotFoundError | RuntimeError | InvalidOperation | ZeroDivisionError | other
  deriving DecidableEq, Repr

/-- Class of each modelled exception. -/
def PyErr.cls : PyErr → PyCls
  | .alreadyRegistered _ | .refusingDates | .nonNumericShift | .unexpectedDateType | .twoTransforms
  | .missingTag | .unhandledContent | .unpackError | .nestedOffset | .domainError | .tooManyDigits => .ValueError
  | .unresolvable _ => .UnresolvableUnitException
  | .incompatible => .IncompatibleUnitsError
  | .syntaxError => .SyntaxError
  | .typeError => .TypeError
  | .attributeError => .AttributeError
  | .assertionError => .AssertionError
  | .notImplemented => .NotImplementedError
  | .recursionError => .RecursionError
  | .keyError => .KeyError
  | .indexError => .IndexError
  | .nameError => .NameError
  | .importError => .ModuleNotFoundError
  | .runtimeError => .RuntimeError
  | .invalidOperation => .InvalidOperation
  | .zeroDivision => .ZeroDivisionError
  | .zoo | .unmodelled => .other

/-- A Python computation without side effects: a value or an exception. -/
abbrev Py (α : Type) := Except PyErr α

instance {α} [DecidableEq α] : DecidableEq (Except PyErr α) := fun a b =>
  match a, b with
  | .ok x, .ok y => if h : x = y then isTrue (by rw [h]) else isFalse (by intro h'; cases h'; exact h rfl)
  | .error x, .error y => if h : x = y then isTrue (by rw [h]) else isFalse (by intro h'; cases h'; exact h rfl)
  | .ok _, .error _ => isFalse (by intro h; cases h)
  | .error _, .ok _ => isFalse (by intro h; cases h)

/-- `except`-free boolean tests used in statements. -/
def Py.isOk {α} : Py α → Bool
  | .ok _ => true
  | .error _ => false

/-! ## Insertion-ordered dictionaries -/

/-- Python `dict`: association list in insertion order. -/
abbrev Dict (κ ν : Type) := List (κ × ν)

namespace Dict
variable {κ ν μ : Type} [DecidableEq κ]

/-- `d.get(k, None)` -/
def get (k : κ) : Dict κ ν → Option ν
  | [] => none
  | (k', v) :: d => if k' = k then some v else get k d

/-- `d[k] = v`: overwrite in place (position and key object kept) or append. -/
def set (k : κ) (v : ν) : Dict κ ν → Dict κ ν
  | [] => [(k, v)]
  | (k', v') :: d => if k' = k then (k', v) :: d else (k', v') :: set k v d

/-- `k in d` -/
def has (k : κ) (d : Dict κ ν) : Bool := (get k d).isSome

/-- the keys, in insertion order -/
def keys (d : Dict κ ν) : List κ := d.map Prod.fst

/-- key distinctness: the invariant of a Python dict -/
def Nodup (d : Dict κ ν) : Prop := (keys d).Nodup

end Dict

/-- `s.startswith(p)` and the remainder `s[len(p):]`: `some rest` iff `s = p ++ rest`. -/
def dropPrefix : Str → Str → Option Str
  | [], s => some s
  | _ :: _, [] => none
  | p :: ps, c :: s => if p = c then dropPrefix ps s else none

/-- `"a b".join`-free decimal rendering of a natural number (`str(n)` for `n ≥ 0`). -/
def natStr (n : Nat) : Str := Nat.toDigits 10 n

/-- `str(i)` for a Python int. -/
def intStr (i : Int) : Str :=
  match i with
  | .ofNat n => natStr n
  | .negSucc n => '-' :: natStr (n + 1)

/-- Value of an ASCII decimal digit. -/
def digitVal? (c : Char) : Option Nat :=
  if '0'.toNat ≤ c.toNat ∧ c.toNat ≤ '9'.toNat then some (c.toNat - '0'.toNat) else none

/-- Non-empty digit strings, most significant first. -/
def digitsVal? : Str → Nat → Option Nat
  | [], acc => some acc
  | c :: cs, acc => match digitVal? c with
    | some d => digitsVal? cs (10 * acc + d)
    | none => none

/-- `int(s)` for an unsigned digit string (ASCII; no underscores or spaces). -/
def parseNat? (s : Str) : Option Nat := if s = [] then none else digitsVal? s 0

/-- `int(s)` for an optionally signed digit string. -/
def parseInt? : Str → Option Int
  | '+' :: s => (parseNat? s).map Int.ofNat
  | '-' :: s => (parseNat? s).map fun n => - (n : Int)
  | s => (parseNat? s).map Int.ofNat

end Verif
