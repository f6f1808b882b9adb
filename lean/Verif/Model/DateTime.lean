import Verif.Model.Graph
/-!
# Dates and times (`pyudunits2/_datetime.py`)
-/

namespace Verif

/-- `format(i, "0w")` for a Python int: the sign, zeros up to width `w`, the digits. -/
def padInt (w : Nat) (i : Int) : Str :=
  let sg : Str := if i < 0 then ['-'] else []
  let ds := natStr i.natAbs
  sg ++ List.replicate (w - sg.length - ds.length) '0' ++ ds

/-- `Time` (`_datetime.py:6-11`); nothing restricts the fields. -/
structure Time where
  hour : Int
  minute : Int
  second : Int := 0
  microseconds : Int := 0
  deriving DecidableEq, Repr

/-- `Time.__str__` (`_datetime.py:13-19`). -/
def Time.str (t : Time) : Str :=
  let s := padInt 2 t.hour ++ ':' :: padInt 2 t.minute
  let s := if t.second ≠ 0 ∨ t.microseconds ≠ 0 then s ++ ':' :: padInt 2 t.second else s
  if t.microseconds ≠ 0 then s ++ '.' :: padInt 8 t.microseconds else s

/-- `tz_offset: Time | str` (`_datetime.py:28`). -/
inductive TzOffset where
  | time (t : Time)
  | name (s : Str)
  deriving DecidableEq, Repr

/-- `DateTime` (`_datetime.py:22-30`). -/
structure DateTime where
  year : Int
  month : Int
  day : Int
  time : Time := ⟨0, 0, 0, 0⟩
  tzOffset : TzOffset := .name c!"UTC"
  rawContent : Option Str := none
  deriving DecidableEq, Repr

/-- `DateTime.__eq__` (`_datetime.py:32-43`) on two `DateTime`s; `Time.__eq__` is the generated one (all fields), and a
`Time` never equals a `str`. -/
def DateTime.eq (a b : DateTime) : Bool :=
  decide (a.year = b.year) && decide (a.month = b.month) && decide (a.day = b.day) && decide (a.time = b.time) &&
    decide (a.tzOffset = b.tzOffset)

/-- What is hashed: `dataclass(frozen=True)` with `eq=True` generates `__hash__` as the hash of the tuple of *all* fields
(`__eq__` is user-defined, `__hash__` is not) (`_datetime.py:22`). -/
def DateTime.hashed (a : DateTime) : Int × Int × Int × Time × TzOffset × Option Str :=
  (a.year, a.month, a.day, a.time, a.tzOffset, a.rawContent)

/-- What is hashed of a `Time` (`_datetime.py:6`). -/
def Time.hashed (a : Time) : Int × Int × Int × Int := (a.hour, a.minute, a.second, a.microseconds)

/-- `parse_udunits_date` (`_datetime.py:46-49`). -/
def parseUdunitsDate (_ : Str) : Py DateTime := .error .notImplemented

end Verif
