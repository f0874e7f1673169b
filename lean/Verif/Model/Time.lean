import Verif.Model.Utility
/-!
# `datetime` as used by the library, and the date/time codec of screenlogicpy/requests/utility.py
-/
namespace SL

/-- A Python `datetime`: the calendar fields.  The time zone plays no role in encoding
(requests/utility.py:81-92 reads only these fields); `decodeMessageTime`/`getTime` always attach
UTC. -/
structure DateTime where
  year : Nat
  month : Nat
  day : Nat
  hour : Nat
  minute : Nat
  second : Nat
  microsecond : Nat
deriving DecidableEq, Repr

/-- `datetime._is_leap` (CPython). -/
def isLeap (y : Nat) : Bool := y % 4 == 0 && (y % 100 != 0 || y % 400 == 0)

/-- `datetime._days_in_month` (CPython). -/
def daysInMonth (y m : Nat) : Nat :=
  match m with
  | 1 => 31 | 2 => if isLeap y then 29 else 28 | 3 => 31 | 4 => 30 | 5 => 31 | 6 => 30
  | 7 => 31 | 8 => 31 | 9 => 30 | 10 => 31 | 11 => 30 | 12 => 31 | _ => 0

/-- The argument checks of the `datetime(...)` constructor (CPython `_check_date_fields`,
`_check_time_fields`). -/
def DateTime.valid (d : DateTime) : Prop :=
  1 ≤ d.year ∧ d.year ≤ 9999 ∧ 1 ≤ d.month ∧ d.month ≤ 12 ∧
  1 ≤ d.day ∧ d.day ≤ daysInMonth d.year d.month ∧
  d.hour ≤ 23 ∧ d.minute ≤ 59 ∧ d.second ≤ 59 ∧ d.microsecond ≤ 999999

instance (d : DateTime) : Decidable d.valid := by unfold DateTime.valid; infer_instance

/-- `datetime(year, month, day, hour, minute, second, microsecond)`. -/
def mkDateTime (d : DateTime) : Except PyErr DateTime :=
  if d.valid then .ok d else .error .valueError

/-- `datetime._days_before_year` (CPython). -/
def daysBeforeYear (y : Nat) : Nat := (y - 1) * 365 + (y - 1) / 4 - (y - 1) / 100 + (y - 1) / 400

/-- `datetime._days_before_month` (CPython): days in the preceding months of the year. -/
def daysBeforeMonth (y : Nat) : Nat → Nat
  | 0 => 0
  | m + 1 => if m = 0 then 0 else daysBeforeMonth y m + daysInMonth y m

/-- `datetime.toordinal()`. -/
def DateTime.ordinal (d : DateTime) : Nat :=
  daysBeforeYear d.year + daysBeforeMonth d.year d.month + d.day

/-- `datetime.weekday()`: `(self.toordinal() + 6) % 7`, Monday = 0. -/
def DateTime.weekday (d : DateTime) : Nat := (d.ordinal + 6) % 7

/-- `struct.pack("<8H", ...)` for eight numbers. -/
def pack8H (a b c d e f g h : Nat) : Except PyErr Bytes := do
  let a ← packU 2 a
  let b ← packU 2 b
  let c ← packU 2 c
  let d ← packU 2 d
  let e ← packU 2 e
  let f ← packU 2 f
  let g ← packU 2 g
  let h ← packU 2 h
  return a ++ b ++ c ++ d ++ e ++ f ++ g ++ h

/-- `encodeMessageTime`: requests/utility.py:81-92.  (`int(microsecond / 1000)` is a float division;
for the 10^6 possible values its truncation equals integer division.) -/
def encodeMessageTime (t : DateTime) : Except PyErr Bytes :=
  pack8H t.year t.month t.weekday t.day t.hour t.minute 0 (t.microsecond / 1000)

/-- The `k`-th 16-bit field of a block of eight (`struct.unpack("<8H")`). -/
def field16 (bs : Bytes) (k : Nat) : Nat := leVal ((bs.drop (2 * k)).take 2)

/-- The common body of `decodeMessageTime` and `getTime`: 16 bytes to a checked datetime (the day of
week, field 2, is ignored). -/
def timeOfBlock (bs : Bytes) : Except PyErr DateTime :=
  mkDateTime ⟨field16 bs 0, field16 bs 1, field16 bs 3, field16 bs 4, field16 bs 5, field16 bs 6,
    field16 bs 7 * 1000⟩

/-- `decodeMessageTime`: requests/utility.py:95-99 (`struct.unpack` wants exactly 16 bytes). -/
def decodeMessageTime (data : Bytes) : Except PyErr DateTime :=
  if data.length = 16 then timeOfBlock data else .error .structError

/-- `getTime`: requests/utility.py:134-145. -/
def getTime (buff : Bytes) (off : Nat) : Except PyErr (DateTime × Nat) := do
  let raw ← unpackRaw 16 buff off
  let t ← timeOfBlock raw
  return (t, off + 16)

end SL
