/-!
# `SLIntEnum` and the enumerations: screenlogicpy/const/common.py:70-103 and screenlogicpy/device_const
-/
namespace SL

/-- An enumeration class: member names with their values, in definition order. -/
abbrev EnumDef := List (String × Int)

/-- `ON_OFF`: const/common.py:183-191. -/
def enOnOff : EnumDef := [("OFF", 0), ("ON", 1)]

/-- `DOSE_STATE`: device_const/chemistry.py:63-66. -/
def enDoseState : EnumDef := [("DOSING", 0), ("MIXING", 1), ("MONITORING", 2)]

/-- `DOSE_TYPE_ORP`: device_const/chemistry.py:69-72. -/
def enDoseTypeOrp : EnumDef := [("NONE", 0), ("CHLORINE", 1), ("SCG", 2)]

/-- `DOSE_TYPE_PH`: device_const/chemistry.py:75-78. -/
def enDoseTypePh : EnumDef := [("NONE", 0), ("ACID", 1), ("CO2", 2)]

/-- `FUNCTION`: device_const/circuit.py:4-24. -/
def enFunction : EnumDef :=
  [("GENERIC", 0), ("SPA", 1), ("POOL", 2), ("SECOND_SPA", 3), ("SECOND_POOL", 4), ("MASTER_CLEANER", 5),
   ("CLEANER", 6), ("LIGHT", 7), ("DIMMER", 8), ("SAM_LIGHT", 9), ("SAL_LIGHT", 10), ("PHOTONGEN", 11),
   ("COLOR_WHEEL", 12), ("VALVE", 13), ("SPILLWAY", 14), ("FLOOR_CLEANER", 15), ("INTELLIBRITE", 16),
   ("MAGICSTREAM", 17), ("DIMMER_25", 18)]

/-- `INTERFACE`: device_const/circuit.py:27-34. -/
def enInterface : EnumDef :=
  [("POOL", 0), ("SPA", 1), ("FEATURES", 2), ("SYNC_SWIM", 3), ("LIGHTS", 4), ("DONT_SHOW", 5),
   ("INVALID", 6)]

/-- `HEAT_MODE`: device_const/heat.py:4-13. -/
def enHeatMode : EnumDef :=
  [("OFF", 0), ("SOLAR", 1), ("SOLAR_PREFERRED", 2), ("HEATER", 3), ("DONT_CHANGE", 4)]

/-- `HEAT_STATE`: device_const/heat.py:16-20. -/
def enHeatState : EnumDef := [("OFF", 0), ("SOLAR", 1), ("HEATER", 2), ("BOTH", 3)]

/-- `PUMP_TYPE`: device_const/pump.py:4-12. -/
def enPumpType : EnumDef :=
  [("NONE", 0), ("INTELLIFLO_VF", 1), ("INTELLIFLO_VS", 2), ("INTELLIFLO_VSF", 3)]

/-- `STATUS_FLAG`: device_const/scg.py:5-15. -/
def enStatusFlag : EnumDef :=
  [("SCG_ACTIVE", 0x01), ("SALT_VERY_LOW", 0x10), ("SALT_LOW", 0x20), ("SALT_OK", 0x40),
   ("SALT_HIGH", 0x80), ("ICHEM_IN_CONTROL", 0x8000)]

/-- `STATE_FLAG`: device_const/scg.py:18-19. -/
def enStateFlag : EnumDef := [("SUPER_CHLORINATE", 0x01)]

/-- `BODY_TYPE`: device_const/system.py:5-7. -/
def enBodyType : EnumDef := [("POOL", 0), ("SPA", 1)]

/-- `CONTROLLER_STATE`: device_const/system.py:46-50. -/
def enControllerState : EnumDef := [("UNKNOWN", 0), ("READY", 1), ("SYNC", 2), ("SERVICE", 3)]

/-- `EQUIPMENT_FLAG` (an `IntFlag`): device_const/system.py:57-76. -/
def enEquipmentFlag : EnumDef :=
  [("SOLAR", 0x1), ("SOLAR_AS_HEAT_PUMP", 0x2), ("CHLORINATOR", 0x4), ("INTELLIBRITE", 0x8),
   ("INTELLIFLO_0", 0x10), ("INTELLIFLO_1", 0x20), ("INTELLIFLO_2", 0x40), ("INTELLIFLO_3", 0x80),
   ("INTELLIFLO_4", 0x100), ("INTELLIFLO_5", 0x200), ("INTELLIFLO_6", 0x400), ("INTELLIFLO_7", 0x800),
   ("NO_SPECIAL_LIGHTS", 0x1000), ("HAS_COOLING", 0x2000), ("MAGIC_STREAM", 0x4000),
   ("INTELLICHEM", 0x8000), ("HYBRID_HEATER", 0x10000)]

/-- `COLOR_MODE`: device_const/system.py:79-100. -/
def enColorMode : EnumDef :=
  [("ALL_OFF", 0), ("ALL_ON", 1), ("COLOR_SET", 2), ("COLOR_SYNC", 3), ("COLOR_SWIM", 4), ("PARTY", 5),
   ("ROMANCE", 6), ("CARIBBEAN", 7), ("AMERICAN", 8), ("SUNSET", 9), ("ROYAL", 10), ("SAVE", 11),
   ("RECALL", 12), ("BLUE", 13), ("GREEN", 14), ("RED", 15), ("WHITE", 16), ("MAGENTA", 17),
   ("THUMPER", 18), ("NEXT_MODE", 19), ("RESET", 20), ("HOLD", 21)]

/-- All the enumerations that inherit `parse` (the `SLIntEnum` classes). -/
def slEnums : List EnumDef :=
  [enOnOff, enDoseState, enDoseTypeOrp, enDoseTypePh, enFunction, enInterface, enHeatMode, enHeatState,
   enPumpType, enStatusFlag, enStateFlag, enBodyType, enControllerState, enColorMode]

/-- ASCII `str.title()` on characters: the first letter of each run of letters upper case, the others
lower case. -/
def titleChars : Bool → List Char → List Char
  | _, [] => []
  | inWord, c :: cs =>
    if c.isAlpha then (if inWord then c.toLower else c.toUpper) :: titleChars true cs
    else c :: titleChars false cs

/-- `SLIntEnum._title`: const/common.py:97-98 (member names are ASCII). -/
def baseTitle (name : String) : String :=
  String.ofList (titleChars false (name.toList.map (fun c => if c = '_' then ' ' else c)))

/-- `_title().replace("Dont", "Don't")` (device_const/heat.py:11-13) on characters. -/
def fixDont : List Char → List Char
  | 'D' :: 'o' :: 'n' :: 't' :: cs => 'D' :: 'o' :: 'n' :: '\'' :: 't' :: fixDont cs
  | c :: cs => c :: fixDont cs
  | [] => []

/-- The `title` of a member of enumeration `e`: const/common.py:100-103 and the overrides
device_const/heat.py:11-13, device_const/pump.py:10-12 (the latter replaces "Intelliflow", which occurs
in no title). -/
def EnumDef.title (e : EnumDef) (name : String) : String :=
  if e = enHeatMode then String.ofList (fixDont (baseTitle name).toList) else baseTitle name

/-- `[m.title for m in cls]`. -/
def EnumDef.titles (e : EnumDef) : List String := e.map (fun m => e.title m.1)

/-- `cls(value).name`, if there is such a member. -/
def EnumDef.nameOf (e : EnumDef) (v : Int) : Option String := (e.find? (fun m => m.2 == v)).map (·.1)

/-- `cls[name].value`, if there is such a member. -/
def EnumDef.valueOf (e : EnumDef) (n : String) : Option Int := (e.find? (fun m => m.1 == n)).map (·.2)

/-- `cls.parse(value)` for an int (default 0): const/common.py:71-84; the resulting member's number,
`none` when the default 0 is not a member either (then `cls(default)` raises `ValueError`). -/
def EnumDef.parseInt (e : EnumDef) (v : Int) : Option Int :=
  if (e.nameOf v).isSome then some v else if (e.nameOf 0).isSome then some 0 else none

/-- The parts of the Unicode database that CPython's `str.isdigit`, `int(str)` and `str.upper` consult; a
parameter of the model (the properties assume only the laws for ASCII characters they need). -/
structure UnicodeDb where
  /-- `c.isdigit()` -/
  isDigit : Char → Bool
  /-- the value of a decimal digit (`unicodedata.decimal`); the digits that are not decimal, such as "²", have none -/
  decimal : Char → Option Nat
  /-- `c.upper()`; `str.upper` maps every character by itself -/
  upper : Char → List Char

/-- `s.isdigit()`: not empty and every character a digit. -/
def UnicodeDb.isDigitStr (U : UnicodeDb) (s : List Char) : Bool := !s.isEmpty && s.all U.isDigit

/-- `int(s)` for a text of digits, or `none` for `ValueError` (a digit that is not decimal, or more than 4300
digits, CPython's `int_max_str_digits`). -/
def UnicodeDb.intOf (U : UnicodeDb) (s : List Char) : Option Int :=
  if 4300 < s.length then none
  else s.foldl (fun acc c => acc.bind (fun n => (U.decimal c).map (fun d : Nat => n * 10 + (d : Int)))) (some 0)

/-- `value.replace(" ", "_").replace("'", "").upper()`: const/common.py:80. -/
def UnicodeDb.memberName (U : UnicodeDb) (s : List Char) : String :=
  String.ofList (((s.map (fun c => if c = ' ' then '_' else c)).filter (fun c => c != '\'')).flatMap U.upper)

/-- `cls.parse(value)` for a text (default 0): const/common.py:71-84; as `parseInt` for the result. -/
def EnumDef.parseStr (U : UnicodeDb) (e : EnumDef) (s : List Char) : Option Int :=
  let dflt := if (e.nameOf 0).isSome then some 0 else none
  if U.isDigitStr s then
    match U.intOf s with
    | some v => if (e.nameOf v).isSome then some v else dflt
    | none => dflt
  else
    match e.valueOf (U.memberName s) with
    | some v => some v
    | none => dflt

end SL
