import Verif.Model.Enums
import Verif.Model.Basic
/-!
# `SLIntEnum.parse` in full, and the command line's option values
-/
namespace SL

/-- What is handed to `parse`: an int or a text (anything else has no `isdigit` and is not modelled). -/
inductive Given
  | int (n : Int)
  | text (s : List Char)

/-- The attempt inside the `try`: const/common.py:74-82; `none` for `KeyError` or `ValueError`.  The result is the
member's number. -/
def EnumDef.parseTry (U : UnicodeDb) (e : EnumDef) : Given → Option Int
  | .int n => if (e.nameOf n).isSome then some n else none
  | .text s =>
    if U.isDigitStr s then (U.intOf s).bind (fun n => if (e.nameOf n).isSome then some n else none)
    else e.valueOf (U.memberName s)

/-- `cls.parse(value, default)`: const/common.py:71-84; the member's number, or `None`. -/
def EnumDef.parse (U : UnicodeDb) (e : EnumDef) (value : Given) (default : Option Int) : Except PyErr (Option Int) :=
  match e.parseTry U value with
  | some n => .ok (some n)
  | none =>
    match default with
    | none => .ok none
    | some d => if (e.nameOf d).isSome then .ok (some d) else .error .valueError

/-- `cls.parsable_values()`: const/common.py:86-92 (member names are ASCII). -/
def EnumDef.parsableValues (e : EnumDef) : List String :=
  e.flatMap (fun m => [toString m.2, m.1.toLower])

end SL
