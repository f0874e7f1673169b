import Verif.Model.Struct
import Verif.Model.Text
/-!
# screenlogicpy/requests/utility.py: messages, strings, arrays, fixed-width fields
-/
namespace SL

/-- `HEADER_LENGTH = struct.calcsize("<HHI")`: screenlogicpy/const/msg.py:6-7. -/
abbrev headerLength : Nat := 8

/-- A received message `(msgID, msgCode, msgData)`. -/
structure Msg where
  id : Int
  code : Int
  data : Bytes
deriving DecidableEq, Repr

/-- `makeMessage`: requests/utility.py:17-25.  `struct.pack("<HHI{n}s", id, code, n, data)`. -/
def makeMessage (msgID msgCode : Int) (data : Bytes) : Except PyErr Bytes := do
  let a ← packU 2 msgID
  let b ← packU 2 msgCode
  let c ← packU 4 data.length
  return a ++ b ++ c ++ data

/-- `takeMessage`: requests/utility.py:28-38.  A buffer shorter than the header gives a negative
count in the format string, i.e. `struct.error`. -/
def takeMessage (d : Bytes) : Except PyErr Msg :=
  if d.length < headerLength then .error .structError
  else
    let messageBytes := d.length - headerLength
    let msgID := leVal (d.take 2)
    let msgCode := leVal ((d.drop 2).take 2)
    let msgLen := leVal ((d.drop 4).take 4)
    let msgData := d.drop headerLength
    if msgLen ≠ messageBytes then .error .slError
    else .ok ⟨msgID, msgCode, msgData⟩

/-- `getSome` with an integer format: requests/utility.py:102-105.  The format prefix (`<` added
unless it starts with `>`) is part of `Fmt`. -/
def getSome (f : Fmt) (buff : Bytes) (off : Nat) : Except PyErr (Int × Nat) := do
  let v ← unpackFrom f buff off
  return (v, off + f.size)

/-- `getSome(f"{n}s", buff, off)`: requests/utility.py:102-105 with a raw-bytes format. -/
def getRaw (n : Nat) (buff : Bytes) (off : Nat) : Except PyErr (Bytes × Nat) := do
  let v ← unpackRaw n buff off
  return (v, off + n)

/-- One iteration of the loop of `takeMessages`: requests/utility.py:46-50. -/
def takeOne (d : Bytes) (pos : Nat) : Except PyErr (Msg × Nat) := do
  let (msgID, pos) ← getSome .H d pos
  let (msgCode, pos) ← getSome .H d pos
  let (msgLength, pos) ← getSome .I d pos
  let (message, pos) ← getRaw msgLength.toNat d pos
  return (⟨msgID, msgCode, message⟩, pos)

/-- The loop of `takeMessages`: requests/utility.py:45-51.  `fuel` bounds the iterations; every
successful iteration consumes at least the 8 header bytes, so `d.length + 1` is always enough
(proved: `takeMessages_fuel`). -/
def takeMessagesLoop (d : Bytes) : Nat → Nat → List Msg → Except PyErr (List Msg)
  | 0, _, acc => .ok acc
  | fuel + 1, pos, acc =>
    if pos < d.length then
      match takeOne d pos with
      | .ok (m, pos') => takeMessagesLoop d fuel pos' (acc ++ [m])
      | .error e => .error e
    else .ok acc

/-- `takeMessages`: requests/utility.py:41-55; `struct.error` is turned into `ScreenLogicError`. -/
def takeMessages (d : Bytes) : Except PyErr (List Msg) :=
  match takeMessagesLoop d (d.length + 1) 0 [] with
  | .error .structError => .error .slError
  | r => r

/-- Bytes needed to pad a length to a multiple of 4: requests/utility.py:62-63. -/
def padLen (length : Nat) : Nat :=
  let over := length % 4
  if over > 0 then 4 - over else 0

/-- `encodeMessageString`: requests/utility.py:58-67. -/
def encodeMessageString (string : String) (utf16 : Bool) : Except PyErr Bytes := do
  let data := if utf16 then utf16Encode string.toList else utf8Encode string.toList
  let length := data.length
  let pad := padLen length
  let lenField := if utf16 then length ||| 0x80000000 else length
  let hdr ← packU 4 lenField
  return hdr ++ (data ++ List.replicate pad 0)

/-- `bytes.decode(encoding)` for the two encodings used. -/
def decodeText (utf16 : Bool) (raw : Bytes) : Except PyErr (List Char) :=
  match (if utf16 then utf16Decode raw else utf8Decode raw) with
  | some s => .ok s
  | none => .error .unicodeError

/-- `decodeMessageString`: requests/utility.py:70-78. -/
def decodeMessageString (d : Bytes) : Except PyErr String := do
  let size := (← unpackFrom .I d 0).toNat
  let utf16 : Bool := size &&& 0x80000000 ≠ 0
  let size := if utf16 then size &&& 0x7FFFFFFF else size
  let raw ← unpackRaw size d 4
  let s ← decodeText utf16 raw
  return String.ofList s

/-- `getString`: requests/utility.py:108-121. -/
def getString (buff : Bytes) (off : Nat) : Except PyErr (String × Nat) := do
  let offsetLen := off + 4
  let sLen := (← unpackFrom .I buff off).toNat
  let utf16 : Bool := sLen &&& 0x80000000 ≠ 0
  let sLen := if utf16 then sLen &&& 0x7FFFFFFF else sLen
  let sLen := if sLen % 4 ≠ 0 then sLen + (4 - sLen % 4) else sLen
  let newoffset := offsetLen + sLen
  let padded ← unpackRaw sLen buff offsetLen
  let s ← decodeText utf16 padded
  return (String.ofList (stripNul s), newoffset)

/-- The item loop of `getArray`: requests/utility.py:126-128 (`n` items starting at `aStart`). -/
def getArrayItems (buff : Bytes) (aStart : Nat) : Nat → Except PyErr (List Int)
  | 0 => .ok []
  | n + 1 => do
    let items ← getArrayItems buff aStart n
    let (x, _) ← getSome .B buff (aStart + n)
    return items ++ [x]

/-- Length of the item bytes with padding: requests/utility.py:129-130. -/
def arrayPaddedLen (itemCount : Nat) : Nat :=
  let short := itemCount % 4
  if short = 0 then itemCount else (itemCount + 4) - short

/-- `getArray`: requests/utility.py:124-131.  (Simplification: Python would allocate the item list
before the first read; a count too large for memory is not modelled.) -/
def getArray (buff : Bytes) (off : Nat) : Except PyErr (List Int × Nat) := do
  let (itemCount, aStart) ← getSome .I buff off
  let itemCount := itemCount.toNat
  let items ← getArrayItems buff aStart itemCount
  return (items, aStart + arrayPaddedLen itemCount)

end SL
