import Verif.Model.Val
import Verif.Model.Struct
/-!
# Reading the gateway's data: screenlogicpy/gateway.py:234-295, and Python comparisons used on it
-/
namespace SL

/-- `get_next` inside `get_data`: gateway.py:248-255 (`null` is Python's `None`). -/
def getNext : Val → Key → Val
  | .dict kv, k => (aget k kv).getD .null
  | .list l, .i n => if 0 ≤ n ∧ n < l.length then l.getD n.toNat .null else .null
  | _, _ => .null

/-- `get_data`: gateway.py:234-265. -/
def getData (strict : Bool) : Path → Val → Except PyErr Val
  | [], v => .ok v
  | k :: ks, v =>
    if getNext v k = .null then (if strict then .error .keyError else .ok .null)
    else getData strict ks (getNext v k)

/-- The common body of `get_value` and `get_name`: gateway.py:267-295. -/
def getAttr (attr : String) (strict : Bool) (p : Path) (d : Val) : Except PyErr Val :=
  match getData strict p d with
  | .error e => .error e
  | .ok (.dict kv) =>
    match aget (.s attr) kv with
    | some .null | none => if strict then .error .keyError else .ok .null
    | some v => .ok v
  | .ok _ => if strict then .error .keyError else .ok .null

/-- `get_value`: gateway.py:267-280. -/
def getValue (strict : Bool) (p : Path) (d : Val) : Except PyErr Val := getAttr "value" strict p d

/-- `get_name`: gateway.py:282-295. -/
def getName (strict : Bool) (p : Path) (d : Val) : Except PyErr Val := getAttr "name" strict p d

/-- The number an object is, if it is one (`bool` counts as `int`). -/
def Val.num : Val → Option Rat
  | .int n => some n
  | .flt q => some q
  | _ => none

/-- `lo <= v <= hi` for numbers `lo`, `hi`; comparing anything else with a number raises `TypeError`. -/
def pyBetween (lo : Rat) (v : Val) (hi : Rat) : Except PyErr Bool :=
  match v.num with
  | some q => .ok (decide (lo ≤ q) && decide (q ≤ hi))
  | none => .error .typeError

/-- `v in d` for a dict: equality of numbers is by value, and unhashable objects raise `TypeError`.  (A tuple
is never a key; a tuple containing an unhashable object is not distinguished.) -/
def pyInDict (v : Val) (kv : List (Key × Val)) : Except PyErr Bool :=
  match v with
  | .int n => .ok (aget (.i n) kv).isSome
  | .flt q => .ok (decide (q.den = 1) && (aget (.i q.num) kv).isSome)
  | .str s => .ok (aget (.s s) kv).isSome
  | .null | .bytes _ | .tuple _ => .ok false
  | .list _ | .dict _ => .error .typeError

/-- `struct.pack("<I", v)` for an object: only ints in range are accepted. -/
def packObj (v : Val) : Except PyErr Bytes :=
  match v with
  | .int n => packU 4 n
  | _ => .error .structError

/-- `struct.pack("<nI", *vs)`. -/
def packObjs : List Val → Except PyErr Bytes
  | [] => .ok []
  | v :: vs => do
    let a ← packObj v
    let b ← packObjs vs
    return a ++ b

end SL
