import Verif.Model.Basic
import Verif.Model.Assoc
/-!
# Python objects stored in the gateway's data dict

`Gateway._data` (screenlogicpy/gateway.py:53) is a tree of dicts.  Floats are represented by the exact
rational value of the IEEE double (so no NaN/infinities).  The decoders hold references to nested dicts;
since a referenced dict is never replaced while the reference is in use, a reference is modelled by its
path from the root.
-/
namespace SL

/-- Dict keys that occur: strings and ints. -/
inductive Key
  | s (x : String)
  | i (n : Int)
deriving DecidableEq, Repr

instance : Coe String Key := ⟨Key.s⟩
instance : Coe Int Key := ⟨Key.i⟩

/-- Python objects that occur in the data. -/
inductive Val
  | null
  | int (n : Int)
  | flt (q : Rat)
  | str (s : String)
  | bytes (b : Bytes)
  | tuple (l : List Val)
  | list (l : List Val)
  | dict (kv : List (Key × Val))
deriving Repr

mutual
/-- Decidable equality of objects (bookkeeping of the model; structural, i.e. finer than `==`). -/
def Val.decEq : (a b : Val) → Decidable (a = b)
  | .null, .null => .isTrue rfl
  | .int a, .int b => if h : a = b then .isTrue (by rw [h]) else .isFalse (by simp [h])
  | .flt a, .flt b => if h : a = b then .isTrue (by rw [h]) else .isFalse (by simp [h])
  | .str a, .str b => if h : a = b then .isTrue (by rw [h]) else .isFalse (by simp [h])
  | .bytes a, .bytes b => if h : a = b then .isTrue (by rw [h]) else .isFalse (by simp [h])
  | .tuple a, .tuple b =>
    match Val.decEqL a b with
    | .isTrue h => .isTrue (by rw [h])
    | .isFalse h => .isFalse (by simp [h])
  | .list a, .list b =>
    match Val.decEqL a b with
    | .isTrue h => .isTrue (by rw [h])
    | .isFalse h => .isFalse (by simp [h])
  | .dict a, .dict b =>
    match Val.decEqD a b with
    | .isTrue h => .isTrue (by rw [h])
    | .isFalse h => .isFalse (by simp [h])
  | .null, .int _ | .null, .flt _ | .null, .str _ | .null, .bytes _ | .null, .tuple _ | .null, .list _
  | .null, .dict _ | .int _, .null | .int _, .flt _ | .int _, .str _ | .int _, .bytes _
  | .int _, .tuple _ | .int _, .list _ | .int _, .dict _ | .flt _, .null | .flt _, .int _
  | .flt _, .str _ | .flt _, .bytes _ | .flt _, .tuple _ | .flt _, .list _ | .flt _, .dict _
  | .str _, .null | .str _, .int _ | .str _, .flt _ | .str _, .bytes _ | .str _, .tuple _
  | .str _, .list _ | .str _, .dict _ | .bytes _, .null | .bytes _, .int _ | .bytes _, .flt _
  | .bytes _, .str _ | .bytes _, .tuple _ | .bytes _, .list _ | .bytes _, .dict _
  | .tuple _, .null | .tuple _, .int _ | .tuple _, .flt _ | .tuple _, .str _ | .tuple _, .bytes _
  | .tuple _, .list _ | .tuple _, .dict _ | .list _, .null | .list _, .int _ | .list _, .flt _
  | .list _, .str _ | .list _, .bytes _ | .list _, .tuple _ | .list _, .dict _
  | .dict _, .null | .dict _, .int _ | .dict _, .flt _ | .dict _, .str _ | .dict _, .bytes _
  | .dict _, .tuple _ | .dict _, .list _ => .isFalse (by simp)
/-- Companion of `Val.decEq` for lists. -/
def Val.decEqL : (a b : List Val) → Decidable (a = b)
  | [], [] => .isTrue rfl
  | [], _ :: _ => .isFalse (by simp)
  | _ :: _, [] => .isFalse (by simp)
  | a :: as, b :: bs =>
    match Val.decEq a b with
    | .isFalse h => .isFalse (by simp [h])
    | .isTrue h =>
      match Val.decEqL as bs with
      | .isTrue h' => .isTrue (by rw [h, h'])
      | .isFalse h' => .isFalse (by simp [h'])
/-- Companion of `Val.decEq` for dict items. -/
def Val.decEqD : (a b : List (Key × Val)) → Decidable (a = b)
  | [], [] => .isTrue rfl
  | [], _ :: _ => .isFalse (by simp)
  | _ :: _, [] => .isFalse (by simp)
  | (k, a) :: as, (k', b) :: bs =>
    if hk : k = k' then
      match Val.decEq a b with
      | .isFalse h => .isFalse (by simp [h])
      | .isTrue h =>
        match Val.decEqD as bs with
        | .isTrue h' => .isTrue (by rw [hk, h, h'])
        | .isFalse h' => .isFalse (by simp [h'])
    else .isFalse (by simp [hk])
end

instance : DecidableEq Val := Val.decEq

/-- A path of dict keys from the root. -/
abbrev Path := List Key

/-- Whether the object is a dict. -/
def Val.isDict : Val → Bool
  | .dict _ => true
  | _ => false

/-- Python truthiness. -/
def Val.truthy : Val → Bool
  | .null => false
  | .int n => n != 0
  | .flt q => q != 0
  | .str s => s != ""
  | .bytes b => !b.isEmpty
  | .tuple l => !l.isEmpty
  | .list l => !l.isEmpty
  | .dict kv => !kv.isEmpty

/-- The object reached by following dict keys. -/
def Val.look : Path → Val → Option Val
  | [], v => some v
  | k :: ks, .dict kv => (aget k kv).bind (Val.look ks)
  | _ :: _, _ => none

/-- A chain of `.get` calls on dicts, `d.get(k1, {}).get(k2, {})...get(kn)`: `none` if a key is
missing, `AttributeError` if something that is not a dict is asked. -/
def Val.chain : Path → Val → Except PyErr (Option Val)
  | [], v => .ok (some v)
  | k :: ks, .dict kv =>
    match aget k kv with
    | some v => Val.chain ks v
    | none => .ok none
  | _ :: _, _ => .error .attributeError

/-- Store an object at a path (missing or non-dict intermediate nodes become dicts; the operations that
use it check first that the parent is a dict). -/
def Val.put : Path → Val → Val → Val
  | [], x, _ => x
  | k :: ks, x, .dict kv => .dict (aset k (Val.put ks x ((aget k kv).getD (.dict []))) kv)
  | k :: ks, x, _ => .dict [(k, Val.put ks x (.dict []))]

/-- `ref.setdefault(key, x)` on an existing dict: store unless the key is there. -/
def Val.putNew (p : Path) (x d : Val) : Val :=
  match d.look p with
  | some _ => d
  | none => Val.put p x d

end SL
