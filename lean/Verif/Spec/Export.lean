import Verif.Model.Export
/-! # Specification: what an imported document should be -/
namespace SL

mutual
/-- The same object, as a result of reading. -/
def Obj.ofVal : Val → Obj
  | .null => .null
  | .int n => .int n
  | .flt q => .flt q
  | .str s => .str s
  | .bytes b => .bytes b
  | .tuple l => .tuple (Obj.ofVals l)
  | .list l => .list (Obj.ofVals l)
  | .dict kv => .dict (Obj.ofItems kv)
/-- Companion of `Obj.ofVal`. -/
def Obj.ofVals : List Val → List Obj
  | [] => []
  | v :: l => Obj.ofVal v :: Obj.ofVals l
/-- Companion of `Obj.ofVal`. -/
def Obj.ofItems : List (Key × Val) → List (Key × Obj)
  | [] => []
  | (k, v) :: l => (k, Obj.ofVal v) :: Obj.ofItems l
end

/-- A response set, as a result of reading. -/
def RespSet.obj (s : RespSet) : Obj := .resp (.bytes s.raw) (.ofVal s.decoded)

/-- A field of a collection, as a result of reading. -/
def Resp.obj : Resp → Obj
  | .none => .null
  | .one s => s.obj
  | .many l => .list (l.map RespSet.obj)

/-- The fields of a collection by name, as a result of reading. -/
def Collection.fields (c : Collection) : List (String × Obj) :=
  ("decoded_complete", .ofVal c.decoded) :: c.parts.map (fun p => (p.1, p.2.obj))

/-- No key that is a negative number, or one of more than 4300 digits, anywhere in nested dicts. -/
def NumberKeys (d : Val) : Prop :=
  ∀ (p : Path) (n : Int), (d.look (p ++ [.i n])).isSome = true → 0 ≤ n ∧ n < 10 ^ 4300

/-- The decoded parts of a collection's field. -/
def Resp.decodeds : Resp → List Val
  | .none => []
  | .one s => [s.decoded]
  | .many l => l.map (·.decoded)

end SL
