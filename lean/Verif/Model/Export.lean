import Verif.Model.Decode
import Verif.Model.Enums
/-!
# screenlogicpy/data.py: response collections and their JSON form
-/
namespace SL

/-! ## Collections -/

/-- `ScreenLogicResponseSet`: data.py:27-30. -/
structure RespSet where
  raw : Bytes
  decoded : Val

/-- A field of a collection: `None`, one response, or a list of responses. -/
inductive Resp
  | none
  | one (s : RespSet)
  | many (l : List RespSet)

/-- `ScreenLogicResponseCollection`: data.py:33-43.  `parts` are the fields after `decoded_complete`, by name, in the
order of the class. -/
structure Collection where
  decoded : Val
  parts : List (String × Resp)

/-- How a response is decoded: by a function of the payload and the data, or by one that also wants an index. -/
inductive RespKind
  | plain (D : Decoder)
  | indexed

/-- `REQUEST_DECODE_FUNCS`: data.py:15-24, which has the order of the class's fields.  `now` is the host's clock. -/
def requestDecoders (now : Rat) : List (String × RespKind) :=
  [("version", .plain .version), ("config", .plain .config), ("status", .plain .status), ("pumps", .indexed),
   ("chemistry", .plain .chemistry), ("scg", .plain .scg), ("color", .plain .colorUpdate),
   ("date_time", .plain (.dateTime now))]

/-- `dec_resp = {}; dec_func(raw, dec_resp)`: data.py:59-61. -/
def decodeNew (pyFloat : String → Except PyErr Rat) (D : Decoder) (b : Bytes) : Except PyErr RespSet :=
  match decodeWith (D.prog pyFloat) b (.dict []) with
  | (.ok _, d) => .ok ⟨b, d⟩
  | (.error e, _) => .error e

/-- The loop over an indexed response: data.py:52-57.  (Payloads that are not bytes are a `TypeError`, and so, as a
simplification, is an index that is not a number.) -/
def buildMany (pyFloat : String → Except PyErr Rat) : List (Key × Val) → Except PyErr (List RespSet)
  | [] => .ok []
  | (.i n, .bytes b) :: rest => do
    let s ← decodeNew pyFloat (.pump n) b
    let l ← buildMany pyFloat rest
    return s :: l
  | _ :: _ => .error .typeError

/-- One entry: data.py:50-61.  A function called with a wrong number of arguments raises `TypeError`. -/
def buildPart (pyFloat : String → Except PyErr Rat) (k : RespKind) (raw : Option Val) : Except PyErr Resp :=
  match raw with
  | none => .ok .none
  | some v =>
    if v.truthy then
      match v, k with
      | .dict kv, .indexed => (buildMany pyFloat kv).map .many
      | .bytes b, .plain D => (decodeNew pyFloat D b).map .one
      | _, _ => .error .typeError
    else .ok .none

/-- The loop of `build_response_collection`. -/
def buildParts (pyFloat : String → Except PyErr Rat) (raw : List (Key × Val)) :
    List (String × RespKind) → Except PyErr (List (String × Resp))
  | [] => .ok []
  | (n, k) :: rest => do
    let r ← buildPart pyFloat k (aget (.s n) raw)
    let l ← buildParts pyFloat raw rest
    return (n, r) :: l

/-- `build_response_collection`: data.py:46-63; `raw` are the items of the dict. -/
def buildCollection (pyFloat : String → Except PyErr Rat) (now : Rat) (raw : List (Key × Val)) (data : Val) :
    Except PyErr Collection := do
  let parts ← buildParts pyFloat raw (requestDecoders now)
  return ⟨data, parts⟩

/-- `for idx, val in enumerate(data_request): data_dict[idx] = val["raw"]`: data.py:75-77. -/
def enumerateRaw : Nat → List RespSet → List (Key × Val)
  | _, [] => []
  | i, s :: l => (.i i, .bytes s.raw) :: enumerateRaw (i + 1) l

/-- The raw form of one field: data.py:74-80. -/
def Resp.rawVal : Resp → Val
  | .none => .null
  | .one s => .bytes s.raw
  | .many l => .dict (enumerateRaw 0 l)

/-- `deconstruct_response_collection`: data.py:66-82. -/
def Collection.deconstruct (c : Collection) : List (Key × Val) × Val :=
  (c.parts.map (fun p => (.s p.1, p.2.rawVal)), c.decoded)

/-! ## JSON

What `json.dump` writes and `json.load` reads is modelled as a tree: the text in between is CPython's (it writes a float as
its shortest exact representation, and an `int` key as its decimal numeral). -/

/-- JSON documents. -/
inductive Json
  | null
  | int (n : Int)
  | flt (q : Rat)
  | str (s : String)
  | arr (l : List Json)
  | obj (kv : List (String × Json))

/-- A lower-case hexadecimal digit. -/
def hexDigit (n : Nat) : Char := if n < 10 then Char.ofNat (48 + n) else Char.ofNat (87 + n)

/-- The characters `repr` shows for one byte of a `bytes` object quoted by `q` (CPython `PyBytes_Repr`). -/
def reprByte (q : Char) (b : UInt8) : List Char :=
  let c := Char.ofNat b.toNat
  if c = q ∨ c = '\\' then ['\\', c]
  else if c = '\t' then ['\\', 't']
  else if c = '\n' then ['\\', 'n']
  else if c = '\r' then ['\\', 'r']
  else if b.toNat < 32 ∨ 127 ≤ b.toNat then ['\\', 'x', hexDigit (b.toNat / 16), hexDigit (b.toNat % 16)]
  else [c]

/-- The quote `repr` chooses: a double one only if there are single ones and no double ones. -/
def reprQuote (b : Bytes) : Char := if 39 ∈ b ∧ 34 ∉ b then '"' else '\''

/-- `repr(b)`. -/
def bytesRepr (b : Bytes) : List Char :=
  let q := reprQuote b
  'b' :: q :: (b.flatMap (reprByte q) ++ [q])

/-- The value of a hexadecimal digit. -/
def hexValue (c : Char) : Option Nat :=
  if '0' ≤ c ∧ c ≤ '9' then some (c.toNat - 48)
  else if 'a' ≤ c ∧ c ≤ 'f' then some (c.toNat - 87)
  else if 'A' ≤ c ∧ c ≤ 'F' then some (c.toNat - 55)
  else none

/-- The byte after a backslash, for the one-character escapes (the numeric and the rarer ones are not modelled). -/
def escapeByte (c : Char) : Option UInt8 :=
  if c = '\\' then some 92
  else if c = '\'' then some 39
  else if c = '"' then some 34
  else if c = 't' then some 9
  else if c = 'n' then some 10
  else if c = 'r' then some 13
  else none

/-- The rest of a bytes literal after its opening quote `q`. -/
def evalBody (q : Char) : List Char → Option Bytes
  | [] => none
  | '\\' :: 'x' :: a :: b :: rest =>
    match hexValue a, hexValue b with
    | some x, some y => (evalBody q rest).map (UInt8.ofNat (16 * x + y) :: ·)
    | _, _ => none
  | '\\' :: c :: rest =>
    match escapeByte c with
    | some x => (evalBody q rest).map (x :: ·)
    | none => none
  | c :: rest =>
    if c = q then (if rest = [] then some [] else none)
    else if c = '\\' ∨ c = '\n' ∨ 128 ≤ c.toNat then none
    else (evalBody q rest).map (UInt8.ofNat c.toNat :: ·)

/-- `eval(text)` where the text is a bytes literal (nothing else is modelled). -/
def evalBytes : List Char → Option Bytes
  | 'b' :: q :: rest => if q = '\'' ∨ q = '"' then evalBody q rest else none
  | _ => none

/-- The text of a key. -/
def Key.text : Key → String
  | .s x => x
  | .i n => toString n

mutual
/-- `json.dump(data, fp, default=bytes_json_encoder, ...)`: data.py:126-140. -/
def dumpJson : Val → Json
  | .null => .null
  | .int n => .int n
  | .flt q => .flt q
  | .str s => .str s
  | .bytes b => .obj [("__type", .str "<class 'bytes'>"), ("repr", .str (String.ofList (bytesRepr b)))]
  | .tuple l => .arr (dumpJsonL l)
  | .list l => .arr (dumpJsonL l)
  | .dict kv => .obj (dumpJsonD kv)
/-- Companion of `dumpJson`. -/
def dumpJsonL : List Val → List Json
  | [] => []
  | v :: l => dumpJson v :: dumpJsonL l
/-- Companion of `dumpJson`. -/
def dumpJsonD : List (Key × Val) → List (String × Json)
  | [] => []
  | (k, v) :: l => (k.text, dumpJson v) :: dumpJsonD l
end

/-- What reading JSON can give: the objects of the data, and response sets. -/
inductive Obj
  | null
  | int (n : Int)
  | flt (q : Rat)
  | str (s : String)
  | bytes (b : Bytes)
  | tuple (l : List Obj)
  | list (l : List Obj)
  | dict (kv : List (Key × Obj))
  | resp (raw decoded : Obj)

/-- The keys that are texts of digits, in order: data.py:91-95. -/
def digitKeys (U : UnicodeDb) : List (Key × Obj) → List String
  | [] => []
  | (.s k, _) :: rest => if U.isDigitStr k.toList then k :: digitKeys U rest else digitKeys U rest
  | (.i _, _) :: rest => digitKeys U rest

/-- `o[int(strkey)] = o.pop(strkey)`: data.py:97. -/
def moveKey (U : UnicodeDb) (o : List (Key × Obj)) (k : String) : Except PyErr (List (Key × Obj)) :=
  match aget (.s k) o with
  | none => .error .keyError
  | some v =>
    match U.intOf k.toList with
    | some n => .ok (aset (.i n) v (adel (.s k) o))
    | none => .error .valueError

/-- The loop over the keys to move: data.py:96-97. -/
def moveKeys (U : UnicodeDb) : List String → List (Key × Obj) → Except PyErr (List (Key × Obj))
  | [], o => .ok o
  | k :: ks, o => do
    let o ← moveKey U o k
    moveKeys U ks o

/-- `int_key_json_decoder`: data.py:88-98. -/
def intKeyHook (U : UnicodeDb) (o : List (Key × Obj)) : Except PyErr Obj :=
  (moveKeys U (digitKeys U o) o).map .dict

/-- `value_list_json_decoder`: data.py:101-106. -/
def valueHook (U : UnicodeDb) (o : List (Key × Obj)) : Except PyErr Obj :=
  match aget (.s "value") o with
  | some (.list [a, b, c]) => intKeyHook U (aset (.s "value") (.tuple [a, b, c]) o)
  | _ => intKeyHook U o

/-- `response_set_json_decoder`: data.py:109-112; a further key is an unexpected keyword argument. -/
def respHook (U : UnicodeDb) (o : List (Key × Obj)) : Except PyErr Obj :=
  match aget (.s "decoded") o, aget (.s "raw") o with
  | some d, some r => if o.length = 2 then .ok (.resp r d) else .error .typeError
  | _, _ => valueHook U o

/-- `bytes_json_decoder`: data.py:115-118. -/
def bytesHook (U : UnicodeDb) (o : List (Key × Obj)) : Except PyErr Obj :=
  match aget (.s "__type") o with
  | some _ =>
    match aget (.s "repr") o with
    | some (.str t) =>
      match evalBytes t.toList with
      | some b => .ok (.bytes b)
      | none => .error .valueError
    | some _ => .error .typeError
    | none => .error .keyError
  | none => respHook U o

/-- The dict of a JSON object (the last of several equal keys wins). -/
def ofPairs (l : List (String × Obj)) : List (Key × Obj) := l.foldl (fun d p => aset (.s p.1) p.2 d) []

mutual
/-- `json.load(fp, object_hook=bytes_json_decoder)`: data.py:121-123. -/
def loadJson (U : UnicodeDb) : Json → Except PyErr Obj
  | .null => .ok .null
  | .int n => .ok (.int n)
  | .flt q => .ok (.flt q)
  | .str s => .ok (.str s)
  | .arr l => (loadJsonL U l).map .list
  | .obj kv => do
    let o ← loadJsonD U kv
    bytesHook U (ofPairs o)
/-- Companion of `loadJson`. -/
def loadJsonL (U : UnicodeDb) : List Json → Except PyErr (List Obj)
  | [] => .ok []
  | j :: l => do
    let x ← loadJson U j
    let xs ← loadJsonL U l
    return x :: xs
/-- Companion of `loadJson`. -/
def loadJsonD (U : UnicodeDb) : List (String × Json) → Except PyErr (List (String × Obj))
  | [] => .ok []
  | (k, j) :: l => do
    let x ← loadJson U j
    let xs ← loadJsonD U l
    return (k, x) :: xs
end

/-! ## Exporting and importing collections -/

/-- `asdict` of a response set. -/
def RespSet.asDict (s : RespSet) : Val := .dict [(.s "raw", .bytes s.raw), (.s "decoded", s.decoded)]

/-- `asdict` of a field. -/
def Resp.asDict : Resp → Val
  | .none => .null
  | .one s => s.asDict
  | .many l => .list (l.map RespSet.asDict)

/-- `asdict(collection)`. -/
def Collection.asDict (c : Collection) : Val :=
  .dict ((.s "decoded_complete", c.decoded) :: c.parts.map (fun p => (.s p.1, p.2.asDict)))

/-- What `export_response_collection` writes: data.py:147-150. -/
def Collection.export (c : Collection) : Json := dumpJson c.asDict

/-- The fields of `ScreenLogicResponseCollection` that may be left out. -/
def optionalFields : List String := ["version", "config", "status", "pumps", "chemistry", "scg", "color", "date_time"]

/-- `import_response_collection`: data.py:143-144: the fields of the new object by name. -/
def importCollection (U : UnicodeDb) (j : Json) : Except PyErr (List (String × Obj)) := do
  match ← loadJson U j with
  | .dict kv =>
    match aget (.s "decoded_complete") kv with
    | some d =>
      if kv.all (fun e => e.1 = .s "decoded_complete" ∨ ∃ f ∈ optionalFields, e.1 = .s f) then
        return ("decoded_complete", d) :: optionalFields.map (fun f => (f, (aget (.s f) kv).getD .null))
      else .error .typeError
    | none => .error .typeError
  | _ => .error .typeError

end SL
