import Verif.Model.Cli
import Verif.Model.Export
/-!
# screenlogicpy/cli.py: the export command
-/
namespace SL

/-- `string.punctuation`. -/
def punctuation : List Char := "!\"#$%&'()*+,-./:;<=>?@[\\]^_`{|}~".toList

/-- `file_format`: cli.py:28-30; `lower` is `str.lower`.  What has no suitable `translate` raises. -/
def fileFormat (lower : List Char → List Char) : Val → Except PyErr (List Char)
  | .str s => .ok (lower ((s.toList.filter (fun c => c ∉ punctuation)).map (fun c => if c = ' ' then '-' else c)))
  | .bytes _ => .error .typeError
  | _ => .error .attributeError

/-- `EQUIPMENT_FLAG(v).value` (gateway.py:84-88): an `IntFlag` keeps bits it has no names for; what is not an `int` is a
`ValueError`.  (The flags are never negative.) -/
def flagsValue : Val → Except PyErr Int
  | .int n => .ok n
  | _ => .error .valueError

/-- `__version__`: screenlogicpy/__init__.py:1. -/
def libVersion : String := "0.10.2"

/-- `async_export_data_collection`: cli.py:302-312, with the gateway's properties `version` and `controller_model` (gateway.py:76-82).
`d` is what `get_data()` returns, `last` what `get_debug()` does, `now` the host's clock while the answers are read again.
The result is the name of the file and the document in it; what writing the file itself may raise (`OSError`, a name with NUL) is
not modelled. -/
def exportFile (pyFloat : String → Except PyErr Rat) (lower : List Char → List Char) (now : Rat) (d last : Val) :
    Except PyErr (String × Json) := do
  let slVer ← fileFormat lower (.str libVersion)
  let paVer ← fileFormat lower (← getValue false [.s "adapter", .s "firmware"] d)
  let model ← fileFormat lower (← getValue false [.s "controller", .s "model"] d)
  let equip ← flagsValue (← getData false [.s "controller", .s "equipment", .s "flags"] d)
  let name := String.ofList ("slpy-".toList ++ slVer ++ "_".toList ++ paVer ++ "_".toList ++ model ++ "_".toList ++
    (toString equip).toList ++ ".json".toList)
  match last with
  | .dict raw => do
    let c ← buildCollection pyFloat now raw d
    return (name, c.export)
  | _ => .error .attributeError

/-- The command line with the file it writes: cli.py:680-683.  `cli` stands for everything up to the export (it ends with status 0
exactly if the export is reached); `dataAt` is the gateway's data and its debug data after these calls. -/
def cliExport (E : Env) (C : CliEnv) (lower : List Char → List Char) (now : Rat) (G : Gate)
    (dataAt : List (Call × Except PyErr Res) → Val × Val) (a : CliArgs) (found : List Host) : Run Int × Option (String × Json) :=
  let r := cli E C G a found
  match a.action with
  | .export =>
    if r.result = .ok 0 then
      match exportFile E.pyFloat lower now (dataAt r.calls).1 (dataAt r.calls).2 with
      | .ok f => (r, some f)
      | .error e => ({ r with result := .error e }, none)
    else (r, none)
  | _ => (r, none)

end SL
