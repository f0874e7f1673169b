import Verif.Model.Gateway
import Verif.Model.Options
import Verif.Model.Discovery
/-!
# screenlogicpy/cli.py

The command line is a client of the gateway: a program that makes API calls, reads the gateway's data and prints.  Argument
parsing itself (argparse) is not modelled: the program starts with the parsed arguments.
-/
namespace SL

/-- Something printed.  The texts themselves (f-strings, number formatting) are not modelled, only what they show. -/
inductive Out
  | line
  | value (v : Val)
  | named (name v : Val)
  | titled (name : Val) (title : String)
  | temperature (body : String) (v unit : Val)
  | circuit (id : Key) (state : String) (name : Val)
  | date (t : DateTime)
  | host (h : Host)
  | many (l : List Out)

/-- A program of the command line.  There is no `try` inside the commands: an exception of a call ends the program. -/
inductive Cli (α : Type)
  | ret (a : α)
  | raise (e : PyErr)
  | print (o : Out) (k : Cli α)
  | read (k : Val → Cli α)
  | call (c : Call) (k : Res → Cli α)

/-- Sequencing. -/
def Cli.bind {α β : Type} : Cli α → (α → Cli β) → Cli β
  | .ret a, f => f a
  | .raise e, _ => .raise e
  | .print o k, f => .print o (k.bind f)
  | .read k, f => .read (fun d => (k d).bind f)
  | .call c k, f => .call c (fun r => (k r).bind f)

instance : Monad Cli where
  pure := .ret
  bind := .bind

/-- Raise what a computation raises. -/
def Cli.lift {α : Type} : Except PyErr α → Cli α
  | .ok a => .ret a
  | .error e => .raise e

/-- `gateway.get_data()`, the data as they are now. -/
def Cli.data : Cli Val := .read .ret

/-- `await gateway.<call>`. -/
def Cli.ask (c : Call) : Cli Res := .call c .ret

/-- `print(...)`. -/
def Cli.say (o : Out) : Cli Unit := .print o (.ret ())

/-- What the command line depends on outside the package: the clock, `datetime.fromisoformat` and
`datetime.fromtimestamp(_, tz=timezone.utc)`. -/
structure CliEnv where
  now : DateTime
  fromIso : String → Except PyErr DateTime
  fromTimestampUtc : Rat → Except PyErr DateTime

/-- The commands, with the values as argparse delivers them. -/
inductive CliCmd
  | getCircuit (n : Int)
  | getHeatMode (body : String)
  | getHeatTemp (body : String)
  | getHeatState (body : String)
  | getCurrentTemp (body : String)
  | getDateTime
  | getAutoDst
  | getJson
  | setCircuit (n : Int) (state : String)
  | setColorLights (mode : String)
  | setHeatMode (body mode : String)
  | setHeatTemp (body : String) (temp : Int)
  | setScg (pool spa : Option Int)
  | setSuper (state : Option String) (time : Option Int)
  | setChemSetpoint (ph : Option Rat) (orp : Option Int)
  | setChemValue (ca ta cya tds : Option Int)
  | setDateTime (date : Option String) (dst : Option String)

/-- `v[k]` of an element: a dict, or something (such as `None`) that cannot be subscripted by a text. -/
def Val.item (v : Val) (k : String) : Except PyErr Val :=
  match v with
  | .dict kv =>
    match aget (.s k) kv with
    | some x => .ok x
    | none => .error .keyError
  | _ => .error .typeError

/-- `cls(v)`: the member's name and number, or `ValueError`. -/
def enumMember (e : EnumDef) (v : Val) : Except PyErr (String × Int) :=
  match v.num with
  | some q =>
    if q.den = 1 then
      match e.nameOf q.num with
      | some n => .ok (n, q.num)
      | none => .error .valueError
    else .error .valueError
  | none => .error .valueError

/-- `vFormat`: cli.py:39-53 (the classes given are `SLIntEnum`s or none). -/
def vFormat (verbose : Bool) (elem : Val) (cls : Option EnumDef) : Except PyErr Out := do
  if verbose then
    let n ← elem.item "name"
    let v ← elem.item "value"
    match cls with
    | some e => do
      let m ← enumMember e v
      return .titled n (e.title m.1)
    | none => return .named n v
  else
    let v ← elem.item "value"
    match cls with
    | some e => do
      let m ← enumMember e v
      return .value (.int m.2)
    | none => return .value v

/-- `k in d` where `d` is what `get_data` returned. -/
def inData (k : Key) (d : Val) : Except PyErr Bool :=
  match d with
  | .dict kv => .ok (aget k kv).isSome
  | _ => .error .typeError

/-- `cls.parse(text).value`. -/
def optionValue (U : UnicodeDb) (e : EnumDef) (s : String) : Except PyErr Int := do
  match ← e.parse U (.text s.toList) (some 0) with
  | some n => return n
  | none => .error .attributeError

/-- An optional number as an argument. -/
def optInt : Option Int → Val
  | some n => .int n
  | none => .null

/-- An optional text as an argument. -/
def optStr : Option String → Val
  | some s => .str s
  | none => .null

/-- An optional float as an argument. -/
def optFlt : Option Rat → Val
  | some q => .flt q
  | none => .null

/-- `[vFormat(new[key]) for key, value in kwargs.items() if key in new and value is not None]`: cli.py:190-196, 244-250. -/
def changed (verbose : Bool) (new : Val) : List (String × Val) → Except PyErr (List Out)
  | [] => .ok []
  | (k, v) :: rest => do
    if ← inData (.s k) new then
      if v = .null then changed verbose new rest
      else do
        let x ← new.item k
        let o ← vFormat verbose x none
        let l ← changed verbose new rest
        return o :: l
    else changed verbose new rest

variable (E : Env) (C : CliEnv)

open Cli (ask say data lift)

/-- Show one element: `print(vFormat(gateway.get_data(*path), cls))`. -/
def showElement (verbose : Bool) (p : Path) (cls : Option EnumDef) : Cli Int := do
  let d ← data
  let x ← lift (getData false p d)
  let o ← lift (vFormat verbose x cls)
  say o
  return 0

/-- Show the controller's clock: cli.py:256-263, 294-299. -/
def showClock : Cli Int := do
  let d ← data
  let ts ← lift (getData true [.s "controller", .s "date_time", .s "timestamp"] d)
  match ts.num with
  | some q => do
    let t ← lift (C.fromTimestampUtc q)
    say (.date t)
    return 0
  | none => .raise .typeError

/-- `async_set_scg_config`: cli.py:161-197. -/
def cliSetScg (verbose : Bool) (pool spa state time : Val) : Cli Int := do
  if pool = .null ∧ spa = .null ∧ state = .null ∧ time = .null then do
    say .line
    return 65
  else do
    let _ ← ask (.setScg pool spa state time)
    let _ ← ask .getScg
    let d ← data
    let new ← lift (getData false [.s "scg", .s "configuration"] d)
    let l ← lift (changed verbose new
      [("pool_setpoint", pool), ("spa_setpoint", spa), ("super_chlorinate", state), ("super_chlor_timer", time)])
    say (.many l)
    return 0

/-- `async_set_chem_data`: cli.py:210-251. -/
def cliSetChem (verbose : Bool) (ph orp ca ta cya tds : Val) : Cli Int := do
  if ph = .null ∧ orp = .null ∧ ca = .null ∧ ta = .null ∧ cya = .null ∧ tds = .null then do
    say .line
    return 129
  else do
    let _ ← ask (.setChem ph orp ca ta cya tds)
    let _ ← ask .getChemistry
    let d ← data
    let new ← lift (getData false [.s "intellichem", .s "configuration"] d)
    let l ← lift (changed verbose new
      [("ph_setpoint", ph), ("orp_setpoint", orp), ("calcium_hardness", ca), ("total_alkalinity", ta), ("cya", cya),
       ("salt_tds_ppm", tds)])
    say (.many l)
    return 0

/-- The command functions: cli.py:55-316 (the half second of sleeping in `async_set_date_time` is not modelled; `get
json` prints the data). -/
def CliCmd.prog (verbose : Bool) : CliCmd → Cli Int
  | .getCircuit n => do                                                   -- 55-66
    let d ← data
    let cs ← lift (getData false [.s "circuit"] d)
    if ← lift (inData (.i n) cs) then showElement verbose [.s "circuit", .i n] (some enOnOff)
    else do
      say .line
      return 4
  | .getHeatMode b => do                                                  -- 84-92
    let b ← lift (optionValue E.uni enBodyType b)
    showElement verbose [.s "body", .i b, .s "heat_mode"] (some enHeatMode)
  | .getHeatTemp b => do                                                  -- 107-114
    let b ← lift (optionValue E.uni enBodyType b)
    showElement verbose [.s "body", .i b, .s "heat_setpoint"] none
  | .getHeatState b => do                                                 -- 128-136
    let b ← lift (optionValue E.uni enBodyType b)
    showElement verbose [.s "body", .i b, .s "heat_state"] (some enOnOff)
  | .getCurrentTemp b => do                                               -- 138-145
    let b ← lift (optionValue E.uni enBodyType b)
    showElement verbose [.s "body", .i b, .s "last_temperature"] none
  | .getDateTime => do                                                    -- 253-263
    let _ ← ask .getDatetime
    showClock C
  | .getAutoDst => do                                                     -- 265-272
    let _ ← ask .getDatetime
    showElement verbose [.s "controller", .s "date_time", .s "auto_dst"] none
  | .getJson => do                                                        -- 314-316
    let d ← data
    say (.value d)
    return 0
  | .setCircuit n st => do                                                -- 68-82
    let st ← lift (optionValue E.uni enOnOff st)
    let d ← data
    let cs ← lift (getData false [.s "circuit"] d)
    if ← lift (inData (.i n) cs) then do
      let _ ← ask (.setCircuit (.int n) (.int st))
      let _ ← ask .update
      showElement verbose [.s "circuit", .i n] (some enOnOff)
    else do
      say .line
      return 4
  | .setColorLights m => do                                               -- 147-153
    let m ← lift (optionValue E.uni enColorMode m)
    let _ ← ask (.setColorLights (.int m))
    if verbose then do
      let t ← lift (enumMember enColorMode (.int m))
      say (.value (.str (enColorMode.title t.1)))
      return 0
    else do
      say (.value (.int m))
      return 0
  | .setHeatMode b m => do                                                -- 94-105
    let b ← lift (optionValue E.uni enBodyType b)
    let m ← lift (optionValue E.uni enHeatMode m)
    let _ ← ask (.setHeatMode (.int b) (.int m))
    let _ ← ask .update
    showElement verbose [.s "body", .i b, .s "heat_mode"] (some enHeatMode)
  | .setHeatTemp b t => do                                                -- 116-126
    let b ← lift (optionValue E.uni enBodyType b)
    if t ≠ -1 then do
      let _ ← ask (.setHeatTemp (.int b) (.int t))
      let _ ← ask .update
      showElement verbose [.s "body", .i b, .s "heat_setpoint"] none
    else showElement verbose [.s "body", .i b, .s "heat_setpoint"] none
  | .setScg pool spa => cliSetScg verbose (optInt pool) (optInt spa) .null .null          -- 155-156
  | .setSuper st time =>                                                                  -- 158-159
    cliSetScg verbose .null .null (optStr st) (optInt time)
  | .setChemSetpoint ph orp =>                                                            -- 199-200
    cliSetChem verbose (optFlt ph) (optInt orp) .null .null .null .null
  | .setChemValue ca ta cya tds => -- 202-208
    cliSetChem verbose .null .null (optInt ca) (optInt ta) (optInt cya) (optInt tds)
  | .setDateTime date dst => do                                           -- 274-300
    let date ← lift (match date with
      | some s => (C.fromIso s).map some
      | none => .ok none)
    let dst := optStr dst
    let date := if date = none ∧ dst = .null then some C.now else date
    let _ ← ask .getDatetime
    let _ ← ask (.setDateTime date dst)
    let _ ← ask .getDatetime
    showClock C

/-- What the user asked for: cli.py `args.action`. -/
inductive Action
  | dashboard
  | discover
  | export
  | cmd (c : CliCmd)

/-- The parsed arguments: cli.py:318-338 (`verbose` greater than 0). -/
structure CliArgs where
  verbose : Bool
  ip : Option String
  port : Int
  action : Action

/-- One body in `print_heat`: cli.py:710-738. -/
def printBody (b : Val) : Cli Unit := do
  let bt ← lift (b.item "body_type")
  let m ← lift (enumMember enBodyType bt)
  let lt ← lift (b.item "last_temperature")
  let v ← lift (lt.item "value")
  let u ← lift (lt.item "unit")
  say (.temperature (enBodyType.title m.1) v u)
  let hs ← lift (b.item "heat_setpoint")
  let n ← lift (hs.item "name")
  let v ← lift (hs.item "value")
  say (.named n v)
  let st ← lift (b.item "heat_state")
  let n ← lift (st.item "name")
  let v ← lift (st.item "value")
  let m ← lift (enumMember enHeatMode v)
  say (.titled n (enHeatMode.title m.1))
  let md ← lift (b.item "heat_mode")
  let n ← lift (md.item "name")
  let v ← lift (md.item "value")
  let m ← lift (enumMember enHeatMode v)
  say (.titled n (enHeatMode.title m.1))
  say .line

/-- `print_heat`'s loop. -/
def printBodies : List (Key × Val) → Cli Unit
  | [] => return ()
  | (_, b) :: rest => do
    printBody b
    printBodies rest

/-- `print_circuits`'s loop: cli.py:697-708. -/
def printCircuits : List (Key × Val) → Cli Unit
  | [] => return ()
  | (k, c) :: rest => do
    let i ← lift (c.item "interface")
    if i.num = some 5 then printCircuits rest
    else do
      let v ← lift (c.item "value")
      let m ← lift (enumMember enOnOff v)
      let n ← lift (c.item "name")
      say (.circuit k (enOnOff.title m.1) n)
      printCircuits rest

/-- The values of a dict, `None` has none (`AttributeError`). -/
def dictItems (v : Val) : Except PyErr (List (Key × Val)) :=
  match v with
  | .dict kv => .ok kv
  | _ => .error .attributeError

/-- `print_dashboard`: cli.py:688-747. -/
def printDashboard : Cli Unit := do
  let d ← data
  say .line
  let b ← lift (getData false [.s "body"] d)
  let b ← lift (dictItems b)
  printBodies b
  let c ← lift (getData false [.s "circuit"] d)
  let c ← lift (dictItems c)
  printCircuits c
  say .line

/-- From the connection on: cli.py:677-757.  (What the export command writes is not modelled, and with it what it may
raise.  `discover` has no `async_func`.) -/
def cliConnected (a : CliArgs) (host : ConnectArgs) : Cli Int := do
  let _ ← ask (.connect host)
  let _ ← ask .update
  let d ← data
  if ← lift (inData (.s "controller") d) then
    match a.action with
    | .export => do
      say .line
      return 0
    | .dashboard => do
      printDashboard
      let _ ← ask (.disconnect false)
      return 0
    | .discover => .raise .attributeError
    | .cmd c => do
      if a.verbose then say .line
      let code ← c.prog E C a.verbose
      let _ ← ask (.disconnect false)
      return code
  else return 1

/-- `for host in hosts: print(...)`: cli.py:650-667. -/
def printHosts : List Host → Cli Unit
  | [] => return ()
  | h :: rest => do
    say (.host h)
    printHosts rest

/-- The body of the `try`: cli.py:638-757; `found` is what discovery returns. -/
def cliBody (a : CliArgs) (found : List Host) : Cli Int :=
  if a.ip.getD "" = "" then
    match found with
    | [] => do
      say .line
      return 1
    | h :: rest =>
      match a.action with
      | .discover => do
        printHosts (h :: rest)
        return 0
      | _ => cliConnected E C a
          { ip := some h.ip, port := some h.port, gtype := some h.gtype, subtype := some h.subtype, name := some h.name }
  else cliConnected E C a { ip := a.ip, port := some a.port }

/-! ## Running it against a gateway -/

/-- A gateway as the command line meets it: after which calls (with their results) a call has which result, and what the
data are then.  At the beginning there are none. -/
def Gate := List (Call × Except PyErr Res) → Call → Except PyErr Res × Val

/-- What a run did: its calls with their results, what it printed, and how it ended. -/
structure Run (α : Type) where
  calls : List (Call × Except PyErr Res)
  out : List Out
  result : Except PyErr α

/-- Run a program after these calls, with these data. -/
def Cli.exec {α : Type} (G : Gate) : Cli α → List (Call × Except PyErr Res) → Val → Run α
  | .ret a, h, _ => ⟨h, [], .ok a⟩
  | .raise e, h, _ => ⟨h, [], .error e⟩
  | .print o k, h, d =>
    let r := k.exec G h d
    { r with out := o :: r.out }
  | .read k, h, d => (k d).exec G h d
  | .call c k, h, d =>
    match G h c with
    | (.ok r, d') => (k r).exec G (h ++ [(c, .ok r)]) d'
    | (.error e, _) => ⟨h ++ [(c, .error e)], [], .error e⟩

/-- `cli(...)`: `except ScreenLogicException as err: print(err); return -1`: cli.py:759-761. -/
def cli (G : Gate) (a : CliArgs) (found : List Host) : Run Int :=
  let r := (cliBody E C a found).exec G [] (.dict [])
  match r.result with
  | .error e => if e.isScreenLogic then { r with out := r.out ++ [.line], result := .ok (-1) } else r
  | .ok _ => r

end SL
