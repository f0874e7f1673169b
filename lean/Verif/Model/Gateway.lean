import Verif.Model.Co
/-!
# screenlogicpy/gateway.py, client.py, requests/login.py and the request wrappers, as coroutines
-/
namespace SL

open Co (state modify makeRequest pause closeConn withLock tryExcept ofExcept)

/-- What the host provides: Python's `float(str)`, the Unicode database, and `datetime.fromtimestamp` (local
time of the host). -/
structure Env where
  pyFloat : String → Except PyErr Rat
  uni : UnicodeDb
  fromTimestamp : Rat → Except PyErr DateTime

variable (E : Env)

/-! ## Request wrappers (requests/*.py) -/

/-- The setters' common form `if (response := await async_make_request(...)) != b"": raise
ScreenLogicResponseError`: requests/button.py:9-22, heat.py:9-38, lights.py:11-24, scg.py:85-105,
chemistry.py:310-340, client.py:9-42, datetime.py:40-54, ping.py:7-13.  A `None` is not `b""` either. -/
def ackRequest (code : Int) (payload : Except PyErr Bytes) (c : Nat) (retries : Int) : Co Unit := do
  let data ← ofExcept payload
  let response ← makeRequest c code data retries
  if response = some [] then return () else .throw .slResponse

/-- Run a decoder on the gateway's data. -/
def decodeCo (D : Decoder) (buff : Bytes) : Co Unit := do
  let g ← state
  let r := decodeWith (D.prog E.pyFloat) buff g.data
  modify (·.setData r.2)
  ofExcept r.1

/-- The getters' common form `if result := await async_make_request(...): decode(result, data); return
result` (an empty or missing result returns `None`): requests/status.py:19-26, config.py:12-22, pump.py:11-18,
chemistry.py:26-33, scg.py:13-20, datetime.py:12-19, gateway.py:8-15. -/
def queryRequest (D : Gw → Decoder) (code : Int) (payload : Except PyErr Bytes) (c : Nat) (retries : Int) :
    Co (Option Bytes) := do
  let data ← ofExcept payload
  let result ← makeRequest c code data retries
  match result with
  | some (b :: bs) => do
    let g ← state
    decodeCo E (D g) (b :: bs)
    return some (b :: bs)
  | _ => return none

/-- `async_request_pool_status`: requests/status.py:19-26. -/
def requestStatus := queryRequest E (fun _ => .status) 12526 (packObjs [.int 0])
/-- `async_request_pool_config`: requests/config.py:12-22. -/
def requestConfig := queryRequest E (fun _ => .config) 12532 (packObjs [.int 0, .int 0])
/-- `async_request_pump_status`: requests/pump.py:11-18. -/
def requestPump (i : Int) := queryRequest E (fun _ => .pump i) 12584 (packObjs [.int 0, .int i])
/-- `async_request_chemistry`: requests/chemistry.py:26-33. -/
def requestChemistry := queryRequest E (fun _ => .chemistry) 12592 (packObjs [.int 0])
/-- `async_request_scg_config`: requests/scg.py:13-20. -/
def requestScg := queryRequest E (fun _ => .scg) 12572 (packObjs [.int 0])
/-- `async_request_date_time`: requests/datetime.py:12-19. -/
def requestDateTime := queryRequest E (fun g => .dateTime g.now) 8110 (.ok [])
/-- `async_request_gateway_version`: requests/gateway.py:8-15. -/
def requestVersion := queryRequest E (fun _ => .version) 8120 (.ok [])

/-- `async_request_pool_button_press`: requests/button.py:9-22. -/
def requestButton (circuit st : Val) := ackRequest 12530 (packObjs [.int 0, circuit, st])
/-- `async_request_set_heat_setpoint`: requests/heat.py:9-22. -/
def requestHeatTemp (body temp : Val) := ackRequest 12528 (packObjs [.int 0, body, temp])
/-- `async_request_set_heat_mode`: requests/heat.py:25-38. -/
def requestHeatMode (body mode : Val) := ackRequest 12538 (packObjs [.int 0, body, mode])
/-- `async_request_pool_lights_command`: requests/lights.py:11-24. -/
def requestLights (cmd : Val) := ackRequest 12556 (packObjs [.int 0, cmd])
/-- `async_request_set_scg_config`: requests/scg.py:85-105. -/
def requestSetScg (a b c d : Val) := ackRequest 12576 (packObjs [.int 0, a, b, c, d])
/-- `async_request_set_chem_data`: requests/chemistry.py:310-340. -/
def requestSetChem (a b c d e f : Val) := ackRequest 12594 (packObjs [.int 0, a, b, c, d, e, f])
/-- `encodeMessageTime(date_time) + struct.pack("<I", auto_dst)`: requests/datetime.py:50. -/
def dateTimePayload (t : DateTime) (dst : Val) : Except PyErr Bytes := do
  let a ← encodeMessageTime t
  let b ← packObjs [dst]
  return a ++ b
/-- `async_request_set_date_time`: requests/datetime.py:40-54. -/
def requestSetDateTime (t : DateTime) (dst : Val) := ackRequest 8112 (dateTimePayload t dst)
/-- `async_request_add_client`: requests/client.py:9-24. -/
def requestAddClient (id : Int) := ackRequest 12522 (packObjs [.int 0, .int id])
/-- `async_request_remove_client`: requests/client.py:27-42. -/
def requestRemoveClient (id : Int) := ackRequest 12524 (packObjs [.int 0, .int id])
/-- `async_request_ping`: requests/ping.py:7-13. -/
def requestPing := ackRequest 16 (.ok [])

/-! ## Connecting (gateway.py:119-178), up to the TCP connection -/

/-- The arguments of `async_connect`. -/
structure ConnectArgs where
  ip : Option String := none
  port : Option Int := none
  gtype : Option Int := none
  subtype : Option Int := none
  name : Option String := none
  cb : Option Nat := none
deriving Repr, DecidableEq

/-- The field updates of `async_connect`: gateway.py:132-137. -/
def Gw.remember (g : Gw) (a : ConnectArgs) : Gw :=
  { g with
    ip := a.ip.or g.ip, port := a.port.getD g.port, gtype := a.gtype.getD g.gtype,
    subtype := a.subtype.getD g.subtype, name := a.name.getD g.name, closedCb := a.cb }

/-- `not self._ip`: `None` or the empty text. -/
def Gw.noIp (g : Gw) : Bool := g.ip == none || g.ip == some ""

/-- `async_connect`: gateway.py:119-162, up to the connection attempt. -/
def asyncConnect (a : ConnectArgs) : Co Bool :=
  .get fun g =>
    if g.isConnected then .ret true
    else
      .upd (·.remember a) <|
      .get fun g =>
        if g.noIp then .throw .slError
        else .openConn g.maxRetries ofExcept

/-! ## Client manager (client.py) and the managed request (gateway.py:529-556) -/

/-- `async_unsubscribe_gateway`: client.py:201-217, with `_async_remove_client`: client.py:168-176.  (While the
protocol is attached it is not `None`.) -/
def unsubscribeGateway : Co Unit := do
  let g ← state
  if g.attached then
    withLock do
      let g ← state
      match g.isClient, g.cmProto with
      | true, some c => do
        modify (·.setClient false)
        modify (·.net c .disableKeepalive)
        modify (·.net c .unregisterAll)
        tryExcept (requestRemoveClient g.clientId c 0) (fun e => if e.isComm then return () else .throw e)
      | _, _ => return ()
  else return ()

/-- `if b: x`. -/
def whenCo (b : Bool) (x : Co Unit) : Co Unit := if b then x else .ret ()

/-- `async_disconnect`: gateway.py:164-170. -/
def asyncDisconnect (force : Bool) : Co Unit := do
  let g ← state
  whenCo g.isClientNow unsubscribeGateway
  let g ← state
  match g.protocol with
  | some c => closeConn c force
  | none => .throw .attributeError

/-- `attempt_request` inside `_async_connected_request`: gateway.py:541-546.  When connecting returns False,
building the error message asks the function for its `func_name`, which is an `AttributeError`. -/
def attemptRequest {α : Type} (retries : Int) (method : Nat → Int → Co α) : Co α := do
  let ok ← asyncConnect {}
  if ok then
    let g ← state
    match g.protocol with
    | some c => method c retries
    | none => .throw .attributeError
  else .throw .attributeError

/-- `_async_connected_request`: gateway.py:529-556 (no caller passes `max_retries`). -/
def connectedRequest {α : Type} (method : Nat → Int → Co α) : Co α := do
  let g ← state
  tryExcept (attemptRequest g.maxRetries method) (fun e =>
    if e.isComm then do
      asyncDisconnect true
      pause
      attemptRequest g.maxRetries method
    else .throw e)

/-- `async_subscribe_gateway`: client.py:178-199, with `_async_add_client`: client.py:163-166. -/
def subscribeGateway : Co Unit := do
  let g ← state
  if g.attached then
    withLock do
      let g ← state
      if g.isClientNow then return ()
      else do
        connectedRequest (requestAddClient g.clientId)
        modify (·.setClient true)
        let g ← state
        match g.cmProto with
        | some c => modify (·.net c (.enableKeepalive 0))
        | none => .throw .attributeError
  else return ()

/-- The number standing for (handler, args) of the common callback for a code. -/
def commonHandler (code : Nat) : Nat := 2 * code
/-- The number standing for a user's handler. -/
def userHandler (h : Nat) : Nat := 2 * h + 1

/-- `for code in self._listeners: register_async_message_callback(...)` : client.py:79-83. -/
def registerAll (c : Nat) : List (Nat × Nat) → Co Unit
  | [] => return ()
  | (code, _) :: rest => do
    modify (·.net c (.register code (commonHandler code)))
    registerAll c rest

/-- `attach`: client.py:62-84. -/
def attach (c : Nat) : Co Unit := do
  modify (·.attachTo c)
  let g ← state
  if g.clientNeeded then do
    modify (·.net c .unregisterAll)
    registerAll c g.listeners
    subscribeGateway
  else return ()

/-! ## Polling (gateway.py:172-232) -/

/-- `if last_raw := await self._async_connected_request(...): self._last[key] = last_raw` (for pumps,
`self._last["pumps"][pumpID]`). -/
def poll (key : Path) (method : Nat → Int → Co (Option Bytes)) : Co Unit := do
  let raw ← connectedRequest method
  match raw with
  | some b => modify (·.putLast key (.bytes b))
  | none => return ()

/-- `async_get_config`: gateway.py:190-196. -/
def getConfig : Co Unit := poll [.s "config"] (requestConfig E)
/-- `async_get_status`: gateway.py:198-204. -/
def getStatus : Co Unit := poll [.s "status"] (requestStatus E)
/-- `async_get_chemistry`: gateway.py:217-223. -/
def getChemistry : Co Unit := poll [.s "chemistry"] (requestChemistry E)
/-- `async_get_scg`: gateway.py:225-231. -/
def getScg : Co Unit := poll [.s "scg"] (requestScg E)
/-- `async_get_datetime`: gateway.py:233-239. -/
def getDatetime : Co Unit := poll [.s "date_time"] (requestDateTime E)

/-- `equipment_flags`: gateway.py:93-97; `EQUIPMENT_FLAG(x)` raises `ValueError` for anything that is not an
int. -/
def equipmentFlags (d : Val) : Except PyErr Nat :=
  match getData false [.s "controller", .s "equipment", .s "flags"] d with
  | .ok (.int n) => .ok n.toNat
  | .ok _ => .error .valueError
  | .error e => .error e

/-- The body of the loop of `async_get_pumps`: gateway.py:208-215. -/
def getPump (i : Nat) : Co Unit := do
  let g ← state
  let flags ← ofExcept (equipmentFlags g.data)
  if (0x10 <<< i) &&& flags ≠ 0 then do
    modify (·.putLastNew [.s "pumps"] (.dict []))
    poll [.s "pumps", .i i] (requestPump E i)
  else return ()

/-- `for pumpID in range(...)`. -/
def getPumpsFrom : Nat → Nat → Co Unit
  | 0, _ => return ()
  | n + 1, i => do
    getPump E i
    getPumpsFrom n (i + 1)

/-- `async_get_pumps`: gateway.py:206-215. -/
def getPumps : Co Unit := getPumpsFrom E 8 0

/-- `async_update`: gateway.py:172-188. -/
def asyncUpdate : Co Unit := do
  let g ← state
  if g.data.truthy then do
    getStatus E
    getPumps E
    getChemistry E
    getScg E
    getDatetime E
  else .throw .slError

/-! ## The rest of `async_connect` -/

/-- `create_login_message`: requests/login.py:15-24. -/
def loginMessage : Except PyErr Bytes := do
  let clientVersion ← encodeMessageString "Android" false
  let passwd ← encodeMessageString "0000000000000000" false
  return leBytes 4 348 ++ leBytes 4 0 ++ clientVersion ++ passwd ++ [0] ++ leBytes 4 2

/-- `async_gateway_connect` after the connection exists: requests/login.py:63-86.  (`transport.write` does not
raise.)  Returns the MAC address. -/
def gatewayConnect (c : Nat) (retries : Int) : Co String := do
  modify (·.writeRaw c "CONNECTSERVERHOST\r\n\r\n".toUTF8.data.toList)
  pause
  let g ← state
  if g.connected c then do
    let r ← makeRequest c 14 [] retries
    match r with
    | some b => ofExcept (decodeMessageString b)
    | none => .throw .typeError
  else .throw .slConnection

/-- `async_connect_to_gateway` after the connection exists: requests/login.py:98-109, with
`async_gateway_login`: 89-95. -/
def connectToGateway (c : Nat) (retries : Int) : Co (Option String) := do
  let mac ← gatewayConnect c retries
  let msg ← ofExcept loginMessage
  let r ← makeRequest c 27 msg retries
  match r with
  | some _ => return some mac
  | none => return none

/-- The version part of `async_connect`: gateway.py:151-155. -/
def loadVersion (c : Nat) : Co Unit := do
  let g ← state
  let raw ← requestVersion E c g.maxRetries
  modify (·.putLast [.s "version"] (match raw with | some b => .bytes b | none => .null))

/-- `self.version` is true: gateway.py:85-87, 155. -/
def Gw.hasVersion (g : Gw) : Bool :=
  match getValue false [.s "adapter", .s "firmware"] g.data with
  | .ok v => v.truthy
  | .error _ => false

/-- `async_connect` once the connection `c` exists: gateway.py:143-162 with `max_retries` as it was when
`async_connect_to_gateway` was called. -/
def afterOpen (retries : Int) (c : Nat) : Co Bool := do
  let mac ← connectToGateway c retries
  match mac with
  | none => return false
  | some m => do
    modify (·.setProto c m)
    loadVersion E c
    let g ← state
    if g.hasVersion then do
      getConfig E
      let g ← state
      match g.protocol with
      | some c => do
        attach c
        return true
      | none => .throw .attributeError
    else return false

/-! ## Setters (gateway.py:305-469) -/

/-- `circuit in self._data[DEVICE.CIRCUIT]` (and for bodies): gateway.py:563-565, 571-573.  The data are a dict,
and so is what is stored under these keys; otherwise `TypeError`. -/
def knownIn (dev : String) (v : Val) (d : Val) : Except PyErr Bool :=
  match d with
  | .dict kv =>
    match aget (.s dev) kv with
    | none => .error .keyError
    | some (.dict kv) => pyInDict v kv
    | some _ => .error .typeError
  | _ => .error .typeError

/-- `state == 0 or state == 1`: gateway.py:567-569. -/
def validCircuitState (v : Val) : Bool := v.num == some 0 || v.num == some 1

/-- `if not ok: raise ValueError`. -/
def require (b : Except PyErr Bool) : Co Unit :=
  match b with
  | .ok true => .ret ()
  | .ok false => .throw .valueError
  | .error e => .throw e

/-- `async_set_circuit`: gateway.py:305-314. -/
def setCircuit (circuit st : Val) : Co Unit := do
  let g ← state
  require (knownIn "circuit" circuit g.data)
  require (.ok (validCircuitState st))
  connectedRequest (requestButton circuit st)

/-- `int(body)`: gateway.py:581-582. -/
def pyInt : Val → Except PyErr Int
  | .int n => .ok n
  | .flt q => .ok (truncRat q)
  | .str _ => .error .valueError
  | _ => .error .typeError

/-- `min_temp <= temp <= max_temp`: gateway.py:579-583 (a missing limit is `None`, and comparing it raises
`TypeError`; the second comparison is only made if the first holds). -/
def validHeatTemp (body temp d : Val) : Except PyErr Bool := do
  let i ← pyInt body
  let lo ← getData false [.s "body", .i i, .s "min_setpoint"] d
  let hi ← getData false [.s "body", .i i, .s "max_setpoint"] d
  match lo.num, temp.num with
  | some lo, some t =>
    if lo ≤ t then
      match hi.num with
      | some hi => return decide (t ≤ hi)
      | none => .error .typeError
    else return false
  | _, _ => .error .typeError

/-- `async_set_heat_temp`: gateway.py:316-323. -/
def setHeatTemp (body temp : Val) : Co Unit := do
  let g ← state
  require (knownIn "body" body g.data)
  require (validHeatTemp body temp g.data)
  connectedRequest (requestHeatTemp body temp)

/-- `0 <= heatmode < 5`: gateway.py:575-577. -/
def validHeatMode (v : Val) : Except PyErr Bool :=
  match v.num with
  | some q => .ok (decide (0 ≤ q) && decide (q < 5))
  | none => .error .typeError

/-- `async_set_heat_mode`: gateway.py:325-332. -/
def setHeatMode (body mode : Val) : Co Unit := do
  let g ← state
  require (knownIn "body" body g.data)
  require (validHeatMode mode)
  connectedRequest (requestHeatMode body mode)

/-- `async_set_color_lights`: gateway.py:334-341, 585-587. -/
def setColorLights (cmd : Val) : Co Unit := do
  require (pyBetween 0 cmd 21)
  connectedRequest (requestLights cmd)

/-- `value if value is not None else self.get_value(*path, strict=True)`. -/
def orCached (v : Val) (p : Path) (d : Val) : Except PyErr Val :=
  if v = .null then getValue true p d else .ok v

/-- `SLValueRange.check`: const/common.py:112-117. -/
def checkRange (lo hi : Rat) (v : Val) : Except PyErr Unit := do
  if ← pyBetween lo v hi then return () else .error .valueError

/-- `ON_OFF.parse(value).value`: const/common.py:70-84, 183-185.  `0` is a member, so the default always exists. -/
def parseOnOff (U : UnicodeDb) (v : Val) : Except PyErr Val :=
  match v with
  | .int n => .ok (.int ((enOnOff.parseInt n).getD 0))
  | .str s => .ok (.int ((enOnOff.parseStr U s.toList).getD 0))
  | _ => .error .attributeError

/-- The values `async_set_scg_config` will send: gateway.py:356-385. -/
def scgValues (pool spa chlor timer d : Val) : Except PyErr (Val × Val × Val × Val) := do
  let pool ← orCached pool [.s "scg", .s "configuration", .s "pool_setpoint"] d
  let spa ← orCached spa [.s "scg", .s "configuration", .s "spa_setpoint"] d
  let chlor ← orCached chlor [.s "scg", .s "super_chlorinate"] d
  let timer ← orCached timer [.s "scg", .s "configuration", .s "super_chlor_timer"] d
  checkRange 0 100 pool
  checkRange 0 100 spa
  let chlor ← parseOnOff E.uni chlor
  checkRange 0 72 timer
  return (pool, spa, chlor, timer)

/-- `except (KeyError, ValueError) as ex: raise ScreenLogicError`. -/
def asScreenLogic {α : Type} (r : Except PyErr α) : Except PyErr α :=
  match r with
  | .error .keyError | .error .valueError => .error .slError
  | r => r

/-- `async_set_scg_config`: gateway.py:343-393. -/
def setScg (pool spa chlor timer : Val) : Co Unit := do
  let g ← state
  let v ← ofExcept (asScreenLogic (scgValues E pool spa chlor timer g.data))
  connectedRequest (requestSetScg v.1 v.2.1 v.2.2.1 v.2.2.2)

/-- `int(ph_setpoint * 100)` for a number: gateway.py:449. -/
def phHundredths : Val → Except PyErr Val
  | .int n => .ok (.int (n * 100))
  | .flt q => .ok (.int (truncRat (fmul q 100)))
  | _ => .error .typeError

/-- `SLValueRange(7.2, 7.6)`: device_const/chemistry.py:83, the doubles. -/
def phMin : Rat := intDiv 72 10
/-- See `phMin`. -/
def phMax : Rat := intDiv 76 10

/-- The values `async_set_chem_data` will send: gateway.py:408-447. -/
def chemValues (ph orp ca ta cya salt d : Val) : Except PyErr (Val × Val × Val × Val × Val × Val) := do
  let ph ← orCached ph [.s "intellichem", .s "configuration", .s "ph_setpoint"] d
  let orp ← orCached orp [.s "intellichem", .s "configuration", .s "orp_setpoint"] d
  let ca ← orCached ca [.s "intellichem", .s "configuration", .s "calcium_hardness"] d
  let ta ← orCached ta [.s "intellichem", .s "configuration", .s "total_alkalinity"] d
  let cya ← orCached cya [.s "intellichem", .s "configuration", .s "cya"] d
  let salt ← orCached salt [.s "intellichem", .s "configuration", .s "salt_tds_ppm"] d
  checkRange phMin phMax ph
  checkRange 400 800 orp
  checkRange 25 800 ca
  checkRange 25 800 ta
  checkRange 0 201 cya
  checkRange 500 6500 salt
  return (ph, orp, ca, ta, cya, salt)

/-- `async_set_chem_data`: gateway.py:395-459. -/
def setChem (ph orp ca ta cya salt : Val) : Co Unit := do
  let g ← state
  let v ← ofExcept (asScreenLogic (chemValues ph orp ca ta cya salt g.data))
  let ph ← ofExcept (phHundredths v.1)
  connectedRequest (requestSetChem ph v.2.1 v.2.2.1 v.2.2.2.1 v.2.2.2.2.1 v.2.2.2.2.2)

/-- The date and time `async_set_date_time` will send: gateway.py:474-477. -/
def dateOrCached (date : Option DateTime) (d : Val) : Except PyErr DateTime :=
  match date with
  | some t => .ok t
  | none => do
    let ts ← getData true [.s "controller", .s "date_time", .s "timestamp"] d
    match ts.num with
    | some q => E.fromTimestamp q
    | none => .error .typeError

/-- `async_set_date_time`: gateway.py:461-483. -/
def setDateTime (date : Option DateTime) (dst : Val) : Co Unit := do
  if date = none ∧ dst = .null then .throw .valueError
  else do
    let g ← state
    let t ← ofExcept (dateOrCached E date g.data)
    let v ← ofExcept (orCached dst [.s "controller", .s "date_time", .s "auto_dst"] g.data)
    connectedRequest (requestSetDateTime t v)

/-! ## Subscriptions -/

/-- An unsubscribe function: the variables its closure captured (client.py:133). -/
structure Sub where
  code : Nat
  set : Nat
  cb : Nat
deriving Repr, DecidableEq

/-- `self._listeners.setdefault(code, set())` and `code_listeners.add(callback)`: client.py:117-119; the set
object is returned too. -/
def Gw.addListener (g : Gw) (code cb : Nat) : Nat × Gw :=
  match aget code g.listeners with
  | some s => (s, { g with sets := g.sets.modify s (fun l => if cb ∈ l then l else l ++ [cb]) })
  | none =>
    (g.sets.length, { g with listeners := g.listeners ++ [(code, g.sets.length)], sets := g.sets ++ [[cb]] })

/-- `async_subscribe`: client.py:102-148; `none` if not attached. -/
def subscribe (cb code : Nat) : Co (Option Sub) := do
  let g ← state
  match g.attached, g.cmProto with
  | true, some c => do
    modify (fun g => (g.addListener code cb).2)
    modify (·.net c (.register code (commonHandler code)))
    let g' ← state
    whenCo g'.clientNeeded subscribeGateway
    return some ⟨code, (g.addListener code cb).1, cb⟩
  | _, _ => return none

/-- The set object `i` changes. -/
def Gw.setSet (g : Gw) (i : Nat) (l : List Nat) : Gw := { g with sets := g.sets.set i l }
/-- `self._listeners.pop(code)` -/
def Gw.delListener (g : Gw) (code : Nat) : Gw := { g with listeners := adel code g.listeners }
/-- `asyncio.create_task(self.async_unsubscribe_gateway())`: client.py:144. -/
def Gw.schedUnsub (g : Gw) : Gw := { g with unsubs := g.unsubs + 1 }

/-- `self._protocol.remove_async_message_callback(code)` and what follows when attached: client.py:139-144. -/
def Gw.dropCode (g : Gw) (code : Nat) : Gw :=
  match g.cmProto with
  | some c =>
    if g.connected c then
      let g := g.net c (.unregister code)
      if g.listeners.isEmpty then g.schedUnsub else g
    else g
  | none => g

/-- `remove_listener`: client.py:133-144. -/
def Gw.unsubscribe (g : Gw) (s : Sub) : Gw :=
  match g.sets[s.set]? with
  | some l =>
    if s.cb ∈ l then
      let l := l.erase s.cb
      let g := g.setSet s.set l
      if l.isEmpty then
        if (aget s.code g.listeners).isSome then
          (g.delListener s.code).dropCode s.code
        else g
      else g
    else g
  | none => g

/-- `_async_ping`: client.py:150-161. -/
def pingTask : Co Unit := do
  let g ← state
  match g.cmProto with
  | some c => tryExcept (requestPing c 0) (fun e => if e.isComm then return () else .throw e)
  | none => .throw .attributeError

/-- `_callback_factory`: client.py:91-100. -/
def pushDecoder (code : Nat) : Option Decoder :=
  if code = 12500 then some .status
  else if code = 12505 then some .chemistry
  else if code = 12504 then some .colorUpdate
  else none

/-- `_async_common_callback` with `_notify_listeners`: client.py:86-89, 102-107.  It never suspends.  The
exception it raises, if any, ends its task and nothing else.  (The order of iteration over a set is not
modelled; what a listener does when called is not either: its calls into the library are further events.) -/
def Gw.commonCallback (g : Gw) (code : Nat) (msg : Bytes) : Except PyErr Unit × Gw :=
  match pushDecoder code with
  | some D =>
    match decodeWith (D.prog E.pyFloat) msg g.data with
    | (.ok _, d) => notify { g with data := d } code
    | (.error e, d) => (.error e, { g with data := d })
  | none => notify g code
where
  notify (g : Gw) (code : Nat) : Except PyErr Unit × Gw :=
    match aget code g.listeners with
    | some s => (.ok (), { g with notes := g.notes ++ ((g.sets[s]?).getD []).map (fun cb => (cb, g.data)) })
    | none => (.error .typeError, g)

/-- `set_max_retries`: gateway.py:301-305. -/
def Gw.setMaxRetries (g : Gw) (n : Int) : Except PyErr Unit × Gw :=
  if 0 < n ∧ n < 6 then (.ok (), { g with maxRetries := n }) else (.error .valueError, g)

/-! ## The API -/

/-- What an API call returns. -/
inductive Res
  | none
  | bool (b : Bool)
  | bytes (b : Option Bytes)
  | sub (s : Option Sub)
deriving Repr, DecidableEq

/-- The API calls. -/
inductive Call
  | connect (a : ConnectArgs)
  | disconnect (force : Bool)
  | update | getConfig | getStatus | getPumps | getChemistry | getScg | getDatetime
  | setCircuit (circuit st : Val)
  | setHeatTemp (body temp : Val)
  | setHeatMode (body mode : Val)
  | setColorLights (cmd : Val)
  | setScg (pool spa chlor timer : Val)
  | setChem (ph orp ca ta cya salt : Val)
  | setDateTime (date : Option DateTime) (dst : Val)
  | subscribe (cb code : Nat)
  | send (code : Int) (data : Bytes)

/-- The coroutine of an API call. -/
def Call.co : Call → Co Res
  | .connect a => do return .bool (← asyncConnect a)
  | .disconnect force => do asyncDisconnect force; return .none
  | .update => do asyncUpdate E; return .none
  | .getConfig => do SL.getConfig E; return .none
  | .getStatus => do SL.getStatus E; return .none
  | .getPumps => do SL.getPumps E; return .none
  | .getChemistry => do SL.getChemistry E; return .none
  | .getScg => do SL.getScg E; return .none
  | .getDatetime => do SL.getDatetime E; return .none
  | .setCircuit a b => do SL.setCircuit a b; return .none
  | .setHeatTemp a b => do SL.setHeatTemp a b; return .none
  | .setHeatMode a b => do SL.setHeatMode a b; return .none
  | .setColorLights a => do SL.setColorLights a; return .none
  | .setScg a b c d => do SL.setScg E a b c d; return .none
  | .setChem a b c d e f => do SL.setChem a b c d e f; return .none
  | .setDateTime t v => do SL.setDateTime E t v; return .none
  | .subscribe cb code => do return .sub (← SL.subscribe cb code)
  | .send code data => do return .bytes (← connectedRequest (fun c r => makeRequest c code data r))

/-- `async_synchronize_date_time` (gateway.py:484-486), when the host's `datetime.now()` is `now`: it awaits nothing before
that call. -/
def Call.syncDateTime (now : DateTime) : Call := .setDateTime (some now) .null

/-! ## The scheduler -/

/-- Where a task stands. -/
inductive Task
  | request (c r : Nat) (k : Except PyErr (Option Bytes) → Co Res)
  | opening (retries : Int) (k : Except PyErr Bool → Co Res)
  | sleeping (k : Except PyErr Unit → Co Res)
  | closing (c i : Nat) (k : Except PyErr Unit → Co Res)
  | locked (k : Except PyErr Unit → Co Res)
  | done (r : Except PyErr Res)

/-- The result of a request call of the protocol, if it has ended. -/
def World.outcome (w : World) (r : Nat) : Option (Except PyErr (Option Bytes)) :=
  match w.reqs[r]? with
  | some q =>
    match q.phase with
    | .done (.ret v) => some (.ok v)
    | .done (.raised e) => some (.error e)
    | _ => none
  | none => none

/-- A call of `async_make_request` at connection `c`, run until it suspends (or ends): the number of the call
in that world and the new state. -/
def Gw.ask (g : Gw) (t c : Nat) (code : Int) (data : Bytes) (retries : Int) : Nat × Gw :=
  let r := match g.conns[c]? with
    | some x => x.w.reqs.length
    | none => 0
  (r, ((g.net c (.call code data retries)).net c (.run r)).note t (.ask c code data))

/-- Outcome of request call `r` at connection `c`. -/
def Gw.outcome (g : Gw) (c r : Nat) : Option (Except PyErr (Option Bytes)) :=
  (g.conns[c]?).bind (fun x => x.w.outcome r)

/-- Whether closer `i` of connection `c` has ended. -/
def Gw.closeEnded (g : Gw) (c i : Nat) : Bool :=
  match g.conns[c]? with
  | some x => x.w.closers[i]? == some .done || x.w.closers[i]? == some .cancelled
  | none => true

/-- How it ended. -/
def Gw.closeResult (g : Gw) (c i : Nat) : Except PyErr Unit :=
  match g.conns[c]? with
  | some x => if x.w.closers[i]? = some .cancelled then .error .cancelled else .ok ()
  | none => .ok ()

/-- A call of `async_close` at connection `c`, run until it suspends: protocol.py:157-169.  A done `_closed`
does not suspend. -/
def Gw.startClose (g : Gw) (t c : Nat) (force : Bool) : Nat × Gw :=
  let i := match g.conns[c]? with
    | some x => x.w.closers.length
    | none => 0
  (i, ((g.net c (.close force)).net c (.closeFinish i)).note t (.cls c force))

/-- Run task `t` from a coroutine until it suspends or ends. -/
def settle (t : Nat) : Co Res → Gw → Task × Gw
  | .ret a, g => (.done (.ok a), g)
  | .throw e, g => (.done (.error e), g)
  | .get k, g => settle t (k g) g
  | .upd f k, g => settle t k (g.apply f)
  | .request c code data retries k, g =>
    let (r, g) := g.ask t c code data retries
    match g.outcome c r with
    | some o => settle t (k o) (g.note t (.got o))
    | none => (.request c r k, g)
  | .openConn retries k, g =>
    (.opening retries k, g.note t (.opn (g.ip.getD "") g.port))
  | .sleep k, g => (.sleeping k, g)
  | .close c force k, g =>
    let (i, g) := g.startClose t c force
    if g.closeEnded c i then settle t (k (g.closeResult c i)) g else (.closing c i k, g)
  | .acquire k, g =>
    if g.lock = none ∧ g.waiters = [] then settle t (k (.ok ())) (g.take t)
    else (.locked k, g.setWaiters (g.waiters ++ [t]))

/-- The whole system: the gateway and the tasks working on it. -/
structure Sys where
  g : Gw := {}
  tasks : List Task := []

/-- World events that come from outside the library (network, timers, cancellation of the awaiting task, the
event loop going on with a coroutine). -/
def Event.external : Event → Bool
  | .resume _ | .timeout _ | .cancel _ | .wake _ | .data _ | .lost | .cleanup | .peerClose | .closeResume _
  | .closeFinish _ | .closeCancel _ | .timerFire _ => true
  | _ => false

/-- What can happen next; an event that is not possible changes nothing. -/
inductive Ev
  | call (a : Call)                      -- someone calls the API; the coroutine runs until it suspends
  | setMaxRetries (n : Int)              -- gateway.py:301
  | unsubscribe (s : Sub)                -- someone calls an unsubscribe function
  | registerHandler (code h : Nat)       -- register_async_message_handler, gateway.py:500-516
  | removeHandler (code : Nat)           -- remove_async_message_handler, gateway.py:518-521
  | opened (t : Nat) (ok : Bool)         -- the TCP connection of task t is made, or fails (timeout, OSError)
  | resume (t : Nat)                     -- what task t awaits is over
  | cancel (t : Nat)                     -- task t is cancelled while it sleeps, connects or waits for the lock (at a
                                         -- connection: `.net c (.cancel r)` and `.net c (.closeCancel i)`)
  | net (c : Nat) (e : Event)            -- something external happens at connection c
  | handle (c : Nat)                     -- the next handler task of connection c runs
  | ping (c : Nat)                       -- the next keepalive task of connection c starts
  | runUnsub                             -- a scheduled async_unsubscribe_gateway task starts
  | tick (now : Rat)                     -- the host's clock

/-- Put task `t` in its new state. -/
def Sys.put (s : Sys) (t : Nat) (r : Task × Gw) : Sys := { g := r.2, tasks := s.tasks.set t r.1 }

/-- A new task. -/
def Sys.spawn (s : Sys) (co : Co Res) : Sys :=
  let r := settle s.tasks.length co s.g
  { g := r.2, tasks := s.tasks ++ [r.1] }

/-- Run the next handler task of a connection: protocol.py:139. -/
def Gw.runHandler (g : Gw) (c : Nat) : Gw :=
  match g.conns[c]? with
  | some x =>
    match x.w.p.spawned[x.handled]? with
    | some (h, msg) =>
      let g := { g with conns := g.conns.modify c (fun x => { x with handled := x.handled + 1 }) }
      if h % 2 = 0 then (g.commonCallback E (h / 2) msg).2
      else { g with userCalls := g.userCalls ++ [(h / 2, msg)] }
    | none => g
  | none => g

/-- Whether the future `_closed` of connection `c` was cancelled. -/
def Gw.spoiled (g : Gw) (c : Nat) : Bool :=
  match g.conns[c]? with
  | some x => x.w.spoiled
  | none => false

/-- `connection_lost` also calls `_common_connection_closed_callback`, unless `set_result` before raised:
protocol.py:153-155, gateway.py:558-561. -/
def Gw.lostCallback (g : Gw) (c : Nat) (e : Event) : Gw :=
  match e with
  | .lost => if g.connected c ∧ ¬ g.spoiled c then { g with closedCalls := g.closedCalls ++ g.closedCb.toList } else g
  | _ => g

/-- The next keepalive task of connection `c` starts. -/
def Gw.countPing (g : Gw) (c : Nat) : Gw :=
  { g with conns := g.conns.modify c (fun x => { x with pinged := x.pinged + 1 }) }

/-- A scheduled `async_unsubscribe_gateway()` task starts. -/
def Gw.takeUnsub (g : Gw) : Gw := { g with unsubs := g.unsubs - 1 }

/-- The host's clock goes on. -/
def Gw.setNow (g : Gw) (now : Rat) : Gw := { g with now := now }

/-- The coroutine of a keepalive task. -/
def pingCo : Co Res := do pingTask; return .none
/-- The coroutine of a scheduled unsubscription. -/
def unsubCo : Co Res := do unsubscribeGateway; return .none

/-- One uninterrupted piece of execution. -/
def Sys.step (s : Sys) : Ev → Sys
  | .call a => s.spawn (a.co E)
  | .setMaxRetries n => { s with g := (s.g.setMaxRetries n).2 }
  | .unsubscribe u => { s with g := s.g.unsubscribe u }
  | .registerHandler code h =>
    match s.g.protocol with
    | some c => { s with g := s.g.net c (.register code (userHandler h)) }
    | none => s
  | .removeHandler code =>
    match s.g.protocol with
    | some c => { s with g := s.g.net c (.unregister code) }
    | none => s
  | .opened t ok =>
    match s.tasks[t]? with
    | some (.opening retries k) =>
      if ok then
        let c := s.g.conns.length
        s.put t (settle t ((afterOpen E retries c).bindE k) s.g.addConn)
      else s.put t (settle t (k (.error .slConnection)) s.g)
    | _ => s
  | .resume t =>
    match s.tasks[t]? with
    | some (.request c r k) =>
      match s.g.outcome c r with
      | some o => s.put t (settle t (k o) (s.g.note t (.got o)))
      | none => s
    | some (.sleeping k) => s.put t (settle t (k (.ok ())) s.g)
    | some (.closing c i k) => if s.g.closeEnded c i then s.put t (settle t (k (s.g.closeResult c i)) s.g) else s
    | some (.locked k) =>
      if s.g.lock = none ∧ s.g.waiters.head? = some t then
        s.put t (settle t (k (.ok ())) ((s.g.setWaiters s.g.waiters.tail).take t))
      else s
    | _ => s
  | .cancel t =>
    match s.tasks[t]? with
    | some (.opening _ k) => s.put t (settle t (k (.error .cancelled)) s.g)
    | some (.sleeping k) => s.put t (settle t (k (.error .cancelled)) s.g)
    | some (.locked k) =>
      s.put t (settle t (k (.error .cancelled)) (s.g.setWaiters (s.g.waiters.filter (· ≠ t))))
    | _ => s
  | .net c e => if e.external then { s with g := (s.g.lostCallback c e).net c e } else s
  | .handle c => { s with g := s.g.runHandler E c }
  | .ping c =>
    match s.g.conns[c]? with
    | some x =>
      if x.pinged < x.w.p.pings then { s with g := s.g.countPing c }.spawn pingCo else s
    | none => s
  | .runUnsub => if 0 < s.g.unsubs then { s with g := s.g.takeUnsub }.spawn unsubCo else s
  | .tick now => { s with g := s.g.setNow now }

/-- Run a history. -/
def Sys.run (s : Sys) (es : List Ev) : Sys := es.foldl (Sys.step E) s

/-- A new gateway object: gateway.py:51-73 with the constructor's `client_id` (or the random one) and
`max_retries` (out-of-range values raise, so there is no object). -/
def Sys.init (clientId : Int) (maxRetries : Int) : Sys := { g := { clientId, maxRetries } }

end SL
