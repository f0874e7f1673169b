import Verif.Model.Framing
import Verif.Model.Assoc
/-!
# screenlogicpy/requests/protocol.py: the `ScreenLogicProtocol` object

One protocol object after `connection_made`.  Time stamps (`_last_request`, `_last_response`) and
logging are not modelled.  Fields marked *ghost* do not exist in the program; they record history so
that properties can be stated, and nothing in the model reads them.
-/
namespace SL

/-- State of an `asyncio.Future` created by `FutureManager.create` (protocol.py:249-252). -/
inductive FutState
  | pending
  | result (m : Msg)
  | cancelled
deriving DecidableEq, Repr

/-- Ghost: what became of a received message. -/
inductive Fate
  | answered (request : Nat)
  | handled (handler : Nat)
  | dropped
deriving DecidableEq, Repr

/-- `ScreenLogicProtocol.__init__` and `connection_made`, protocol.py:19-37, 58-63. -/
structure Proto where
  /-- all futures ever created, in creation order: the n-th request's future is `futs[n]` -/
  futs : List FutState := []
  /-- `__msgID = itertools.cycle(range(32767))`: the value `next` yields next -/
  nextId : Nat := 0
  /-- `_futures._collection`: message id → future -/
  coll : List (Int × Nat) := []
  /-- `_callbacks`: message code → (handler, args), one number standing for the pair -/
  cbs : List (Int × Nat) := []
  connected : Bool := true
  closing : Bool := false
  /-- `self.transport.is_closing()` -/
  tclosing : Bool := false
  /-- whether `connection_lost` has reached `_closed.set_result` (see `World.spoiled`) -/
  closed : Bool := false
  buff : Bytes := []
  /-- `_keepalive_awaitable` -/
  kaAwait : Option Nat := none
  /-- `_stop_keepalive`: the timer handle its closure captured -/
  kaStop : Option Nat := none
  /-- all `TimerHandle`s ever created by `_set_keepalive`; `true` = scheduled (neither fired nor
  cancelled) -/
  timers : List Bool := []
  /-- tasks created for unsolicited messages, in order: (handler with args, payload) -/
  spawned : List (Nat × Bytes) := []
  /-- keepalive tasks created -/
  pings : Nat := 0
  /-- `transport.write` calls: (request number, bytes) -/
  written : List (Nat × Bytes) := []
  /-- ghost: code and payload of each request -/
  calls : List (Int × Bytes) := []
  /-- ghost: message id given to each request -/
  ids : List Nat := []
  /-- ghost: messages processed by `data_received`, in order -/
  recv : List Msg := []
  /-- ghost: what became of each of them -/
  fates : List Fate := []
  /-- ghost: number of messages received before each request was issued -/
  issuedAt : List Nat := []
deriving Repr

/-- `_set_keepalive`: protocol.py:202-221. -/
def Proto.setKeepalive (p : Proto) : Proto :=
  let timers := match p.kaStop with
    | some i => p.timers.set i false
    | none => p.timers
  { p with timers := timers ++ [true], kaStop := some timers.length }

/-- The part of `connection_lost`/`disable_keepalive` that stops the timer:
protocol.py:147-149, 238-240. -/
def Proto.stopKeepalive (p : Proto) : Proto :=
  match p.kaStop with
  | some i => { p with timers := p.timers.set i false, kaStop := none }
  | none => p

/-- `send_message` for request number `n` with id `id`: protocol.py:65-74.  Raises if `makeMessage`
does; then neither the write nor the keepalive restart happens. -/
def Proto.sendMessage (p : Proto) (n : Nat) (id code : Int) (data : Bytes) : Except PyErr Proto := do
  let p ← if p.tclosing then .ok p else do
    let bytes ← makeMessage id code data
    .ok { p with written := p.written ++ [(n, bytes)] }
  return if p.kaAwait.isSome then p.setKeepalive else p

/-- `FutureManager.create` for the next message id: protocol.py:84-85, 249-252. -/
def Proto.create (p : Proto) (code : Int) (data : Bytes) : Proto :=
  { p with
    futs := p.futs ++ [.pending]
    nextId := if p.nextId + 1 = 32767 then 0 else p.nextId + 1
    coll := aset (p.nextId : Int) p.futs.length p.coll
    calls := p.calls ++ [(code, data)]
    ids := p.ids ++ [p.nextId]
    issuedAt := p.issuedAt ++ [p.recv.length] }

/-- `fut.cancel()`: only a pending future is affected. -/
def Proto.cancelFut (p : Proto) (f : Nat) : Proto :=
  match p.futs[f]? with
  | some .pending => { p with futs := p.futs.set f .cancelled }
  | _ => p

/-- `await_send_message`: protocol.py:76-90.  The future is registered before the message is packed,
so it stays registered if packing raises. -/
def Proto.awaitSend (p : Proto) (code : Int) (data : Bytes) : Proto × Except PyErr Nat :=
  let n := p.futs.length
  let id := p.nextId
  let p := p.create code data
  if p.closing then (p.cancelFut n, .ok n)
  else
    match p.sendMessage n id code data with
    | .ok p => (p, .ok n)
    | .error e => (p, .error e)

/-- The unsolicited branch of `data_received`: protocol.py:131-139. -/
def Proto.toCallback (p : Proto) (m : Msg) : Proto :=
  match aget m.code p.cbs with
  | some h =>
    { p with spawned := p.spawned ++ [(h, m.data)], recv := p.recv ++ [m], fates := p.fates ++ [.handled h] }
  | none => { p with recv := p.recv ++ [m], fates := p.fates ++ [.dropped] }

/-- One iteration of the loop of `data_received` with `mark_done`/`try_get`:
protocol.py:127-139, 254-273.  `set_result` on a future that has a result raises
`InvalidStateError`, turned into `ScreenLogicError`. -/
def Proto.dispatch (p : Proto) (m : Msg) : Proto × Option PyErr :=
  match aget m.id p.coll with
  | none => (p.toCallback m, none)
  | some f =>
    let p : Proto := { p with coll := adel m.id p.coll }
    match p.futs[f]? with
    | some .cancelled => (p.toCallback m, none)
    | some .pending =>
      ({ p with futs := p.futs.set f (.result m), recv := p.recv ++ [m],
                fates := p.fates ++ [.answered f] }, none)
    | _ => (p, some .slError)

/-- The `for` loop of `data_received`. -/
def Proto.dispatchAll (p : Proto) : List Msg → Proto × Option PyErr
  | [] => (p, none)
  | m :: ms =>
    match p.dispatch m with
    | (p, none) => p.dispatchAll ms
    | (p, some e) => (p, some e)

/-- `data_received`: protocol.py:92-139; the second component is the exception raised, if any. -/
def Proto.dataReceived (p : Proto) (data : Bytes) : Proto × Option PyErr :=
  if p.closing then (p, none)
  else
    match completeMessages p.buff data with
    | (.error e, buff) => ({ p with buff := buff }, some e)
    | (.ok ms, buff) => { p with buff := buff }.dispatchAll ms

/-- Cancel every future of the collection and clear it: the `force` part of `all_done`,
protocol.py:275-283. -/
def Proto.cancelAll (p : Proto) : Proto :=
  { (p.coll.map (·.2)).foldl Proto.cancelFut p with coll := [] }

/-- `connection_lost`: protocol.py:141-155, except for the creation of the clean-up task (see
`World`). -/
def Proto.connectionLost (p : Proto) : Proto :=
  { { p with connected := false }.stopKeepalive with closed := true, tclosing := true }

/-- `register_async_message_callback`: protocol.py:171-186. -/
def Proto.register (p : Proto) (code : Int) (h : Nat) : Proto := { p with cbs := aset code h p.cbs }

/-- `remove_async_message_callback`: protocol.py:188-190. -/
def Proto.unregister (p : Proto) (code : Int) : Proto := { p with cbs := adel code p.cbs }

/-- `remove_all_async_message_callbacks`: protocol.py:192-194. -/
def Proto.unregisterAll (p : Proto) : Proto := { p with cbs := [] }

/-- `enable_keepalive`: protocol.py:223-232. -/
def Proto.enableKeepalive (p : Proto) (a : Nat) : Proto := { p with kaAwait := some a }.setKeepalive

/-- `disable_keepalive`: protocol.py:234-240. -/
def Proto.disableKeepalive (p : Proto) : Proto := { p with kaAwait := none }.stopKeepalive

/-- A scheduled timer fires and runs `_call_keepalive`: protocol.py:196-200.  (Calling `None` would
raise in the loop's callback; `C20` shows that cannot happen.) -/
def Proto.timerFire (p : Proto) (i : Nat) : Proto :=
  match p.timers[i]? with
  | some true =>
    { p with timers := p.timers.set i false,
             pings := if p.kaAwait.isSome then p.pings + 1 else p.pings }
  | _ => p

end SL
