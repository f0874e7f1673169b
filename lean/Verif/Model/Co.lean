import Verif.Model.World
import Verif.Model.Lookup
import Verif.Model.Decode
/-!
# Coroutines of the gateway

The gateway (screenlogicpy/gateway.py), its client manager (client.py) and the login sequence
(requests/login.py) are coroutines over one shared object graph.  `Gw` is that shared state, `Co` the
coroutines as data: what happens between two suspension points, and what is awaited.  Every connection is a
full protocol `World` (Model/World.lean), so requests are really written, answered, retried and timed out
there.
-/
namespace SL

/-- One TCP connection: the protocol object with its request calls, and what has been made of the tasks it
created. -/
structure Conn where
  w : World := World.init
  /-- `transport.write` calls made outside the protocol object (login.py:70) -/
  raw : List Bytes := []
  /-- how many of the handler tasks `w.p.spawned` have run -/
  handled : Nat := 0
  /-- how many of the keepalive tasks `w.p.pings` have started -/
  pinged : Nat := 0
deriving Repr

/-- Ghost: what a task does that can be observed from outside, with the outcomes of its requests. -/
inductive Act
  | ask (c : Nat) (code : Int) (data : Bytes)      -- it calls `async_make_request` on connection c
  | got (o : Except PyErr (Option Bytes))          -- ... which returns or raises
  | opn (host : String) (port : Int)               -- it starts a TCP connection
  | cls (c : Nat) (force : Bool)                   -- it calls `async_close` on connection c
deriving Repr, DecidableEq

/-- The gateway object with its client manager: gateway.py:51-73, client.py:28-42. -/
structure Gw where
  ip : Option String := none
  port : Int := 80
  gtype : Int := 0
  subtype : Int := 0
  name : String := "Unnamed-Screenlogic-Gateway"
  mac : String := ""
  /-- `_protocol`: an index into `conns` (`_transport` belongs to it and is never read) -/
  protocol : Option Nat := none
  data : Val := .dict []
  /-- `_last` -/
  last : Val := .dict []
  /-- `_max_retries`; the default is `COM_MAX_RETRIES = 1` (const/msg.py:3) -/
  maxRetries : Int := 1
  /-- `_custom_connection_closed_callback` -/
  closedCb : Option Nat := none
  /-- client manager: `_client_id` -/
  clientId : Int := 49151
  /-- client manager: `_protocol`.  (`_data` is the gateway's data object and `_max_retries` is never read.) -/
  cmProto : Option Nat := none
  /-- `_listeners`: message code → set object (an index into `sets`) -/
  listeners : List (Nat × Nat) := []
  /-- the set objects ever created by `setdefault(code, set())`; a set is a list without duplicates -/
  sets : List (List Nat) := []
  isClient : Bool := false
  /-- `_client_sub_unsub_lock`: the task that holds it -/
  lock : Option Nat := none
  /-- the tasks waiting for the lock, in order (asyncio.Lock is fair) -/
  waiters : List Nat := []
  conns : List Conn := []
  /-- tasks `async_unsubscribe_gateway()` created (client.py:144) and not yet started -/
  unsubs : Nat := 0
  /-- host clock, for `datetime.now` -/
  now : Rat := 0
  /-- ghost: listener calls, with the data at that moment -/
  notes : List (Nat × Val) := []
  /-- ghost: calls of user handlers (handler, payload) -/
  userCalls : List (Nat × Bytes) := []
  /-- ghost: calls of connection-closed callbacks -/
  closedCalls : List Nat := []
  /-- ghost: what the tasks did, in order -/
  log : List (Nat × Act) := []
deriving Repr

/-- Let something happen at connection `c`. -/
def Gw.net (g : Gw) (c : Nat) (e : Event) : Gw :=
  { g with conns := g.conns.modify c (fun x => { x with w := x.w.step e }) }

/-- Ghost: record an action of task `t`. -/
def Gw.note (g : Gw) (t : Nat) (a : Act) : Gw := { g with log := g.log ++ [(t, a)] }

/-- A change of the shared state made by the program (which cannot touch the ghost log). -/
def Gw.apply (g : Gw) (f : Gw → Gw) : Gw := { f g with log := g.log }

/-- The queue of the lock changes. -/
def Gw.setWaiters (g : Gw) (w : List Nat) : Gw := { g with waiters := w }

/-- Task `t` gets the lock. -/
def Gw.take (g : Gw) (t : Nat) : Gw := { g with lock := some t }

/-- The lock is released. -/
def Gw.release (g : Gw) : Gw := { g with lock := none }

/-- There is a new connection. -/
def Gw.addConn (g : Gw) : Gw := { g with conns := g.conns ++ [{}] }

/-- The gateway's (and client manager's) data change. -/
def Gw.setData (g : Gw) (d : Val) : Gw := { g with data := d }

/-- `self._last[...] = x` -/
def Gw.putLast (g : Gw) (p : Path) (x : Val) : Gw := { g with last := Val.put p x g.last }

/-- `self._last.setdefault(..., x)` -/
def Gw.putLastNew (g : Gw) (p : Path) (x : Val) : Gw := { g with last := Val.putNew p x g.last }

/-- `self._is_client = b` -/
def Gw.setClient (g : Gw) (b : Bool) : Gw := { g with isClient := b }

/-- `transport.write(b)` outside the protocol object -/
def Gw.writeRaw (g : Gw) (c : Nat) (b : Bytes) : Gw :=
  { g with conns := g.conns.modify c (fun x => { x with raw := x.raw ++ [b] }) }

/-- `_transport, _protocol, _mac = ...` -/
def Gw.setProto (g : Gw) (c : Nat) (mac : String) : Gw := { g with protocol := some c, mac := mac }

/-- The fields `attach` sets. -/
def Gw.attachTo (g : Gw) (c : Nat) : Gw := { g with cmProto := some c, isClient := false }

/-- Ghost: the actions of task `t`, in order. -/
def Gw.acts (g : Gw) (t : Nat) : List Act := (g.log.filter (fun x => x.1 == t)).map (·.2)

/-- `protocol.is_connected` of connection `c`. -/
def Gw.connected (g : Gw) (c : Nat) : Bool :=
  match g.conns[c]? with
  | some x => x.w.p.connected
  | none => false

/-- `ScreenLogicGateway.is_connected`: gateway.py:103-105. -/
def Gw.isConnected (g : Gw) : Bool :=
  match g.protocol with
  | some c => g.connected c
  | none => false

/-- `ClientManager._attached`: client.py:59-60. -/
def Gw.attached (g : Gw) : Bool :=
  match g.cmProto with
  | some c => g.connected c
  | none => false

/-- `ClientManager.is_client` (and `ScreenLogicGateway.is_client`): client.py:44-47, gateway.py:107-109. -/
def Gw.isClientNow (g : Gw) : Bool := g.isClient && g.attached

/-- `ClientManager.client_needed`: client.py:54-57. -/
def Gw.clientNeeded (g : Gw) : Bool := !g.listeners.isEmpty && !g.isClient

/-- Coroutines returning an `α`. -/
inductive Co (α : Type) where
  | ret (a : α)
  | throw (e : PyErr)
  /-- look at the shared state -/
  | get (k : Gw → Co α)
  /-- change the shared state -/
  | upd (f : Gw → Gw) (k : Co α)
  /-- `await async_make_request(protocol, code, data, max_retries)` -/
  | request (c : Nat) (code : Int) (data : Bytes) (retries : Int) (k : Except PyErr (Option Bytes) → Co α)
  /-- the rest of `async_connect` from `await async_connect_to_gateway(...)` on (see `afterOpen`) -/
  | openConn (retries : Int) (k : Except PyErr Bool → Co α)
  /-- `await asyncio.sleep(...)` -/
  | sleep (k : Except PyErr Unit → Co α)
  /-- `await protocol.async_close(force)` -/
  | close (c : Nat) (force : Bool) (k : Except PyErr Unit → Co α)
  /-- `await lock.acquire()` -/
  | acquire (k : Except PyErr Unit → Co α)

namespace Co

/-- Continue with the outcome, returned or raised. -/
def bindE {α β : Type} : Co α → (Except PyErr α → Co β) → Co β
  | .ret a, f => f (.ok a)
  | .throw e, f => f (.error e)
  | .get k, f => .get (fun g => (k g).bindE f)
  | .upd u k, f => .upd u (k.bindE f)
  | .request c code data r k, f => .request c code data r (fun x => (k x).bindE f)
  | .openConn r k, f => .openConn r (fun x => (k x).bindE f)
  | .sleep k, f => .sleep (fun x => (k x).bindE f)
  | .close c b k, f => .close c b (fun x => (k x).bindE f)
  | .acquire k, f => .acquire (fun x => (k x).bindE f)

/-- A result as a coroutine. -/
def ofExcept {α : Type} : Except PyErr α → Co α
  | .ok a => .ret a
  | .error e => .throw e

/-- Sequencing: an exception ends the rest. -/
def bind {α β : Type} (x : Co α) (f : α → Co β) : Co β :=
  x.bindE (fun | .ok a => f a | .error e => .throw e)

instance : Monad Co where
  pure := .ret
  bind := bind

/-- `try: x except e: h(e)`. -/
def tryExcept {α : Type} (x : Co α) (h : PyErr → Co α) : Co α :=
  x.bindE (fun | .ok a => .ret a | .error e => h e)

/-- The shared state. -/
def state : Co Gw := .get .ret
/-- Change the shared state. -/
def modify (f : Gw → Gw) : Co Unit := .upd f (.ret ())
/-- `await async_make_request(...)`. -/
def makeRequest (c : Nat) (code : Int) (data : Bytes) (retries : Int) : Co (Option Bytes) :=
  .request c code data retries ofExcept
/-- `await asyncio.sleep(...)`. -/
def pause : Co Unit := .sleep ofExcept
/-- `await protocol.async_close(force)`. -/
def closeConn (c : Nat) (force : Bool) : Co Unit := .close c force ofExcept

/-- `async with lock: x`: the lock is released however `x` ends. -/
def withLock {α : Type} (x : Co α) : Co α :=
  .acquire (fun
    | .error e => .throw e
    | .ok () => x.bindE (fun r => .upd Gw.release (ofExcept r)))

end Co

end SL
