import Verif.Model.Gateway
/-!
# `async_get_mac_address` (screenlogicpy/requests/login.py:27-35)

A call of its own: it opens a connection that belongs to no gateway, so the model is one connection and one coroutine.
-/
namespace SL

/-- Where the coroutine stands. -/
inductive MacPhase
  | opening                               -- at `await async_create_connection(...)` (login.py:31)
  | pausing                               -- at `await asyncio.sleep(0.25)` (login.py:74)
  | asking                                -- at `await async_make_request(...)` (login.py:81)
  | done (r : Except PyErr String)

/-- The call and its connection, once there is one. -/
structure MacCall where
  retries : Int
  phase : MacPhase := .opening
  conn : Option Conn := none

/-- What can happen next; an event that is not possible changes nothing. -/
inductive MacEv
  | opened (ok : Bool)     -- the TCP connection is made, or fails (time-out, OSError)
  | resume                 -- what the coroutine awaits is over
  | cancel                 -- its task is cancelled while it connects or sleeps
  | net (e : Event)        -- something external happens at the connection

/-- The end of the coroutine: `decodeMessageString` of the answer (login.py:80-84; `None` is a `TypeError`), then, only if
nothing was raised, `if transport and not transport.is_closing(): transport.close()` and `return mac` (login.py:33-35). -/
def MacCall.finish (s : MacCall) (x : Conn) (o : Except PyErr (Option Bytes)) : MacCall :=
  match o with
  | .ok (some b) =>
    match decodeMessageString b with
    | .ok m => { s with phase := .done (.ok m), conn := some { x with w := { x.w with p := { x.w.p with tclosing := true } } } }
    | .error e => { s with phase := .done (.error e), conn := some x }
  | .ok none => { s with phase := .done (.error .typeError), conn := some x }
  | .error e => { s with phase := .done (.error e), conn := some x }

/-- The challenge (login.py:75-84): call 0 of the connection. -/
def MacCall.challenge (s : MacCall) (x : Conn) : MacCall :=
  if x.w.p.connected then
    let x := { x with w := (x.w.step (.call 14 [] s.retries)).step (.run 0) }
    match x.w.outcome 0 with
    | some o => s.finish x o
    | none => { s with phase := .asking, conn := some x }
  else { s with phase := .done (.error .slConnection) }

/-- One uninterrupted piece of execution.  Connecting: login.py:38-61 (every failure is a `ScreenLogicConnectionError`);
the first write: login.py:66-72. -/
def MacCall.step (s : MacCall) : MacEv → MacCall
  | .opened ok =>
    match s.phase with
    | .opening =>
      if ok then { s with phase := .pausing, conn := some { raw := ["CONNECTSERVERHOST\r\n\r\n".toUTF8.data.toList] } }
      else { s with phase := .done (.error .slConnection) }
    | _ => s
  | .resume =>
    match s.phase, s.conn with
    | .pausing, some x => s.challenge x
    | .asking, some x =>
      match x.w.outcome 0 with
      | some o => s.finish x o
      | none => s
    | _, _ => s
  | .cancel =>
    match s.phase with
    | .opening | .pausing => { s with phase := .done (.error .cancelled) }
    | _ => s
  | .net e =>
    match s.conn with
    | some x => if e.external then { s with conn := some { x with w := x.w.step e } } else s
    | none => s

/-- Run a history of a call of `async_get_mac_address(ip, port, max_retries)`. -/
def MacCall.run (retries : Int) (es : List MacEv) : MacCall := es.foldl MacCall.step { retries }

end SL
