import Verif.Model.Protocol
/-!
# A protocol object together with every coroutine working on it

`async_make_request` (screenlogicpy/requests/request.py:17-78), `async_close` / `all_done`
(requests/protocol.py:157-169, 275-287) and the clean-up task of `connection_lost`.  asyncio runs one
callback at a time and coroutines are only left at an `await` that suspends; each `Event` is one such
uninterrupted piece.  An event that is not possible in the current state changes nothing, so *every*
list of events is an execution: all interleavings, arrivals, time-outs, cancellations and losses.
-/
namespace SL

/-- How a coroutine ended. -/
inductive Outcome
  | ret (v : Option Bytes)     -- returned bytes, or None
  | raised (e : PyErr)
deriving DecidableEq, Repr

/-- Where a call of `async_make_request` stands. -/
inductive Phase
  | start                                         -- not yet run
  | waiting (f : Nat) (expired cancelReq : Bool)  -- at `await request` (request.py:32)
  | sleeping                                      -- at `await asyncio.sleep` (request.py:78)
  | done (o : Outcome)
deriving DecidableEq, Repr

/-- One call of `async_make_request`. -/
structure Req where
  code : Int
  data : Bytes
  maxRetries : Int
  attempt : Nat := 0
  phase : Phase := .start
  lastError : Option PyErr := none
  /-- ghost: the requests (numbers of futures) issued by this call, in order -/
  mine : List Nat := []
  /-- ghost: the seconds slept so far, in order -/
  sleeps : List Nat := []
deriving Repr

/-- One call of `async_close`. -/
inductive Closer
  | gathering (children : List Nat)   -- at `await outstanding_futures`
  | awaitClosed                       -- at `await self._closed`
  | done                              -- returned
  | cancelled                         -- ended with `CancelledError`
deriving DecidableEq, Repr

/-- A protocol object and the coroutines working on it. -/
structure World where
  p : Proto := {}
  reqs : List Req := []
  closers : List Closer := []
  /-- clean-up tasks `all_done(True)` created by `connection_lost` and not yet run -/
  cleanups : Nat := 0
  /-- the future `_closed` was cancelled (by cancelling a task that awaited it) -/
  spoiled : Bool := false
deriving Repr

/-- What can happen next (see the module comment). -/
inductive Event
  | call (code : Int) (data : Bytes) (maxRetries : Int)  -- someone calls async_make_request
  | run (t : Nat)              -- the call is run for the first time
  | resume (t : Nat)           -- its awaited future is done (or the task was cancelled): it goes on
  | timeout (t : Nat)          -- its 2 s timer expires
  | cancel (t : Nat)           -- someone cancels the task
  | wake (t : Nat)             -- its sleep ends
  | data (chunk : Bytes)       -- the transport delivers bytes
  | lost                       -- connection_lost
  | cleanup                    -- the clean-up task of connection_lost runs
  | peerClose                  -- the transport starts closing by itself (peer, error)
  | close (force : Bool)       -- someone calls async_close(force), run to its first suspension
  | closeResume (c : Nat)      -- that call goes on after the gather
  | closeFinish (c : Nat)      -- ... and after `_closed`
  | closeCancel (c : Nat)      -- someone cancels the task of that call
  | register (code : Int) (h : Nat)
  | unregister (code : Int)
  | unregisterAll
  | enableKeepalive (a : Nat)
  | disableKeepalive
  | timerFire (i : Nat)
deriving Repr

/-- The error of a reply that is not the expected one: request.py:50-65. -/
def replyError (code : Int) : PyErr :=
  if code = 13 then .slLogin
  else if code = 30 then .slRequest
  else if code = 31 then .slRequest
  else .slResponse

/-- The end of the loop body: request.py:67-78 with `last_error = e`. -/
def Req.endAttempt (r : Req) (e : PyErr) : Req :=
  if (r.attempt : Int) = r.maxRetries then
    { r with lastError := some e, phase := .done (.raised e) }
  else
    { r with lastError := some e, phase := .sleeping, sleeps := r.sleeps ++ [1 * (r.attempt + 1)] }

/-- `await request` raised `CancelledError`: request.py:37-43. -/
def Req.onCancelled (r : Req) (connected : Bool) : Req :=
  if connected then { r with phase := .done (.ret none) }
  else { r with phase := .done (.raised .slConnection) }

/-- The request has a result: request.py:45-65 and the end of the loop body. -/
def Req.onResult (r : Req) (m : Msg) : Req :=
  if m.code = r.code + 1 then { r with phase := .done (.ret (some m.data)) }
  else if m.code = 13 then { r with phase := .done (.raised .slLogin) }
  else r.endAttempt (replyError m.code)

/-- `TimeoutError` was raised: request.py:33-36, then `if not request.cancelled()`. -/
def Req.onTimeout (r : Req) (fut : Option FutState) : Req :=
  match fut with
  | some (.result m) => r.onResult m
  | _ => r.endAttempt .slConnection

/-- Replace the state of call `t` (bookkeeping of the model). -/
def World.setReq (w : World) (t : Nat) (r : Req) : World := { w with reqs := w.reqs.set t r }

/-- One attempt from the top of the loop body to `await request`: request.py:23-32.  If the awaited
future is already done (a closing protocol cancels it at once) the `await` does not suspend. -/
def World.startAttempt (w : World) (t : Nat) (r : Req) : World :=
  if r.maxRetries < (r.attempt : Int) then w.setReq t { r with phase := .done (.ret none) }
  else if !w.p.connected then w.setReq t { r with phase := .done (.raised .slConnection) }
  else
    match w.p.awaitSend r.code r.data with
    | (p, .error e) =>
      { w with p := p }.setReq t { r with phase := .done (.raised e), mine := r.mine ++ [w.p.futs.length] }
    | (p, .ok f) =>
      let w := { w with p := p }
      let r := { r with mine := r.mine ++ [f] }
      if p.futs[f]? = some .cancelled then w.setReq t (r.onCancelled p.connected)
      else w.setReq t { r with phase := .waiting f false false }

/-- The gather over `children` is resolved when all children are done, or as soon as one of them is
cancelled (`asyncio.gather` without `return_exceptions`). -/
def gatherDone (p : Proto) (children : List Nat) : Bool :=
  children.all (fun f => p.futs[f]? != some .pending) ||
  children.any (fun f => p.futs[f]? == some .cancelled)

/-- `async_close` after the gather: protocol.py:166-169. -/
def World.closeTail (w : World) (c : Nat) : World :=
  { w with p := { w.p with tclosing := true }, closers := w.closers.set c .awaitClosed }

/-- One uninterrupted piece of execution; the code each event runs is cited at the definitions it uses
(`startAttempt`, `onResult`, `onTimeout`, `onCancelled`: request.py:17-78; the rest: protocol.py).

Cancelling a task inside `async_close` (protocol.py:157-169): while it awaits the gather, `gather.cancel()` cancels the
outstanding requests and the `CancelledError` is swallowed (protocol.py:286-287), so the call goes on; while it awaits
`_closed`, that future itself is cancelled, unless it is done, and the call ends.  From then on everybody who awaits
`_closed` gets a `CancelledError`, and `connection_lost` raises `InvalidStateError` at `set_result`, that is after
everything else it does except the callback (`Gw.lostCallback`). -/
def World.step (w : World) : Event → World
  | .call code data maxRetries => { w with reqs := w.reqs ++ [{ code, data, maxRetries }] }
  | .run t =>
    match w.reqs[t]? with
    | some r => if r.phase = .start then w.startAttempt t r else w
    | none => w
  | .resume t =>
    match w.reqs[t]? with
    | some r =>
      match r.phase with
      | .waiting f expired cancelReq =>
        let fut := w.p.futs[f]?
        if fut = some .pending then w
        else if cancelReq then w.setReq t (r.onCancelled w.p.connected)
        else if expired then w.setReq t (r.onTimeout fut)
        else
          match fut with
          | some (.result m) => w.setReq t (r.onResult m)
          | _ => w.setReq t (r.onCancelled w.p.connected)
      | _ => w
    | none => w
  | .timeout t =>
    match w.reqs[t]? with
    | some r =>
      match r.phase with
      | .waiting f false c => { w with p := w.p.cancelFut f }.setReq t { r with phase := .waiting f true c }
      | _ => w
    | none => w
  | .cancel t =>
    match w.reqs[t]? with
    | some r =>
      match r.phase with
      | .start => w.setReq t { r with phase := .done (.raised .cancelled) }
      | .waiting f e _ => { w with p := w.p.cancelFut f }.setReq t { r with phase := .waiting f e true }
      | .sleeping => w.setReq t { r with phase := .done (.raised .cancelled) }
      | .done _ => w
    | none => w
  | .wake t =>
    match w.reqs[t]? with
    | some r =>
      if r.phase = .sleeping then w.startAttempt t { r with attempt := r.attempt + 1, phase := .start }
      else w
    | none => w
  | .data chunk => { w with p := (w.p.dataReceived chunk).1 }
  | .lost => if w.p.connected then { w with p := w.p.connectionLost, cleanups := w.cleanups + 1 } else w
  | .cleanup => if 0 < w.cleanups then { w with p := w.p.cancelAll, cleanups := w.cleanups - 1 } else w
  | .peerClose => { w with p := { w.p with tclosing := true } }
  | .close force =>
    let children := w.p.coll.map (·.2)
    let p := { w.p with closing := true }
    let p := if force then p.cancelAll else p
    let c := w.closers.length
    let w := { w with p := p, closers := w.closers ++ [.gathering children] }
    if children.isEmpty then w.closeTail c else w
  | .closeResume c =>
    match w.closers[c]? with
    | some (.gathering children) => if gatherDone w.p children then w.closeTail c else w
    | _ => w
  | .closeFinish c =>
    match w.closers[c]? with
    | some .awaitClosed =>
      if w.spoiled then { w with closers := w.closers.set c .cancelled }
      else if w.p.closed then { w with closers := w.closers.set c .done }
      else w
    | _ => w
  | .closeCancel c =>
    match w.closers[c]? with
    | some (.gathering children) => { w with p := children.foldl Proto.cancelFut w.p }
    | some .awaitClosed => { w with closers := w.closers.set c .cancelled, spoiled := w.spoiled || !w.p.closed }
    | _ => w
  | .register code h => { w with p := w.p.register code h }
  | .unregister code => { w with p := w.p.unregister code }
  | .unregisterAll => { w with p := w.p.unregisterAll }
  | .enableKeepalive a => { w with p := w.p.enableKeepalive a }
  | .disableKeepalive => { w with p := w.p.disableKeepalive }
  | .timerFire i => { w with p := w.p.timerFire i }

/-- Run a history. -/
def World.run (w : World) (es : List Event) : World := es.foldl World.step w

/-- A fresh connection (right after `connection_made`). -/
def World.init : World := {}

end SL
