import Verif.Model.Gateway
/-!
# Time

The events of `Model/Gateway.lean` may happen at any moment.  Here they get times (in milliseconds), and every wait the code limits gets its limit:
2 s for an answer and for a TCP connection (`COM_TIMEOUT`, const/msg.py:5; requests/request.py:31, requests/login.py:46), n seconds before the n-th
repetition of a request (`COM_RETRY_WAIT`, const/msg.py:4; request.py:70-78), 0.25 s after connecting (login.py:75) and no time before the second
attempt of a managed request (`reconnect_delay`, gateway.py:533; simplification: the same 0.25 s are allowed here).  Simplification: computing takes
no time, so a task that has been given what it waits for goes on at once.
-/
namespace SL

/-- `COM_TIMEOUT`: const/msg.py:5. -/
def comTimeout : Nat := 2000

/-- A second: the unit of `COM_RETRY_WAIT` (const/msg.py:4). -/
def second : Nat := 1000

/-- `asyncio.sleep(0.25)`: requests/login.py:75. -/
def connectPause : Nat := 250

deriving instance DecidableEq for Req

/-- How long a request can stay as it is: requests/request.py:31 (the timeout, then the task goes on at once) and :78 (the pause it has decided on
last). -/
def Req.dur (r : Req) : Nat :=
  match r.phase with
  | .start => 0
  | .waiting _ expired cancelled => if expired || cancelled then 0 else comTimeout
  | .sleeping => second * r.sleeps.getLast?.getD 0
  | .done _ => 0

/-- Request `i` of connection `c`. -/
def Gw.theReq (g : Gw) (c i : Nat) : Option Req := (g.conns[c]?).bind (fun x => x.w.reqs[i]?)

/-- The event lets the task go on (the cases of `Sys.step` in which it does). -/
def Sys.moves (s : Sys) (t : Nat) (ev : Ev) : Bool :=
  match s.tasks[t]?, ev with
  | some (.opening _ _), .opened t' _ => t' == t
  | some (.opening _ _), .cancel t' => t' == t
  | some (.request c r _), .resume t' => t' == t && (s.g.outcome c r).isSome
  | some (.sleeping _), .resume t' => t' == t
  | some (.sleeping _), .cancel t' => t' == t
  | some (.closing c i _), .resume t' => t' == t && s.g.closeEnded c i
  | some (.locked _), .resume t' => t' == t && decide (s.g.lock = none ∧ s.g.waiters.head? = some t)
  | some (.locked _), .cancel t' => t' == t
  | _, _ => false

/-- The task waits for something the code sets no limit to: the subscription lock, or the end of a connection. -/
def Sys.idles (s : Sys) (t : Nat) : Bool :=
  match s.tasks[t]? with
  | some (.locked _) => true
  | some (.closing _ _ _) => true
  | _ => false

/-- The system, the time, when each request last changed, when each task last went on (or was started), and how long each has idled in all. -/
structure Timed where
  s : Sys
  now : Nat := 0
  req : Nat → Nat → Nat := fun _ _ => 0
  task : Nat → Nat := fun _ => 0
  idle : Nat → Nat := fun _ => 0

/-- An event happens. -/
def Timed.step (E : Env) (x : Timed) (τ : Nat) (ev : Ev) : Timed where
  s := x.s.step E ev
  now := τ
  req c i := if (x.s.step E ev).g.theReq c i = x.s.g.theReq c i then x.req c i else τ
  task t := if x.s.tasks.length ≤ t ∨ x.s.moves t ev then τ else x.task t
  idle t := x.idle t + if x.s.idles t then τ - x.now else 0

/-- The task's wait is over at this time at the latest: login.py:46 and :75, request.py:31 and :78. -/
def Timed.due (x : Timed) (t : Nat) : Option Nat :=
  match x.s.tasks[t]? with
  | some (.opening _ _) => some (x.task t + comTimeout)
  | some (.sleeping _) => some (x.task t + connectPause)
  | some (.request c i _) => (x.s.g.theReq c i).map (fun r => x.req c i + r.dur)
  | _ => none

end SL
