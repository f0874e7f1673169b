import Verif.Spec.Lock
/-!
# Where a call stands: vocabulary of the statements about cancellation
-/
namespace SL

/-- Task `t` pauses (`asyncio.sleep`). -/
def Sys.pausing (s : Sys) (t : Nat) : Prop := ∃ k, s.tasks[t]? = some (.sleeping k)

/-- Task `t` is in its `i`-th call of `async_close` at connection `c`. -/
def Sys.finishing (s : Sys) (t c i : Nat) : Prop := ∃ k, s.tasks[t]? = some (.closing c i k)

/-- Task `t` waits for request `r` of connection `c`. -/
def Sys.asking (s : Sys) (t c r : Nat) : Prop := ∃ k, s.tasks[t]? = some (.request c r k)

/-- Call `i` of `async_close` at connection `c` waits for the connection to be down. -/
def Sys.awaitsEnd (s : Sys) (c i : Nat) : Prop := ∃ x : Conn, s.g.conns[c]? = some x ∧ x.w.closers[i]? = some .awaitClosed

/-- Request `r` of connection `c` has failed and is to be repeated after a pause. -/
def Sys.backingOff (s : Sys) (c r : Nat) : Prop :=
  ∃ (x : Conn) (q : Req), s.g.conns[c]? = some x ∧ x.w.reqs[r]? = some q ∧ q.phase = .sleeping

/-- Request `r` of connection `c` was sent and has no answer yet, and the connection is up. -/
def Sys.unanswered (s : Sys) (c r : Nat) : Prop :=
  ∃ (x : Conn) (q : Req) (f : Nat) (e cr : Bool), s.g.conns[c]? = some x ∧ x.w.reqs[r]? = some q ∧ q.phase = .waiting f e cr ∧
    x.w.p.futs[f]? = some .pending ∧ x.w.p.connected = true

/-- The event cancels task `t`, where it waits. -/
def Sys.hit (s : Sys) (t : Nat) (ev : Ev) : Prop :=
  ev = .cancel t ∨ (∃ c r, s.asking t c r ∧ ev = .net c (.cancel r)) ∨ ∃ c i, s.finishing t c i ∧ ev = .net c (.closeCancel i)

/-- Somebody cancelled task `t` in the course of the history. -/
def WasCancelled (E : Env) (clientId maxRetries : Int) (es : List Ev) (t : Nat) : Prop :=
  ∃ es1 ev es2, es = es1 ++ ev :: es2 ∧ (after E clientId maxRetries es1).hit t ev

/-- The exceptions that `float(str)` and `datetime.fromtimestamp` raise are not among the five listed. -/
def Env.Sane (E : Env) : Prop :=
  ∀ e ∈ [PyErr.cancelled, .runtimeError, .zeroDivision, .overflowError, .assertionError], (∀ s, E.pyFloat s ≠ .error e) ∧ ∀ q, E.fromTimestamp q ≠ .error e

end SL
