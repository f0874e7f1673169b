import Verif.Spec.Gateway
/-!
# The user's own message handlers
-/
namespace SL

/-- In this history `register_async_message_handler(code, h)` was called while connection `c` was the gateway's connection. -/
def RegisteredAt (E : Env) (clientId maxRetries : Int) (es : List Ev) (c code h : Nat) : Prop :=
  ∃ es1 es2, es = es1 ++ .registerHandler code h :: es2 ∧ (after E clientId maxRetries es1).g.protocol = some c

/-- A handler task of a connection, if it calls a handler of the user: that handler and the payload it gets. -/
def userCall : Nat × Bytes → Option (Nat × Bytes)
  | (h, msg) => if h % 2 = 1 then some (h / 2, msg) else none

/-- The calls of the user's handlers made for connection `x` so far, in order: its handler tasks are run in the order in which they were created. -/
def Conn.userCalls (x : Conn) : List (Nat × Bytes) := (x.w.p.spawned.take x.handled).filterMap userCall

/-- The handler tasks of `x` that have not run yet. -/
def Conn.backlog (x : Conn) : List (Nat × Bytes) := x.w.p.spawned.drop x.handled

end SL
