import Verif.Spec.Gateway
/-!
# What is meant by a subscription
-/
namespace SL

/-- The callback `cb` is called when a message with this code is pushed (if the gateway is attached and a client). -/
def Listening (g : Gw) (code cb : Nat) : Prop :=
  ∃ s l, aget code g.listeners = some s ∧ g.sets[s]? = some l ∧ cb ∈ l

/-- The call `async_subscribe_client(cb, code)`, made after `es1`, has returned the function `u` when `es2` has happened
too. -/
def Returns (E : Env) (clientId maxRetries : Int) (es1 : List Ev) (cb code : Nat) (es2 : List Ev) (u : Sub) : Prop :=
  resultOf E clientId maxRetries es1 (.subscribe cb code) es2 = some (.ok (.sub (some u)))

/-- In this history only unsubscribe functions are called that were got from the library before. -/
def Honest (E : Env) (clientId maxRetries : Int) (es : List Ev) : Prop :=
  ∀ pre u post, es = pre ++ .unsubscribe u :: post →
    ∃ es1 cb code es2, pre = es1 ++ .call (.subscribe cb code) :: es2 ∧ Returns E clientId maxRetries es1 cb code es2 u

/-- The next handler task of connection `c` is the client manager's, for a message with this code and payload. -/
def NextPush (g : Gw) (c code : Nat) (msg : Bytes) : Prop :=
  ∃ x, g.conns[c]? = some x ∧ x.w.p.spawned[x.handled]? = some (commonHandler code, msg)

/-- The decoder a message code is known with: 12500 status, 12505 chemistry, 12504 colour update. -/
inductive KnownPush : Nat → Decoder → Prop
  | status : KnownPush 12500 .status
  | chemistry : KnownPush 12505 .chemistry
  | color : KnownPush 12504 .colorUpdate

/-- Between the two states every listener of the code has been called exactly once, in some order, finding the data of
the second state; nobody else has been called. -/
def Notified (g g' : Gw) (code : Nat) : Prop :=
  ∃ called : List Nat, called.Nodup ∧ (∀ cb, cb ∈ called ↔ Listening g code cb) ∧
    g'.notes = g.notes ++ called.map (fun cb => (cb, g'.data))

/-- The client manager's handler for this code is registered at connection `c`. -/
def Handles (g : Gw) (c code : Nat) : Prop :=
  ∃ x, g.conns[c]? = some x ∧ aget (code : Int) x.w.p.cbs = some (commonHandler code)

/-- A handler for this code, whoever's, is registered at connection `c`. -/
def HasHandler (g : Gw) (c : Nat) (code : Int) : Prop :=
  ∃ x, g.conns[c]? = some x ∧ aget code x.w.p.cbs ≠ none

end SL
