import Verif.Model.Gateway
import Verif.Spec.Wire
/-!
# Observing a gateway: vocabulary of the statements about it
-/
namespace SL

/-- The requests a connection sequence makes (challenge 14, login 27, version 8120, configuration 12532), and
registering and unregistering as a client (12522, 12524). -/
def connectCodes : List Int := [14, 27, 8120, 12532, 12522, 12524]

/-- The requests (code, payload) a task made, in order, leaving out those of connection sequences. -/
def userAsks (h : List Act) : List (Int × Bytes) :=
  h.filterMap (fun
    | .ask _ code data => if code ∈ connectCodes then none else some (code, data)
    | _ => none)

/-- The last thing the task did was to make this request and get this reply. -/
def EndsWith (h : List Act) (code : Int) (data : Bytes) (v : Option Bytes) : Prop :=
  ∃ h0 c, h = h0 ++ [.ask c code data, .got (.ok v)]

/-- `l` is made of the elements of `plan` in order, each repeated at least `lo` and at most `hi` times. -/
inductive Each {α : Type} (lo hi : Nat) : List α → List α → Prop
  | nil : Each lo hi [] []
  | snoc {plan l : List α} (x : α) (n : Nat) : Each lo hi plan l → lo ≤ n → n ≤ hi →
      Each lo hi (plan ++ [x]) (l ++ List.replicate n x)

/-- The status request of pump `i`: code 12584, payload (0, i). -/
def pumpRequest (i : Nat) : Int × Bytes := (12584, leBytes 4 0 ++ leBytes 4 i)

/-- The status, chemistry, chlorinator and date/time requests. -/
def statusRequest : Int × Bytes := (12526, leBytes 4 0)
/-- See `statusRequest`. -/
def chemistryRequest : Int × Bytes := (12592, leBytes 4 0)
/-- See `statusRequest`. -/
def scgRequest : Int × Bytes := (12572, leBytes 4 0)
/-- See `statusRequest`. -/
def dateTimeRequest : Int × Bytes := (8110, [])

/-- The pumps below `n` whose equipment flag (bit 4 + i) is set, in increasing order. -/
def flaggedPumps (flags n : Nat) : List Nat := (List.range n).filter (fun i => flags.testBit (i + 4))

/-- The task has forced a disconnection. -/
def Closed (h : List Act) : Prop := ∃ c, .cls c true ∈ h

/-- The requests of the plan have been made (connection sequences aside), in order, each once or, if the connection had
to be torn down, twice. -/
def Done (plan : List (Int × Bytes)) (h : List Act) : Prop :=
  Each 1 2 plan (userAsks h) ∧ (¬ Closed h → userAsks h = plan)

/-- The plan is being carried out, or was given up: the same, up to some point of the plan. -/
def Part (plan : List (Int × Bytes)) (h : List Act) : Prop :=
  Each 0 2 plan (userAsks h) ∧ (¬ Closed h → userAsks h <+: plan)

/-- The task has asked for the configuration (which a reconnection does). -/
def CfgAsked (h : List Act) : Prop := ∃ c p, .ask c 12532 p ∈ h

/-- The task has asked for the configuration and got an answer. -/
def CfgAnswered (l : List Act) : Prop :=
  ∃ l1 c p o l2, l = l1 ++ [.ask c 12532 p, .got (.ok o)] ++ l2

/-- What a task returned or raised, if it has ended. -/
def Sys.result (s : Sys) (t : Nat) : Option (Except PyErr Res) :=
  match s.tasks[t]? with
  | some (.done r) => some r
  | _ => none

/-- The state of a new gateway after a history. -/
def after (E : Env) (clientId maxRetries : Int) (es : List Ev) : Sys := (Sys.init clientId maxRetries).run E es

/-- In this history nobody sends an add-client or remove-client message by hand (through
`async_send_message`). -/
def NoHandRegistration (es : List Ev) : Prop :=
  ∀ code data, Ev.call (.send code data) ∈ es → code ≠ 12522 ∧ code ≠ 12524

/-- A payload made of four-byte numbers. -/
def words (l : List Nat) : Bytes := l.flatMap Spec.u32

/-- The number of the task of an API call made after the history `es`. -/
def callTask (E : Env) (clientId maxRetries : Int) (es : List Ev) : Nat := (after E clientId maxRetries es).tasks.length

/-- If there are listeners and the connection is up, the gateway is registered as a client. -/
def Served (g : Gw) : Prop := g.isClient = true ∨ g.listeners = [] ∨ g.attached = false

/-- What the task of the call `a`, made after `es`, has done when `es2` has happened too. -/
def actsOf (E : Env) (clientId maxRetries : Int) (es : List Ev) (a : Call) (es2 : List Ev) : List Act :=
  (after E clientId maxRetries (es ++ .call a :: es2)).g.acts (callTask E clientId maxRetries es)

/-- What the call `a`, made after `es`, has returned or raised when `es2` has happened too. -/
def resultOf (E : Env) (clientId maxRetries : Int) (es : List Ev) (a : Call) (es2 : List Ev) : Option (Except PyErr Res) :=
  (after E clientId maxRetries (es ++ .call a :: es2)).result (callTask E clientId maxRetries es)

/-- The call `a`, made after `es`, returns or raises `r` with the last event of `es2` (or at once, if `es2` is empty). -/
def EndsNow (E : Env) (clientId maxRetries : Int) (es : List Ev) (a : Call) (es2 : List Ev) (r : Except PyErr Res) : Prop :=
  resultOf E clientId maxRetries es a es2 = some r ∧
  ∀ pre ev, es2 = pre ++ [ev] → resultOf E clientId maxRetries es a pre = none

/-- Nothing is closed, closing or lost. -/
def Conn.isOpen (x : Conn) : Prop := x.w.p.connected = true ∧ x.w.p.closing = false ∧ x.w.p.tclosing = false

/-- The call `a`, made after `es`, sends this message and no other, whatever happens then. -/
structure SendsExactly (E : Env) (clientId maxRetries : Int) (es : List Ev) (a : Call) (code : Nat) (payload : Bytes) : Prop where
  /-- leaving reconnections aside, its requests are copies of this message: at most two, and a second one only
  after the connection was torn down -/
  copies : ∀ es2, ∃ k, k ≤ 2 ∧ userAsks (actsOf E clientId maxRetries es a es2) = List.replicate k ((code : Int), payload) ∧
    (k = 2 → Closed (actsOf E clientId maxRetries es a es2))
  /-- it returns normally (`None`) only right after this message was acknowledged with an empty answer -/
  acked : ∀ es2 r, resultOf E clientId maxRetries es a es2 = some (.ok r) →
    r = .none ∧ EndsWith (actsOf E clientId maxRetries es a es2) code payload (some [])
  /-- on an open connection the message is written at once -/
  atOnce : 1 ≤ maxRetries → maxRetries ≤ 5 → ∀ c x, (after E clientId maxRetries es).g.protocol = some c →
    (after E clientId maxRetries es).g.conns[c]? = some x → x.isOpen →
    ∃ x', (after E clientId maxRetries (es ++ [.call a])).g.conns[c]? = some x' ∧
      x'.w.p.written = x.w.p.written ++ [(x.w.p.futs.length, Spec.frame (x.w.p.futs.length % 32767) code payload)]

/-- The call `a`, made after `es`, raises `e` at once and does nothing else. -/
def Refuses (E : Env) (clientId maxRetries : Int) (es : List Ev) (a : Call) (e : PyErr) : Prop :=
  after E clientId maxRetries (es ++ [.call a]) =
    { g := (after E clientId maxRetries es).g, tasks := (after E clientId maxRetries es).tasks ++ [.done (.error e)] }

end SL
