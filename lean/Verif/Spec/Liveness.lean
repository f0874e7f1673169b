import Verif.Spec.Lock
/-!
# Infinite histories, and what a fair one is

A history is a sequence of events `σ 0`, `σ 1`, ...; an event that is not possible when its turn comes changes nothing.
-/
namespace SL

/-- The system after the first `n` events of `σ`, from `s` on. -/
def Sys.at (E : Env) (s : Sys) (σ : Nat → Ev) : Nat → Sys
  | 0 => s
  | n + 1 => (s.at E σ n).step E (σ n)

/-- The event happens again and again. -/
def Recurs (σ : Nat → Ev) (ev : Ev) : Prop := ∀ n, ∃ m, n ≤ m ∧ σ m = ev

/-- What every real run does.
- The event loop goes on with every task, every request call and every closing that can go on.
- Timers fire: a reply timeout elapses, the pause between two attempts of a request ends.
- An attempt to open a TCP connection ends, in success or failure.
- A transport that is being closed reports the loss of the connection. -/
structure Fair (E : Env) (s : Sys) (σ : Nat → Ev) : Prop where
  tasks : ∀ t, Recurs σ (.resume t)
  opening : ∀ t n, ∃ m, n ≤ m ∧ ∃ ok, σ m = .opened t ok
  timeouts : ∀ c r, Recurs σ (.net c (.timeout r))
  replies : ∀ c r, Recurs σ (.net c (.resume r))
  pauses : ∀ c r, Recurs σ (.net c (.wake r))
  gathers : ∀ c i, Recurs σ (.net c (.closeResume i))
  closes : ∀ c i, Recurs σ (.net c (.closeFinish i))
  losses : ∀ n c x, (s.at E σ n).g.conns[c]? = some x → x.w.p.tclosing = true → ∃ m, n ≤ m ∧ σ m = .net c .lost

/-- From some time on no TCP connection is made. -/
def Unreachable (E : Env) (s : Sys) (σ : Nat → Ev) : Prop := ∃ N, ∀ n, N ≤ n → ∀ t, σ n = .opened t true → ¬ (s.at E σ n).opening t

/-- Every message the user sends by hand, in the history `es` and then in `σ`, fits a frame: a type in 0..65535 and less
than 4 GiB of data. -/
def SendsFit (es : List Ev) (σ : Nat → Ev) : Prop :=
  ∀ code data, (Ev.call (.send code data) ∈ es ∨ ∃ n, σ n = .call (.send code data)) → 0 ≤ code ∧ code ≤ 65535 ∧ data.length < 2 ^ 32

/-- The message of every request made so far fits a frame: a type in 0..65535 and less than 4 GiB of data. -/
def Gw.Encodable (g : Gw) : Prop :=
  ∀ (c : Nat) (x : Conn) (r : Nat) (q : Req), g.conns[c]? = some x → x.w.reqs[r]? = some q → 0 ≤ q.code ∧ q.code ≤ 65535 ∧ q.data.length < 2 ^ 32

/-- The call made as task `t` has ended. -/
def Sys.ended (s : Sys) (t : Nat) : Prop := s.result t ≠ none

end SL
