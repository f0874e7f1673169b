import Verif.Model.Clock
import Verif.Spec.Budget
/-!
# Histories in time

A history is *punctual* if no wait lasts longer than the code allows.
-/
namespace SL

/-- How long a request with this number of retries can take: 2 s for every attempt, and the pauses between them. -/
def requestTime : Nat → Nat
  | 0 => 2000
  | n + 1 => requestTime n + 1000 * (n + 1) + 2000

/-- Time does not go back, and no wait lasts too long. -/
def Punctual (E : Env) : Timed → List (Nat × Ev) → Prop
  | _, [] => True
  | x, (τ, ev) :: l => x.now ≤ τ ∧ (∀ t d, x.due t = some d → τ ≤ d) ∧ Punctual E (x.step E τ ev) l

/-- Run a timed history. -/
def Timed.run (E : Env) (x : Timed) (l : List (Nat × Ev)) : Timed := l.foldl (fun x e => x.step E e.1 e.2) x

/-- A new gateway object, at time 0. -/
def Timed.init (clientId maxRetries : Int) : Timed := { s := Sys.init clientId maxRetries }

/-- The task has ended. -/
def Timed.ended (x : Timed) (t : Nat) : Bool :=
  match x.s.tasks[t]? with
  | some (.done _) => true
  | _ => false

/-- How long a call may take when nothing is answered, with at most `n` retries for a request: its TCP connections, its requests and its pauses. -/
def Call.time (n : Nat) (a : Call) : Nat := 2000 * a.freeOpens + requestTime n * a.freeAsks + 250 * a.freePauses

/-- How much longer it may take for each request that returns. -/
def extraTime (n : Nat) : Nat := 2000 + 3 * requestTime n + 500

end SL
