import Verif.Spec.Gateway
/-!
# The subscription lock: vocabulary of the statements about it
-/
namespace SL

/-- Task `t` waits for the lock. -/
def Sys.waiting (s : Sys) (t : Nat) : Prop := ∃ k, s.tasks[t]? = some (.locked k)

/-- Task `t` holds the lock. -/
def Sys.holding (s : Sys) (t : Nat) : Prop := s.g.lock = some t

/-- Task `t` waits for a TCP connection it has asked for. -/
def Sys.opening (s : Sys) (t : Nat) : Prop := ∃ q k, s.tasks[t]? = some (.opening q k)

/-- Task `t` has started and not ended. -/
def Sys.running (s : Sys) (t : Nat) : Prop := t < s.tasks.length ∧ s.result t = none

/-- Task `t` goes on with the lock (which it was granted). -/
def GoesOn (E : Env) (s : Sys) (t : Nat) (s' : Sys) : Prop :=
  ∃ k g0, s.tasks[t]? = some (.locked k) ∧ g0.lock = some t ∧ s' = s.put t (settle t (k (.ok ())) g0)

end SL
