import Verif.Spec.Gateway
/-!
# Calls that connect at the same time
-/
namespace SL

/-- Call `t` is under way and has asked for a TCP connection. -/
def Sys.Connects (s : Sys) (t : Nat) : Prop :=
  t < s.tasks.length ∧ s.result t = none ∧ ∃ host port, Act.opn host port ∈ s.g.acts t

/-- At no moment of the history are there two such calls. -/
def ConnectsAlone (E : Env) (clientId maxRetries : Int) (es : List Ev) : Prop :=
  ∀ es1 es2, es = es1 ++ es2 → ∀ t t', (after E clientId maxRetries es1).Connects t → (after E clientId maxRetries es1).Connects t' → t = t'

end SL
