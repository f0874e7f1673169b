import Verif.Spec.Gateway
/-!
# What a call does on the network, and what it gets for it
-/
namespace SL

/-- The task has asked for a TCP connection. -/
def Act.isOpen : Act → Bool
  | .opn _ _ => true
  | _ => false

/-- The task has made a request to the gateway. -/
def Act.isAsk : Act → Bool
  | .ask _ _ _ => true
  | _ => false

/-- The task has closed a connection. -/
def Act.isClose : Act → Bool
  | .cls _ _ => true
  | _ => false

/-- A request of the task has returned: the gateway has answered it, or the task was cancelled while it waited for the answer on a
connection that is alive (the library then returns `None` and goes on). -/
def Act.isReturn : Act → Bool
  | .got (.ok _) => true
  | _ => false

/-- How many of the task's actions are of this kind. -/
def Gw.count (g : Gw) (t : Nat) (p : Act → Bool) : Nat := (g.acts t).countP p

/-- The TCP connections a call may ask for when the gateway answers nothing. -/
def Call.freeOpens : Call → Nat
  | .connect _ => 1
  | .disconnect _ => 0
  | _ => 2

/-- The requests a call may make when the gateway answers nothing. -/
def Call.freeAsks : Call → Nat
  | .connect _ => 1
  | .disconnect _ => 1
  | _ => 3

/-- The connections a call may close when the gateway answers nothing. -/
def Call.freeCloses : Call → Nat
  | .connect _ => 0
  | _ => 1

/-- The pauses a call may make when the gateway answers nothing. -/
def Call.freePauses : Call → Nat
  | .connect _ => 1
  | .disconnect _ => 0
  | _ => 3

end SL
