import Verif.Spec.Calls
/-!
# Vocabulary of the statements about calls going on and ending
-/
namespace SL

/-- Task `t` waits for request call `r` of connection `c`. -/
def Sys.Waits (s : Sys) (t c r : Nat) : Prop := ∃ k, s.tasks[t]? = some (.request c r k)

/-- The request that task `t` waits for has returned `v`; the task has not gone on yet. -/
def Sys.AnswerReady (s : Sys) (t : Nat) (v : Option Bytes) : Prop := ∃ c r, s.Waits t c r ∧ s.g.outcome c r = some (.ok v)

/-- The last thing task `t` did was to make a request with this code. -/
def Sys.LastAsked (s : Sys) (t : Nat) (code : Int) : Prop := ∃ h c data, s.g.acts t = h ++ [.ask c code data]

/-- Request call `r` on connection `c` waits for the answer to the message numbered `id`, and the connection can take it: it is not being closed, the
request has neither timed out nor been cancelled, and no part of another message has arrived. -/
def Gw.Awaits (g : Gw) (c r id : Nat) (code : Int) : Prop :=
  ∃ x q f, g.conns[c]? = some x ∧ x.w.reqs[r]? = some q ∧ q.code = code ∧ q.phase = .waiting f false false ∧ x.w.p.futs[f]? = some .pending ∧
    aget (id : Int) x.w.p.coll = some f ∧ x.w.p.closing = false ∧ x.w.p.buff = []

/-- The answer to message `id` arrives on connection `c`, request call `r` takes it, and task `t` goes on. -/
def answerEvs (t c r id code : Nat) (payload : Bytes) : List Ev :=
  [.net c (.data (Spec.frame id code payload)), .net c (.resume r), .resume t]

/-- The polls that make a single kind of request: the call, where the raw answer is kept, the code of the request, and what decodes the answer (it depends
on the host's clock). -/
inductive PollOf : Call → Path → Nat → (Rat → Decoder) → Prop
  | status : PollOf .getStatus [.s "status"] 12526 (fun _ => .status)
  | chemistry : PollOf .getChemistry [.s "chemistry"] 12592 (fun _ => .chemistry)
  | scg : PollOf .getScg [.s "scg"] 12572 (fun _ => .scg)
  | dateTime : PollOf .getDatetime [.s "date_time"] 8110 (fun now => .dateTime now)

end SL
