import Verif.Spec.Gateway
import Verif.Spec.Subs
/-!
# Where the data of a gateway comes from
-/
set_option linter.unusedVariables false

namespace SL

/-- The query whose answer is read into the data by a decoder: message code and payload bytes. -/
inductive Queries : Decoder → Int → Bytes → Prop
  | status : Queries .status 12526 [0, 0, 0, 0]
  | config : Queries .config 12532 [0, 0, 0, 0, 0, 0, 0, 0]
  | scg : Queries .scg 12572 [0, 0, 0, 0]
  | chemistry : Queries .chemistry 12592 [0, 0, 0, 0]
  | pump (i : Int) (p : Bytes) (h : packObjs [.int 0, .int i] = .ok p) : Queries (.pump i) 12584 p
  | version : Queries .version 8120 []
  | dateTime (now : Rat) : Queries (.dateTime now) 8110 []

/-- A request with this code and payload, sent on connection `c` of the gateway, was answered with `b` by the adapter: a
message with the code of the answer and payload `b` was received there and it was given to that request. -/
def AnsweredOn (g : Gw) (c : Nat) (code : Int) (payload b : Bytes) : Prop :=
  ∃ (x : Conn) (f : Nat) (id : Int), g.conns[c]? = some x ∧ x.w.p.calls[f]? = some (code, payload) ∧
    x.w.p.futs[f]? = some (.result ⟨id, code + 1, b⟩) ∧ (⟨id, code + 1, b⟩ : Msg) ∈ x.w.p.recv

/-- The same, on one of the gateway's connections. -/
def AnsweredWith (g : Gw) (code : Int) (payload b : Bytes) : Prop := ∃ c, AnsweredOn g c code payload b

/-- A message with this code and payload was received on one of the gateway's connections. -/
def ReceivedMsg (g : Gw) (code : Int) (b : Bytes) : Prop :=
  ∃ (c : Nat) (x : Conn) (id : Int), g.conns[c]? = some x ∧ (⟨id, code, b⟩ : Msg) ∈ x.w.p.recv

/-- The adapter sent `b` for decoder `D`: in answer to the query of `D`, or as a message of a code known with `D`. -/
def SentFor (g : Gw) (D : Decoder) (b : Bytes) : Prop :=
  (∃ code payload, Queries D code payload ∧ AnsweredWith g code payload b) ∨
  (∃ code : Nat, KnownPush code D ∧ ReceivedMsg g code b)

/-- Data made from `{}` by reading payloads that satisfy `M`, each with its decoder, in some order. -/
inductive MadeFrom (pyFloat : String → Except PyErr Rat) (M : Decoder → Bytes → Prop) : Val → Prop
  | init : MadeFrom pyFloat M (.dict [])
  | step {d : Val} (D : Decoder) (b : Bytes) (hm : M D b) (hd : MadeFrom pyFloat M d) :
      MadeFrom pyFloat M (decodeWith (D.prog pyFloat) b d).2

/-- The messages that a section of the data is read from. -/
def sectionCodes : String → List Int
  | "adapter" => [8121]
  | "controller" => [12527, 12500, 12533, 12504, 8111]
  | "body" => [12527, 12500]
  | "circuit" => [12527, 12500, 12533]
  | "pump" => [12533, 12585]
  | "scg" => [12573]
  | "intellichem" => [12593, 12505]
  | _ => []

end SL
