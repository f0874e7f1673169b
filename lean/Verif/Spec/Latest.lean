import Verif.Spec.Provenance
import Verif.Spec.Calls
/-!
# Which messages are read in a part of a history
-/
set_option linter.unusedVariables false

namespace SL

/-- Between the two states a call was handed `m`, the reply to its query for decoder `D`. -/
def HandedBetween (g g' : Gw) (D : Decoder) (m : Bytes) : Prop :=
  ∃ t c code payload before l, Queries D code payload ∧ g'.acts t = before ++ .ask c code payload :: .got (.ok (some m)) :: l ∧
    (g.acts t).length ≤ before.length + 1

/-- In the part `es2` of the history `es ++ es2` message `m` of the kind of `D` is read: a call is handed it as the reply to its query, or it was
pushed and its handler runs. -/
def ReadIn (E : Env) (clientId maxRetries : Int) (es es2 : List Ev) (D : Decoder) (m : Bytes) : Prop :=
  HandedBetween (after E clientId maxRetries es).g (after E clientId maxRetries (es ++ es2)).g D m ∨
  ∃ es1 c es3 code, es2 = es1 ++ .handle c :: es3 ∧ KnownPush code D ∧ NextPush (after E clientId maxRetries (es ++ es1)).g c code m

/-- Data made from `d0` by reading messages that satisfy `M`, each with its decoder, in some order. -/
inductive MadeOn (pyFloat : String → Except PyErr Rat) (M : Decoder → Bytes → Prop) (d0 : Val) : Val → Prop
  | refl : MadeOn pyFloat M d0 d0
  | step {d : Val} (D : Decoder) (b : Bytes) (hm : M D b) (hd : MadeOn pyFloat M d0 d) :
      MadeOn pyFloat M d0 (decodeWith (D.prog pyFloat) b d).2

/-- The call `a`, made after `es`, is handed `m` as the answer to its request (code, payload) by the last event of `es2`. -/
def HandedNow (E : Env) (clientId maxRetries : Int) (es : List Ev) (a : Call) (es2 : List Ev) (code : Int) (payload m : Bytes) : Prop :=
  ∃ pre ev h0 c l, es2 = pre ++ [ev] ∧ actsOf E clientId maxRetries es a pre = h0 ++ [.ask c code payload] ∧
    actsOf E clientId maxRetries es a es2 = h0 ++ .ask c code payload :: .got (.ok (some m)) :: l

/-- What connecting asks for: the version and the configuration. -/
def connectQueries : List (Int × Bytes) := [(8120, []), (12532, [0, 0, 0, 0, 0, 0, 0, 0])]

end SL
