import Verif.Spec.Cli
import Verif.Spec.Gateway
/-!
# The command line on a real gateway
-/
namespace SL

/-- The history of a gateway whose user makes these calls one after the other, waiting for each: `W n` is what happens while the
call number `n` is under way (replies, pushes, losses, timers, ...). -/
def history (W : Nat → List Ev) : Nat → List Call → List Ev
  | _, [] => []
  | n, c :: cs => .call c :: (W n ++ history W (n + 1) cs)

/-- The gateway a program meets: a new gateway of the model, used by nobody else, where `W n` happens during the call number `n`.
A call that is not over by then is one during which the program is stopped. -/
def liveGate (E : Env) (clientId maxRetries : Int) (W : Nat → List Ev) : Gate := fun h c =>
  ((resultOf E clientId maxRetries (history W 0 (h.map (·.1))) c (W h.length)).getD (.error .cancelled),
   (after E clientId maxRetries (history W 0 (h.map (·.1)) ++ .call c :: W h.length)).g.data)

/-- What `get_data()` and `get_debug()` of that gateway return after these calls. -/
def liveData (E : Env) (clientId maxRetries : Int) (W : Nat → List Ev) (h : List (Call × Except PyErr Res)) : Val × Val :=
  ((after E clientId maxRetries (history W 0 (h.map (·.1)))).g.data, (after E clientId maxRetries (history W 0 (h.map (·.1)))).g.last)

/-- Nobody but the program calls the gateway. -/
def NoOtherCalls (W : Nat → List Ev) : Prop := ∀ n a, Ev.call a ∉ W n

/-- The whole history of a run. -/
def Run.history {α : Type} (W : Nat → List Ev) (r : Run α) : List Ev := SL.history W 0 (r.calls.map (·.1))

/-- The codes of the messages that change something: set heat temperature, press a button, set heat mode, colour lights, set the
chlorinator, set the chemistry, set the clock. -/
def changeCodes : List Int := [12528, 12530, 12538, 12556, 12576, 12594, 8112]

end SL
