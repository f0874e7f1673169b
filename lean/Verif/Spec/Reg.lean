import Verif.Spec.Gateway
/-!
# Client registration
-/
namespace SL

/-- Task `t` has made a request with this code and still waits for its outcome. -/
def Outstanding (g : Gw) (t : Nat) (code : Int) : Prop := ∃ h c p, g.acts t = h ++ [.ask c code p]

/-- The log ends in a registration: some task has been sent the acknowledgement of its add-client request (12522), and no
remove-client request (12524) has been made by anyone since. -/
def AddedSince (log : List (Nat × Act)) : Prop :=
  ∃ pre t post h0 c p, log = pre ++ (t, Act.got (.ok (some []))) :: post ∧
    ((pre.filter (fun x => x.1 == t)).map (·.2)) = h0 ++ [.ask c 12522 p] ∧
    ∀ x ∈ post, ∀ c p, x.2 ≠ .ask c 12524 p

end SL
