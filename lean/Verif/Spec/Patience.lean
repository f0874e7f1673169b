import Verif.Spec.Timing
/-!
# Histories in which no timer goes off early
-/
namespace SL

/-- The pauses before the `k`-th repetition of a request: 1 s + 2 s + ... + k s. -/
def pauses : Nat → Nat
  | 0 => 0
  | k + 1 => pauses k + 1000 * (k + 1)

/-- The event is the end of a time: of the 2 s a request waits for its answer, or of its pause before the next attempt. -/
inductive RingsFor (c i : Nat) (r : Req) : Ev → Prop
  | answer (f : Nat) (h : r.phase = .waiting f false false) : RingsFor c i r (.net c (.timeout i))
  | pause (h : r.phase = .sleeping) : RingsFor c i r (.net c (.wake i))

/-- Time does not go back, and no timer of a request goes off early: not before the request has stayed as it is for as long as the timer was set to. -/
def Patient (E : Env) : Timed → List (Nat × Ev) → Prop
  | _, [] => True
  | x, (τ, ev) :: l => x.now ≤ τ ∧ (∀ c i r, x.s.g.theReq c i = some r → RingsFor c i r ev → x.req c i + r.dur ≤ τ) ∧ Patient E (x.step E τ ev) l

/-- None of the messages this request has sent on connection `c` has been answered. -/
def Gw.unheard (g : Gw) (c : Nat) (r : Req) : Prop :=
  ∀ x, g.conns[c]? = some x → ∀ f ∈ r.mine, ∀ m, x.w.p.futs[f]? ≠ some (.result m)

/-- Connection `c` is up. -/
def Gw.linkUp (g : Gw) (c : Nat) : Prop := ∃ x, g.conns[c]? = some x ∧ x.w.p.connected = true

/-- Connection `c` is up, and nobody has begun to close it. -/
def Gw.linkFine (g : Gw) (c : Nat) : Prop := ∃ x, g.conns[c]? = some x ∧ x.w.p.connected = true ∧ x.w.p.closing = false

/-- What has become of the `f`-th message sent on connection `c`. -/
def Gw.fut (g : Gw) (c f : Nat) : Option FutState := g.conns[c]?.bind (·.w.p.futs[f]?)

end SL
