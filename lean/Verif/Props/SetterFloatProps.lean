import Verif.Props.SetterProps
import Verif.Lemmas.Sample
/-!
# Setters with numbers that are not integers

The checks of the setters are comparisons, so floats pass them; the message is then refused by `struct.pack`.
-/
set_option linter.unusedVariables false

namespace SL

section
variable {E : Env} {clientId maxRetries : Int} {es : List Ev}

/-- On a connected gateway a setter whose values pass the checks but cannot be packed fails at once. -/
theorem setter_unpackable {a : Call} {f : Val → Except PyErr (Int × Except PyErr Bytes)} (hf : setterPlan E a = some f) {code : Int} {e : PyErr}
    (hp : f (after E clientId maxRetries es).g.data = .ok (code, .error e)) (he : e.isComm = false)
    (hc : (after E clientId maxRetries es).g.isConnected = true) : Refuses E clientId maxRetries es a e := by
  rw [Refuses, after_call]
  simp only [Sys.step, Sys.spawn]
  rw [settle_look, setter_look E hf, ← settle_look, hp]
  have hpr : ∃ c, (after E clientId maxRetries es).g.protocol = some c := by
    cases h : (after E clientId maxRetries es).g.protocol with
    | none => rw [Gw.isConnected, h] at hc; cases hc
    | some c => exact ⟨c, rfl⟩
  obtain ⟨c, hpr⟩ := hpr
  generalize (after E clientId maxRetries es).g = g at hc hpr
  generalize (after E clientId maxRetries es).tasks.length = t
  have : settle t (setterCo (.ok (code, .error e))) g = (.done (.error e), g) := by
    show settle t ((connectedRequest (ackRequest code (.error e))).bindE _) g = _
    simp only [connectedRequest, attemptRequest, asyncConnect]
    change settle t (Co.bindE (Co.tryExcept (Co.bindE (if g.isConnected then _ else _) _) _) _) g = _
    rw [if_pos hc]
    change settle t (Co.bindE (Co.tryExcept (match g.protocol with | some c => ackRequest code (.error e) c g.maxRetries | none => _) _) _) g = _
    rw [hpr]
    change settle t (Co.bindE (if e.isComm = true then _ else _) _) g = _
    rw [he]
    rfl
  rw [this]

/-- **C29** A float equal to the number of a known circuit passes the check (as it does in Python) and fails at packing: on a connected gateway the call
raises `struct.error` at once and does nothing. -/
theorem C29_float (circuit st : Nat) (hk : Known "circuit" circuit (after E clientId maxRetries es).g.data) (hst : st = 0 ∨ st = 1)
    (hc : (after E clientId maxRetries es).g.isConnected = true) :
    Refuses E clientId maxRetries es (.setCircuit (.flt ((circuit : Int) : Rat)) (.int st)) .structError := by
  have hv : validCircuitState (.int st) = true := by rcases hst with rfl | rfl <;> decide
  have hkn : knownIn "circuit" (.flt ((circuit : Int) : Rat)) (after E clientId maxRetries es).g.data = .ok true := by
    have := known_in.2 hk
    rw [← this]
    cases (after E clientId maxRetries es).g.data with
    | dict kv =>
      simp only [knownIn]
      cases aget (.s "circuit") kv with
      | none => rfl
      | some v =>
        cases v with
        | dict kv2 => simp [pyInDict]
        | _ => rfl
    | _ => rfl
  refine setter_unpackable (code := 12530) (f := _) rfl ?_ rfl hc
  simp only [hkn, requireE, hv]
  rfl

/-- **C30** A heat mode between two modes passes the check and fails at packing. -/
theorem C30_mode_float (body : Nat) (q : Rat) (hk : Known "body" body (after E clientId maxRetries es).g.data) (h0 : 0 ≤ q) (h5 : q < 5)
    (hb : body < 2 ^ 32) (hc : (after E clientId maxRetries es).g.isConnected = true) :
    Refuses E clientId maxRetries es (.setHeatMode (.int body) (.flt q)) .structError := by
  have hv : validHeatMode (.flt q) = .ok true := by
    simp only [validHeatMode, Val.num, Except.ok.injEq, Bool.and_eq_true, decide_eq_true_eq]
    exact ⟨h0, h5⟩
  refine setter_unpackable (code := 12538) (f := _) rfl ?_ rfl hc
  simp only [known_in.2 hk, requireE, hv]
  show Except.ok (12538, packObjs _) = _
  have h1 : ∃ b, packObj (.int body) = .ok b := by
    have := packU_ok_nat (n := 4) (v := body) (by omega)
    exact ⟨_, this⟩
  obtain ⟨b, h1⟩ := h1
  have h2 : packObjs [.int 0, .int body, .flt q] = .error .structError := by
    show (packObj (.int 0) >>= fun a => (packObj (.int body) >>= fun b => _) >>= fun c => _) = _
    rw [h1]
    rfl
  rw [h2]

-- The hypotheses are met: a connected gateway that knows circuit 505 and body 0.
example : Refuses sampleEnv 1 3 connectEvs (.setCircuit (.flt (((505 : Nat) : Int) : Rat)) (.int ((1 : Nat) : Int))) .structError :=
  C29_float 505 1 (by unfold Known; decide +kernel) (.inr rfl) (by decide +kernel)

end

end SL
