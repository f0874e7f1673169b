import Verif.Lemmas.Sample
import Verif.Props.LookupProps
/-!
# C29–C34: the setters

Every statement is about a call made after an arbitrary history `es` of a new gateway (connects, polls, pushes,
other calls in progress, losses, ...), and `SendsExactly` about everything that may happen afterwards.
`SendsExactly` and `Refuses` are defined in Spec/Gateway.lean; `Val.look` follows dict keys.
-/
set_option linter.unusedVariables false

namespace SL
open Spec (u32)

section
variable {E : Env} {clientId maxRetries : Int} {es : List Ev}

theorem packObjs_nats (l : List Nat) (h : ∀ n ∈ l, n < 2 ^ 32) : packObjs (l.map (fun n : Nat => Val.int (n : Int))) = .ok (words l) := by
  induction l with
  | nil => rfl
  | cons n l ih =>
    have h1 := packU_ok_nat (n := 4) (v := n) (by have := h n (by simp); omega)
    have h2 := ih (fun m hm => h m (by simp [hm]))
    rw [← u32_eq] at h1
    simp only [List.map_cons, packObjs, packObj, h1, h2, Except_bind_ok, words, List.flatMap_cons]
    rfl

theorem length_words (l : List Nat) : (words l).length = 4 * l.length := by
  induction l with
  | nil => rfl
  | cons n l ih =>
    simp only [words, List.flatMap_cons, List.length_append, List.length_cons, length_u32] at ih ⊢
    omega

theorem packObjs_ok {l : List Val} {b : Bytes} (h : packObjs l = .ok b) :
    ∃ ns : List Nat, l = ns.map (fun n : Nat => Val.int (n : Int)) ∧ (∀ n ∈ ns, n < 2 ^ 32) ∧ b = words ns := by
  induction l generalizing b with
  | nil => cases h; exact ⟨[], rfl, by simp, rfl⟩
  | cons v l ih =>
    obtain ⟨b1, h1, h2⟩ := bind_ok h
    obtain ⟨b2, h3, h4⟩ := bind_ok h2
    obtain ⟨ns, rfl, hns, rfl⟩ := ih h3
    cases v with
    | int n =>
      obtain ⟨h5, h6, rfl⟩ := packU_eq_ok.1 h1
      obtain ⟨m, rfl⟩ := Int.eq_ofNat_of_zero_le h5
      cases h4
      refine ⟨m :: ns, rfl, fun k hk => ?_, ?_⟩
      · rcases List.mem_cons.1 hk with rfl | hk
        · omega
        · exact hns k hk
      · simp only [words, List.flatMap_cons, u32_eq, Int.toNat_natCast]
    | _ => cases h1

/-- The object `d` holds under the key `dev` a dict with the key `n`. -/
def Known (dev : String) (n : Int) (d : Val) : Prop := (d.look [.s dev, .i n]).isSome

theorem known_in {dev : String} {n : Int} {d : Val} : knownIn dev (.int n) d = .ok true ↔ Known dev n d := by
  simp only [knownIn, Known]
  cases d with
  | dict kv =>
    simp only [look_cons_dict]
    cases h : aget (.s dev) kv with
    | none => simp
    | some v =>
      cases v with
      | dict kv' =>
        simp only [pyInDict, Option.bind_some, look_cons_dict]
        cases aget (Key.i n) kv' <;> simp
      | _ => simp [Val.look]
  | _ => simp [Val.look]

theorem known_not {dev : String} {n : Int} {d : Val} {kv : List (Key × Val)} (ht : d.look [.s dev] = some (.dict kv)) (h : ¬ Known dev n d) :
    knownIn dev (.int n) d = .ok false := by
  cases hk : knownIn dev (.int n) d with
  | ok b =>
    cases b with
    | false => rfl
    | true => exact absurd (known_in.1 hk) h
  | error e =>
    exfalso
    cases d with
    | dict kv0 =>
      simp only [look_cons_dict] at ht
      simp only [knownIn] at hk
      cases h0 : aget (.s dev) kv0 with
      | none => rw [h0] at ht; cases ht
      | some v =>
        simp only [h0, Option.bind_some, look_nil, Option.some.injEq] at ht hk
        subst ht
        cases hk
    | _ => cases ht

/-- Whatever the argument is: a known one is a number that is a key of the table. -/
theorem known_any {dev : String} {v d : Val} {n : Nat} (hv : v = .int n) (h : knownIn dev v d = .ok true) : Known dev n d := by
  subst hv
  exact known_in.1 h

theorem sends {a : Call} {f : Val → Except PyErr (Int × Except PyErr Bytes)} (hf : setterPlan E a = some f) {code : Nat} {codeI : Int} {ns : List Nat}
    {vs : List Val} (hp : f (after E clientId maxRetries es).g.data = .ok (codeI, packObjs vs)) (hc : codeI = (code : Int))
    (hv : vs = ns.map (fun n : Nat => Val.int (n : Int))) (hn : ∀ n ∈ ns, n < 2 ^ 32) (hlt : code < 65536) (hl : ns.length < 10) :
    SendsExactly E clientId maxRetries es a code (words ns) := by
  subst hc
  rw [hv, packObjs_nats ns hn] at hp
  exact setter_sends hf hp hlt (by rw [length_words]; omega)

theorem only {a : Call} {f : Val → Except PyErr (Int × Except PyErr Bytes)} (hf : setterPlan E a = some f) {es2 : List Ev} {code : Int} {data : Bytes}
    (hm : (code, data) ∈ userAsks (actsOf E clientId maxRetries es a es2)) :
    f (after E clientId maxRetries es).g.data = .ok (code, .ok data) := by
  obtain ⟨code', data', hp, hall⟩ := setter_nothing hf es2 (fun h => by rw [h] at hm; cases hm)
  cases hall _ hm
  exact hp

theorem require_ok {b : Except PyErr Bool} {u : Unit} (h : requireE b = .ok u) : b = .ok true := by
  cases b with
  | error e => cases h
  | ok b =>
    cases b with
    | true => rfl
    | false => cases h

/-! ## C29: circuits -/

/-- **C29** A known circuit and a state 0 or 1: exactly the button-press message (code 12530; controller 0,
circuit, state). -/
theorem C29_sends (circuit st : Nat) (hk : Known "circuit" circuit (after E clientId maxRetries es).g.data) (hst : st = 0 ∨ st = 1)
    (hn : circuit < 2 ^ 32) :
    SendsExactly E clientId maxRetries es (.setCircuit (.int circuit) (.int st)) 12530 (words [0, circuit, st]) := by
  have hv : validCircuitState (.int st) = true := by rcases hst with rfl | rfl <;> decide
  refine sends (f := _) (ns := [0, circuit, st]) rfl (codeI := 12530) (vs := [.int 0, .int circuit, .int st]) ?_ rfl rfl ?_ (by decide) (by simp)
  · simp only [known_in.2 hk, requireE, hv]
    rfl
  · intro n hm
    simp only [List.mem_cons, List.not_mem_nil, or_false] at hm
    rcases hm with rfl | rfl | rfl
    · decide
    · exact hn
    · rcases hst with rfl | rfl <;> decide

/-- **C29** An unknown circuit, or a state that is not the number 0 or 1: `ValueError`, and nothing is sent.  (There is a table of
circuits as soon as a configuration or status message has been decoded.) -/
theorem C29_refuses (circuit : Int) (st : Val) {kv : List (Key × Val)}
    (ht : (after E clientId maxRetries es).g.data.look [.s "circuit"] = some (.dict kv))
    (h : ¬ Known "circuit" circuit (after E clientId maxRetries es).g.data ∨ st.num ≠ some 0 ∧ st.num ≠ some 1) :
    Refuses E clientId maxRetries es (.setCircuit (.int circuit) st) .valueError := by
  refine setter_refuses (f := _) rfl ?_
  by_cases hk : Known "circuit" circuit (after E clientId maxRetries es).g.data
  · have hv : validCircuitState st = false := by
      obtain ⟨h0, h1⟩ := h.resolve_left (fun x => x hk)
      simp [validCircuitState, h0, h1]
    simp only [known_in.2 hk, requireE, hv]
    rfl
  · simp only [known_not ht hk, requireE]
    rfl

/-- **C29** Before any table of circuits: `KeyError`, and nothing is sent. -/
theorem C29_no_table (circuit st : Val) {kv : List (Key × Val)} (hd : (after E clientId maxRetries es).g.data = .dict kv)
    (ht : aget (.s "circuit") kv = none) : Refuses E clientId maxRetries es (.setCircuit circuit st) .keyError := by
  refine setter_refuses (f := _) rfl ?_
  simp only [hd, knownIn, ht, requireE]
  rfl

theorem circuit_plan (circuit st : Val) {f : Val → Except PyErr (Int × Except PyErr Bytes)} (hf : setterPlan E (.setCircuit circuit st) = some f) (d0 : Val) (code : Int)
    (data : Bytes) (hp : f d0 = .ok (code, .ok data)) :
    ∃ n s : Nat, circuit = .int n ∧ st = .int s ∧ Known "circuit" n d0 ∧ (s = 0 ∨ s = 1) ∧
      n < 2 ^ 32 ∧ code = 12530 ∧ data = words [0, n, s] := by
  cases hf
  obtain ⟨_, h1, hp⟩ := bind_ok hp
  obtain ⟨_, h2, hp1⟩ := bind_ok hp
  simp only [Except.ok.injEq, Prod.mk.injEq] at hp1
  obtain ⟨rfl, hp2⟩ := hp1
  obtain ⟨ns, e, hlt, rfl⟩ := packObjs_ok hp2
  have h1 := require_ok h1
  have h2 := require_ok h2
  match ns, e, hlt with
  | [z, n, s], e, hlt =>
    simp only [List.map_cons, List.map_nil, List.cons.injEq, and_true, Val.int.injEq] at e
    obtain ⟨hz, rfl, rfl⟩ := e
    have hk := known_in.1 h1
    have hs : validCircuitState (.int s) = true := by simpa using h2
    refine ⟨n, s, rfl, rfl, hk, ?_, hlt n (by simp), rfl, ?_⟩
    · simp only [validCircuitState, Val.num, Bool.or_eq_true, beq_iff_eq, Option.some.injEq] at hs
      have h0 : ((s : Int) : Rat) = ((0 : Int) : Rat) ∨ ((s : Int) : Rat) = ((1 : Int) : Rat) := hs
      rw [Rat.intCast_inj, Rat.intCast_inj] at h0
      omega
    · obtain rfl : z = 0 := by omega
      rfl

/-- **C29** Whatever the two arguments are (any Python objects): if the call ever makes a request, they are a
known circuit and 0 or 1, and the request is that button press. -/
theorem C29_only (circuit st : Val) (es2 : List Ev) (code : Int) (data : Bytes)
    (hm : (code, data) ∈ userAsks (actsOf E clientId maxRetries es (.setCircuit circuit st) es2)) :
    ∃ n s : Nat, circuit = .int n ∧ st = .int s ∧ Known "circuit" n (after E clientId maxRetries es).g.data ∧ (s = 0 ∨ s = 1) ∧
      n < 2 ^ 32 ∧ code = 12530 ∧ data = words [0, n, s] :=
  circuit_plan (E := E) circuit st rfl _ code data (only (a := .setCircuit circuit st) (f := _) rfl hm)

/-- The hypotheses are met after connecting: circuit 505 is known, circuit 506 is not. -/
example : Known "circuit" 505 (after sampleEnv 100 1 connectEvs).g.data ∧
    (∃ kv, (after sampleEnv 100 1 connectEvs).g.data.look [.s "circuit"] = some (.dict kv)) ∧
    ¬ Known "circuit" 506 (after sampleEnv 100 1 connectEvs).g.data ∧
    (∃ c x, (after sampleEnv 100 1 connectEvs).g.protocol = some c ∧ (after sampleEnv 100 1 connectEvs).g.conns[c]? = some x ∧ x.isOpen) := by
  refine ⟨by unfold Known; decide +kernel, ?_, by unfold Known; decide +kernel, ?_⟩
  · have : (match (after sampleEnv 100 1 connectEvs).g.data.look [.s "circuit"] with | some (.dict _) => true | _ => false) = true := by
      decide +kernel
    split at this
    · rename_i kv h; exact ⟨kv, h⟩
    · cases this
  · have : (match (after sampleEnv 100 1 connectEvs).g.protocol with
      | some c => match (after sampleEnv 100 1 connectEvs).g.conns[c]? with
        | some x => x.w.p.connected && !x.w.p.closing && !x.w.p.tclosing
        | none => false
      | none => false) = true := by decide +kernel
    split at this
    · rename_i c hc
      split at this
      · rename_i x hx
        simp only [Bool.and_eq_true, Bool.not_eq_true'] at this
        exact ⟨c, x, hc, hx, this.1.1, this.1.2, this.2⟩
      · cases this
    · cases this

/-! ## C30: heat temperature, heat mode, colour lights -/

theorem getData_look (strict : Bool) {p : Path} {d v : Val} (h : d.look p = some v) (hv : v ≠ .null) : getData strict p d = .ok v := by
  induction p generalizing d with
  | nil => simpa [getData] using h
  | cons k ks ih =>
    cases d with
    | dict kv =>
      rw [look_cons_dict] at h
      cases ha : aget k kv with
      | none => rw [ha] at h; cases h
      | some w =>
        simp only [ha, Option.bind_some] at h
        have hw : w ≠ .null := by
          rintro rfl
          cases ks with
          | nil => simp only [look_nil, Option.some.injEq] at h; exact hv h.symm
          | cons => cases h
        simp only [getData, getNext, ha, Option.getD_some, if_neg hw]
        exact ih h
    | _ => cases h

theorem rat_le {a b : Int} : ((a : Rat) ≤ (b : Rat)) ↔ a ≤ b := Rat.intCast_le_intCast

theorem validTemp {body : Int} {temp d : Val} {lo hi : Int} {q : Rat} (hlo : d.look [.s "body", .i body, .s "min_setpoint"] = some (.int lo))
    (hhi : d.look [.s "body", .i body, .s "max_setpoint"] = some (.int hi)) (hq : temp.num = some q) :
    validHeatTemp (.int body) temp d = .ok (decide ((lo : Rat) ≤ q ∧ q ≤ hi)) := by
  have h1 := getData_look false hlo (by simp)
  have h2 := getData_look false hhi (by simp)
  have n1 : (Val.int lo).num = some (lo : Rat) := rfl
  have n2 : (Val.int hi).num = some (hi : Rat) := rfl
  simp only [validHeatTemp, pyInt, Except_bind_ok, h1, h2, hq, n1, n2]
  by_cases h : (lo : Rat) ≤ q
  · simp only [if_pos h]
    simp [h]
    rfl
  · simp only [if_neg h]
    simp [h]
    rfl

theorem known_of_look {dev : String} {n : Int} {k : Key} {d v : Val} (h : d.look [.s dev, .i n, k] = some v) : Known dev n d := by
  have : d.look ([.s dev, .i n] ++ [k]) = some v := h
  rw [look_append] at this
  simp only [Known]
  cases hd : d.look [.s dev, .i n] with
  | none => rw [hd] at this; cases this
  | some w => rfl

theorem three_lt {a b : Nat} (ha : a < 2 ^ 32) (hb : b < 2 ^ 32) : ∀ n ∈ [0, a, b], n < 2 ^ 32 := by
  intro n hm
  simp only [List.mem_cons, List.not_mem_nil, or_false] at hm
  rcases hm with rfl | rfl | rfl
  · decide
  · exact ha
  · exact hb

/-- **C30** A temperature within the body's limits: exactly the heat set point message (code 12528; 0, body, temperature). -/
theorem C30_temp_sends (body temp : Nat) (lo hi : Int)
    (hlo : (after E clientId maxRetries es).g.data.look [.s "body", .i body, .s "min_setpoint"] = some (.int lo))
    (hhi : (after E clientId maxRetries es).g.data.look [.s "body", .i body, .s "max_setpoint"] = some (.int hi))
    (h1 : lo ≤ temp) (h2 : (temp : Int) ≤ hi) (hb : body < 2 ^ 32) (ht : temp < 2 ^ 32) :
    SendsExactly E clientId maxRetries es (.setHeatTemp (.int body) (.int temp)) 12528 (words [0, body, temp]) := by
  refine sends (f := _) (ns := [0, body, temp]) rfl (codeI := 12528) (vs := [.int 0, .int body, .int temp]) ?_ rfl rfl (three_lt hb ht) (by decide) (by simp)
  simp only [known_in.2 (known_of_look hlo), validTemp (temp := .int temp) (q := ((temp : Int) : Rat)) hlo hhi rfl, requireE]
  have : ((lo : Rat) ≤ ((temp : Int) : Rat) ∧ ((temp : Int) : Rat) ≤ hi) := ⟨rat_le.2 h1, rat_le.2 h2⟩
  simp only [decide_eq_true this]
  rfl

/-- **C30** A temperature outside the body's limits: `ValueError`, nothing is sent. -/
theorem C30_temp_refuses (body : Int) (temp : Val) (q : Rat) (lo hi : Int) (hq : temp.num = some q)
    (hlo : (after E clientId maxRetries es).g.data.look [.s "body", .i body, .s "min_setpoint"] = some (.int lo))
    (hhi : (after E clientId maxRetries es).g.data.look [.s "body", .i body, .s "max_setpoint"] = some (.int hi))
    (h : q < lo ∨ (hi : Rat) < q) : Refuses E clientId maxRetries es (.setHeatTemp (.int body) temp) .valueError := by
  refine setter_refuses (f := _) rfl ?_
  simp only [known_in.2 (known_of_look hlo), validTemp hlo hhi hq, requireE]
  have : ¬ ((lo : Rat) ≤ q ∧ q ≤ hi) := by
    rintro ⟨a, b⟩
    rcases h with h | h
    · exact absurd a (Rat.not_le.2 h)
    · exact absurd b (Rat.not_le.2 h)
  simp only [decide_eq_false this]
  rfl

/-- **C30** An unknown body: `ValueError`, nothing is sent. -/
theorem C30_body_refuses (body : Int) (x : Val) {kv : List (Key × Val)}
    (ht : (after E clientId maxRetries es).g.data.look [.s "body"] = some (.dict kv))
    (hk : ¬ Known "body" body (after E clientId maxRetries es).g.data) :
    Refuses E clientId maxRetries es (.setHeatTemp (.int body) x) .valueError ∧
    Refuses E clientId maxRetries es (.setHeatMode (.int body) x) .valueError := by
  constructor <;>
  · refine setter_refuses (f := _) rfl ?_
    simp only [known_not ht hk, requireE]
    rfl

/-- **C30** Before any table of bodies: `KeyError`, nothing is sent. -/
theorem C30_no_table (body x : Val) {kv : List (Key × Val)} (hd : (after E clientId maxRetries es).g.data = .dict kv)
    (ht : aget (.s "body") kv = none) :
    Refuses E clientId maxRetries es (.setHeatTemp body x) .keyError ∧ Refuses E clientId maxRetries es (.setHeatMode body x) .keyError := by
  constructor <;>
  · refine setter_refuses (f := _) rfl ?_
    simp only [hd, knownIn, ht, requireE]
    rfl

theorem three_ok {code : Int} {data : Bytes} {c0 : Int} {a b : Val}
    (h : (Except.ok (c0, packObjs [.int 0, a, b]) : Except PyErr (Int × Except PyErr Bytes)) = .ok (code, .ok data)) :
    ∃ m n : Nat, a = .int m ∧ b = .int n ∧ m < 2 ^ 32 ∧ n < 2 ^ 32 ∧ code = c0 ∧ data = words [0, m, n] := by
  simp only [Except.ok.injEq, Prod.mk.injEq] at h
  obtain ⟨rfl, h⟩ := h
  obtain ⟨ns, e, hlt, rfl⟩ := packObjs_ok h
  match ns, e, hlt with
  | [z, m, n], e, hlt =>
    simp only [List.map_cons, List.map_nil, List.cons.injEq, and_true, Val.int.injEq] at e
    obtain ⟨hz, rfl, rfl⟩ := e
    obtain rfl : z = 0 := by omega
    exact ⟨m, n, rfl, rfl, hlt m (by simp), hlt n (by simp), rfl, rfl⟩

theorem temp_plan (body temp : Val) {f : Val → Except PyErr (Int × Except PyErr Bytes)} (hf : setterPlan E (.setHeatTemp body temp) = some f) (d0 : Val) (code : Int)
    (data : Bytes) (hp : f d0 = .ok (code, .ok data)) :
    ∃ (b t : Nat) (lo hi : Val) (l h : Rat), body = .int b ∧ temp = .int t ∧ Known "body" b d0 ∧
      getData false [.s "body", .i b, .s "min_setpoint"] d0 = .ok lo ∧
      getData false [.s "body", .i b, .s "max_setpoint"] d0 = .ok hi ∧
      lo.num = some l ∧ hi.num = some h ∧ l ≤ (t : Int) ∧ ((t : Int) : Rat) ≤ h ∧ b < 2 ^ 32 ∧ t < 2 ^ 32 ∧ code = 12528 ∧ data = words [0, b, t] := by
  cases hf
  obtain ⟨_, h1, hp⟩ := bind_ok hp
  obtain ⟨_, h2, hp1⟩ := bind_ok hp
  obtain ⟨b, t, rfl, rfl, hb32, ht32, hc, hd⟩ := three_ok hp1
  have h1 := known_in.1 (require_ok h1)
  have h2 := require_ok h2
  simp only [validHeatTemp, pyInt, Except_bind_ok] at h2
  obtain ⟨lo, hlo, h2⟩ := bind_ok h2
  obtain ⟨hi, hhi, h2⟩ := bind_ok h2
  simp only [Val.num] at h2
  cases hl : lo.num with
  | none => simp only [Val.num] at hl; simp only [hl] at h2; cases h2
  | some l =>
    simp only [Val.num] at hl
    simp only [hl] at h2
    split at h2
    · rename_i hle
      cases hh : hi.num with
      | none => simp only [Val.num] at hh; simp only [hh] at h2; cases h2
      | some h =>
        simp only [Val.num] at hh
        simp only [hh] at h2
        have : decide (((t : Int) : Rat) ≤ h) = true := Except.ok.inj h2
        exact ⟨b, t, lo, hi, l, h, rfl, rfl, h1, hlo, hhi, hl, hh, hle, of_decide_eq_true this, hb32, ht32, hc, hd⟩
    · cases h2

/-- **C30** Whatever the arguments are: if the call ever makes a request, the body is known, the temperature lies between the
limits `get_data` finds for that body, and the request is that message. -/
theorem C30_temp_only (body temp : Val) (es2 : List Ev) (code : Int) (data : Bytes)
    (hm : (code, data) ∈ userAsks (actsOf E clientId maxRetries es (.setHeatTemp body temp) es2)) :
    ∃ (b t : Nat) (lo hi : Val) (l h : Rat), body = .int b ∧ temp = .int t ∧ Known "body" b (after E clientId maxRetries es).g.data ∧
      getData false [.s "body", .i b, .s "min_setpoint"] (after E clientId maxRetries es).g.data = .ok lo ∧
      getData false [.s "body", .i b, .s "max_setpoint"] (after E clientId maxRetries es).g.data = .ok hi ∧
      lo.num = some l ∧ hi.num = some h ∧ l ≤ (t : Int) ∧ ((t : Int) : Rat) ≤ h ∧ b < 2 ^ 32 ∧ t < 2 ^ 32 ∧ code = 12528 ∧ data = words [0, b, t] :=
  temp_plan (E := E) body temp rfl _ code data (only (a := .setHeatTemp body temp) (f := _) rfl hm)

/-- **C30** A known body and a mode 0..4: exactly the heat mode message (code 12538; 0, body, mode). -/
theorem C30_mode_sends (body mode : Nat) (hk : Known "body" body (after E clientId maxRetries es).g.data) (hm : mode < 5) (hb : body < 2 ^ 32) :
    SendsExactly E clientId maxRetries es (.setHeatMode (.int body) (.int mode)) 12538 (words [0, body, mode]) := by
  refine sends (f := _) (ns := [0, body, mode]) rfl (codeI := 12538) (vs := [.int 0, .int body, .int mode]) ?_ rfl rfl (three_lt hb (by omega)) (by decide) (by simp)
  have hv : ∀ m : Nat, m < 5 → validHeatMode (.int m) = .ok true := by decide +kernel
  simp only [known_in.2 hk, hv mode hm, requireE]
  rfl

/-- **C30** A number outside 0..4 (at least 5, or negative): `ValueError`, nothing is sent. -/
theorem C30_mode_refuses (body : Int) (mode : Val) (q : Rat) (hk : Known "body" body (after E clientId maxRetries es).g.data)
    (hq : mode.num = some q) (h : q < 0 ∨ 5 ≤ q) : Refuses E clientId maxRetries es (.setHeatMode (.int body) mode) .valueError := by
  refine setter_refuses (f := _) rfl ?_
  have hv : validHeatMode mode = .ok false := by
    simp only [validHeatMode, hq, Except.ok.injEq, Bool.and_eq_false_iff, decide_eq_false_iff_not]
    rcases h with h | h
    · exact .inl (Rat.not_le.2 h)
    · exact .inr (Rat.not_lt.2 h)
  simp only [known_in.2 hk, hv, requireE]
  rfl

theorem mode_plan (body mode : Val) {f : Val → Except PyErr (Int × Except PyErr Bytes)} (hf : setterPlan E (.setHeatMode body mode) = some f) (d0 : Val) (code : Int)
    (data : Bytes) (hp : f d0 = .ok (code, .ok data)) :
    ∃ b m : Nat, body = .int b ∧ mode = .int m ∧ Known "body" b d0 ∧ m < 5 ∧
      b < 2 ^ 32 ∧ code = 12538 ∧ data = words [0, b, m] := by
  cases hf
  obtain ⟨_, h1, hp⟩ := bind_ok hp
  obtain ⟨_, h2, hp1⟩ := bind_ok hp
  obtain ⟨b, m, rfl, rfl, hb32, -, hc, hd⟩ := three_ok hp1
  refine ⟨b, m, rfl, rfl, known_in.1 (require_ok h1), ?_, hb32, hc, hd⟩
  have h2 := require_ok h2
  simp only [validHeatMode, Val.num, Except.ok.injEq, Bool.and_eq_true, decide_eq_true_eq] at h2
  have : ((m : Int) : Rat) < ((5 : Int) : Rat) := h2.2
  rw [Rat.intCast_lt_intCast] at this
  omega

/-- **C30** Whatever the arguments are: if the call ever makes a request, the body is known, the mode is 0..4, and the request is that message. -/
theorem C30_mode_only (body mode : Val) (es2 : List Ev) (code : Int) (data : Bytes)
    (hm : (code, data) ∈ userAsks (actsOf E clientId maxRetries es (.setHeatMode body mode) es2)) :
    ∃ b m : Nat, body = .int b ∧ mode = .int m ∧ Known "body" b (after E clientId maxRetries es).g.data ∧ m < 5 ∧
      b < 2 ^ 32 ∧ code = 12538 ∧ data = words [0, b, m] :=
  mode_plan (E := E) body mode rfl _ code data (only (a := .setHeatMode body mode) (f := _) rfl hm)

/-- **C30** A light command 0..21: exactly the colour lights message (code 12556; 0, command). -/
theorem C30_lights_sends (cmd : Nat) (hm : cmd ≤ 21) :
    SendsExactly E clientId maxRetries es (.setColorLights (.int cmd)) 12556 (words [0, cmd]) := by
  refine sends (f := _) (ns := [0, cmd]) rfl (codeI := 12556) (vs := [.int 0, .int cmd]) ?_ rfl rfl ?_ (by decide) (by simp)
  · have hv : ∀ m : Nat, m < 22 → pyBetween 0 (.int m) 21 = .ok true := by decide +kernel
    simp only [hv cmd (by omega), requireE]
    rfl
  · intro n hn
    simp only [List.mem_cons, List.not_mem_nil, or_false] at hn
    omega

/-- **C30** A number outside 0..21: `ValueError`, nothing is sent. -/
theorem C30_lights_refuses (cmd : Val) (q : Rat) (hq : cmd.num = some q) (h : q < 0 ∨ 21 < q) :
    Refuses E clientId maxRetries es (.setColorLights cmd) .valueError := by
  refine setter_refuses (f := _) rfl ?_
  have hv : pyBetween 0 cmd 21 = .ok false := by
    simp only [pyBetween, hq, Except.ok.injEq, Bool.and_eq_false_iff, decide_eq_false_iff_not]
    rcases h with h | h
    · exact .inl (Rat.not_le.2 h)
    · exact .inr (Rat.not_le.2 h)
  simp only [hv, requireE]
  rfl

theorem lights_plan (cmd : Val) {f : Val → Except PyErr (Int × Except PyErr Bytes)} (hf : setterPlan E (.setColorLights cmd) = some f) (d0 : Val) (code : Int)
    (data : Bytes) (hp : f d0 = .ok (code, .ok data)) :
    ∃ n : Nat, cmd = .int n ∧ n ≤ 21 ∧ code = 12556 ∧ data = words [0, n] := by
  cases hf
  obtain ⟨_, h1, hp1⟩ := bind_ok hp
  simp only [Except.ok.injEq, Prod.mk.injEq] at hp1
  obtain ⟨rfl, hp2⟩ := hp1
  obtain ⟨ns, e, hlt, rfl⟩ := packObjs_ok hp2
  match ns, e, hlt with
  | [z, n], e, hlt =>
    simp only [List.map_cons, List.map_nil, List.cons.injEq, and_true, Val.int.injEq] at e
    obtain ⟨hz, rfl⟩ := e
    obtain rfl : z = 0 := by omega
    refine ⟨n, rfl, ?_, rfl, rfl⟩
    have h1 := require_ok h1
    simp only [pyBetween, Val.num, Except.ok.injEq, Bool.and_eq_true, decide_eq_true_eq] at h1
    have : ((n : Int) : Rat) ≤ ((21 : Int) : Rat) := h1.2
    rw [rat_le] at this
    omega

/-- **C30** Whatever the argument is: if the call ever makes a request, the command is 0..21 and the request is that message. -/
theorem C30_lights_only (cmd : Val) (es2 : List Ev) (code : Int) (data : Bytes)
    (hm : (code, data) ∈ userAsks (actsOf E clientId maxRetries es (.setColorLights cmd) es2)) :
    ∃ n : Nat, cmd = .int n ∧ n ≤ 21 ∧ code = 12556 ∧ data = words [0, n] :=
  lights_plan (E := E) cmd rfl (after E clientId maxRetries es).g.data code data (only (a := .setColorLights cmd) (f := _) rfl hm)

/-! ## C31, C32: the chlorinator -/

/-- The value a setter uses for an argument: the argument itself, or if it was left out (`None`) what
`get_value(*path, strict=True)` finds in the cached data. -/
def Takes (arg : Val) (p : Path) (d v : Val) : Prop := (arg ≠ .null ∧ v = arg) ∨ (arg = .null ∧ getValue true p d = .ok v)

/-- The argument was left out and `get_value(*path, strict=True)` finds nothing. -/
def Lacks (arg : Val) (p : Path) (d : Val) : Prop := arg = .null ∧ ∀ v, getValue true p d ≠ .ok v

theorem getValue_error {p : Path} {d : Val} {e : PyErr} (h : getValue true p d = .error e) : e = .keyError := by
  have hd : ∀ (p : Path) (d : Val) (e : PyErr), getData true p d = .error e → e = .keyError := by
    intro p
    induction p with
    | nil => intro d e h; cases h
    | cons k ks ih =>
      intro d e h
      simp only [getData] at h
      split at h
      · cases h; rfl
      · exact ih _ _ h
  simp only [getValue, getAttr] at h
  split at h
  · rename_i e' h'; cases h; exact hd _ _ _ h'
  · split at h <;> simp at h <;> exact h.symm
  · simp at h; exact h.symm

theorem takes_iff {arg : Val} {p : Path} {d v : Val} : orCached arg p d = .ok v ↔ Takes arg p d v := by
  unfold orCached Takes
  by_cases h : arg = .null
  · simp [h]
  · simp [h]; exact eq_comm

theorem lacks_iff {arg : Val} {p : Path} {d : Val} : orCached arg p d = .error .keyError ↔ Lacks arg p d := by
  unfold orCached Lacks
  by_cases h : arg = .null
  · simp only [h, if_true, true_and]
    constructor
    · intro h1 v h2; rw [h1] at h2; cases h2
    · intro h1
      cases h2 : getValue true p d with
      | ok v => exact absurd h2 (h1 v)
      | error e => rw [getValue_error h2]
  · simp [h]

theorem takes_or_lacks (arg : Val) (p : Path) (d : Val) : (∃ v, Takes arg p d v) ∨ Lacks arg p d := by
  by_cases h : arg = .null
  · by_cases h2 : ∃ v, getValue true p d = .ok v
    · exact .inl (h2.imp fun v hv => .inr ⟨h, hv⟩)
    · exact .inr ⟨h, fun v hv => h2 ⟨v, hv⟩⟩
  · exact .inl ⟨arg, .inl ⟨h, rfl⟩⟩

theorem check_ok {lo hi : Rat} {v : Val} : checkRange lo hi v = .ok () ↔ ∃ q, v.num = some q ∧ lo ≤ q ∧ q ≤ hi := by
  simp only [checkRange, pyBetween]
  cases h : v.num with
  | none => simp only [reduceCtorEq, false_and, exists_false, iff_false]; intro h; cases h
  | some q =>
    simp only [Option.some.injEq, exists_eq_left']
    by_cases h1 : lo ≤ q <;> by_cases h2 : q ≤ hi <;> simp [h1, h2, Except_bind_ok] <;> first | rfl | (intro h; cases h)

theorem check_bad {lo hi : Rat} {v : Val} {q : Rat} (hq : v.num = some q) (h : q < lo ∨ hi < q) : checkRange lo hi v = .error .valueError := by
  simp only [checkRange, pyBetween, hq]
  rcases h with h | h
  · simp [Rat.not_le.2 h, Except_bind_ok]
  · simp [Rat.not_le.2 h, Except_bind_ok]

/-- A number in `lo..hi`, or a number at all. -/
theorem check_num {lo hi : Rat} {v : Val} {q : Rat} (hq : v.num = some q) :
    checkRange lo hi v = .ok () ∨ checkRange lo hi v = .error .valueError := by
  by_cases h1 : lo ≤ q
  · by_cases h2 : q ≤ hi
    · exact .inl (check_ok.2 ⟨q, hq, h1, h2⟩)
    · exact .inr (check_bad hq (.inr (Rat.not_le.1 h2)))
  · exact .inr (check_bad hq (.inl (Rat.not_le.1 h1)))

/-- Where the chlorinator settings are cached. -/
def poolSetpoint : Path := [.s "scg", .s "configuration", .s "pool_setpoint"]
/-- See `poolSetpoint`. -/
def spaSetpoint : Path := [.s "scg", .s "configuration", .s "spa_setpoint"]
/-- See `poolSetpoint`. -/
def superChlorinate : Path := [.s "scg", .s "super_chlorinate"]
/-- See `poolSetpoint`. -/
def superTimer : Path := [.s "scg", .s "configuration", .s "super_chlor_timer"]

/-- **C31** Each setting given or cached, in range: exactly the chlorinator message (code 12576; 0, pool, spa,
super chlorination, hours). -/
theorem C31_sends (pool spa chlor timer : Val) (p s c t : Nat) (hp : Takes pool poolSetpoint (after E clientId maxRetries es).g.data (.int p))
    (hs : Takes spa spaSetpoint (after E clientId maxRetries es).g.data (.int s))
    (hc : Takes chlor superChlorinate (after E clientId maxRetries es).g.data (.int c))
    (ht : Takes timer superTimer (after E clientId maxRetries es).g.data (.int t))
    (hp1 : p ≤ 100) (hs1 : s ≤ 100) (hc1 : c ≤ 1) (ht1 : t ≤ 72) :
    SendsExactly E clientId maxRetries es (.setScg pool spa chlor timer) 12576 (words [0, p, s, c, t]) := by
  refine sends (f := _) (ns := [0, p, s, c, t]) rfl (codeI := 12576) (vs := [.int 0, .int p, .int s, .int c, .int t]) ?_ rfl rfl ?_ (by decide) (by simp)
  · have h1 : checkRange 0 100 (.int p) = .ok () := check_ok.2 ⟨_, rfl, rat_le (a := 0) (b := p) |>.2 (by omega), rat_le (b := 100).2 (by omega)⟩
    have h2 : checkRange 0 100 (.int s) = .ok () := check_ok.2 ⟨_, rfl, rat_le (a := 0) (b := s) |>.2 (by omega), rat_le (b := 100).2 (by omega)⟩
    have h3 : checkRange 0 72 (.int t) = .ok () := check_ok.2 ⟨_, rfl, rat_le (a := 0) (b := t) |>.2 (by omega), rat_le (b := 72).2 (by omega)⟩
    have h4 : parseOnOff E.uni (.int c) = .ok (.int c) := by
      have : ∀ c : Nat, c < 2 → (Except.ok (Val.int ((enOnOff.parseInt c).getD 0)) : Except PyErr Val) = .ok (.int c) := by decide +kernel
      exact this c (by omega)
    have hv : scgValues E pool spa chlor timer (after E clientId maxRetries es).g.data = .ok (.int p, .int s, .int c, .int t) := by
      have hp := takes_iff.2 hp
      have hs := takes_iff.2 hs
      have hc := takes_iff.2 hc
      have ht := takes_iff.2 ht
      simp only [poolSetpoint, spaSetpoint, superChlorinate, superTimer] at hp hs hc ht
      simp only [scgValues, hp, hs, hc, ht, Except_bind_ok, h1, h2, h3, h4]
      rfl
    simp only [hv, asScreenLogic]
    rfl
  · intro n hn
    simp only [List.mem_cons, List.not_mem_nil, or_false] at hn
    omega

theorem asSL_key {α : Type} : asScreenLogic (.error .keyError : Except PyErr α) = .error .slError := rfl
theorem asSL_value {α : Type} : asScreenLogic (.error .valueError : Except PyErr α) = .error .slError := rfl

/-- **C31** A setting neither given nor cached: `ScreenLogicError`, nothing is sent. -/
theorem C31_missing (pool spa chlor timer : Val)
    (h : Lacks pool poolSetpoint (after E clientId maxRetries es).g.data ∨ Lacks spa spaSetpoint (after E clientId maxRetries es).g.data ∨
      Lacks chlor superChlorinate (after E clientId maxRetries es).g.data ∨ Lacks timer superTimer (after E clientId maxRetries es).g.data) :
    Refuses E clientId maxRetries es (.setScg pool spa chlor timer) .slError := by
  refine setter_refuses (f := _) rfl ?_
  have hv : scgValues E pool spa chlor timer (after E clientId maxRetries es).g.data = .error .keyError := by
    rcases takes_or_lacks pool poolSetpoint (after E clientId maxRetries es).g.data with ⟨p, hp⟩ | hp
    · have hp := takes_iff.2 hp
      simp only [poolSetpoint] at hp
      rcases takes_or_lacks spa spaSetpoint (after E clientId maxRetries es).g.data with ⟨s, hs⟩ | hs
      · have hs := takes_iff.2 hs
        simp only [spaSetpoint] at hs
        rcases takes_or_lacks chlor superChlorinate (after E clientId maxRetries es).g.data with ⟨c, hc⟩ | hc
        · have hc := takes_iff.2 hc
          simp only [superChlorinate] at hc
          have ht : orCached timer superTimer (after E clientId maxRetries es).g.data = .error .keyError := by
            rcases h with h | h | h | h
            · exact absurd (lacks_iff.2 h) (by simp [poolSetpoint, hp])
            · exact absurd (lacks_iff.2 h) (by simp [spaSetpoint, hs])
            · exact absurd (lacks_iff.2 h) (by simp [superChlorinate, hc])
            · exact lacks_iff.2 h
          simp only [superTimer] at ht
          simp only [scgValues, hp, hs, hc, ht, Except_bind_ok]
          rfl
        · have hc := lacks_iff.2 hc
          simp only [superChlorinate] at hc
          simp only [scgValues, hp, hs, hc, Except_bind_ok]
          rfl
      · have hs := lacks_iff.2 hs
        simp only [spaSetpoint] at hs
        simp only [scgValues, hp, hs, Except_bind_ok]
        rfl
    · have hp := lacks_iff.2 hp
      simp only [poolSetpoint] at hp
      simp only [scgValues, hp]
      rfl
  simp only [hv, asSL_key]
  rfl

/-- **C31** Numbers, but one of them out of range: `ScreenLogicError`, nothing is sent. -/
theorem C31_refuses (pool spa chlor timer : Val) (p s t : Val) (c : Int) (qp qs qt : Rat)
    (hp : Takes pool poolSetpoint (after E clientId maxRetries es).g.data p)
    (hs : Takes spa spaSetpoint (after E clientId maxRetries es).g.data s)
    (hc : Takes chlor superChlorinate (after E clientId maxRetries es).g.data (.int c))
    (ht : Takes timer superTimer (after E clientId maxRetries es).g.data t)
    (hqp : p.num = some qp) (hqs : s.num = some qs) (hqt : t.num = some qt)
    (h : qp < 0 ∨ 100 < qp ∨ qs < 0 ∨ 100 < qs ∨ qt < 0 ∨ 72 < qt) :
    Refuses E clientId maxRetries es (.setScg pool spa chlor timer) .slError := by
  refine setter_refuses (f := _) rfl ?_
  have hv : scgValues E pool spa chlor timer (after E clientId maxRetries es).g.data = .error .valueError := by
    have hp := takes_iff.2 hp
    have hs := takes_iff.2 hs
    have hc := takes_iff.2 hc
    have ht := takes_iff.2 ht
    simp only [poolSetpoint, spaSetpoint, superChlorinate, superTimer] at hp hs hc ht
    simp only [scgValues, hp, hs, hc, ht, Except_bind_ok, parseOnOff]
    rcases check_num (lo := 0) (hi := 100) hqp with h1 | h1
    · rcases check_num (lo := 0) (hi := 100) hqs with h2 | h2
      · have h3 : checkRange 0 72 t = .error .valueError := by
          obtain ⟨q1, e1, h11, h12⟩ := check_ok.1 h1
          obtain ⟨q2, e2, h21, h22⟩ := check_ok.1 h2
          rw [hqp] at e1; rw [hqs] at e2; cases e1; cases e2
          rcases h with h | h | h | h | h | h
          · exact absurd h11 (Rat.not_le.2 h)
          · exact absurd h12 (Rat.not_le.2 h)
          · exact absurd h21 (Rat.not_le.2 h)
          · exact absurd h22 (Rat.not_le.2 h)
          · exact check_bad hqt (.inl h)
          · exact check_bad hqt (.inr h)
        simp only [h1, h2, h3, Except_bind_ok]
        rfl
      · simp only [h1, h2, Except_bind_ok]
        rfl
    · simp only [h1]
      rfl
  simp only [hv, asSL_value]
  rfl

theorem asSL_ok {α : Type} {r : Except PyErr α} {v : α} (h : asScreenLogic r = .ok v) : r = .ok v := by
  cases r with
  | ok v' => exact h
  | error e => cases e <;> cases h

theorem words_five {c0 code : Int} {data : Bytes} {v1 v2 v3 v4 : Val}
    (h : (Except.ok (c0, packObjs [.int 0, v1, v2, v3, v4]) : Except PyErr (Int × Except PyErr Bytes)) = .ok (code, .ok data)) :
    ∃ a b c d : Nat, v1 = .int a ∧ v2 = .int b ∧ v3 = .int c ∧ v4 = .int d ∧ code = c0 ∧ data = words [0, a, b, c, d] := by
  simp only [Except.ok.injEq, Prod.mk.injEq] at h
  obtain ⟨rfl, h⟩ := h
  obtain ⟨ns, e, hlt, rfl⟩ := packObjs_ok h
  match ns, e, hlt with
  | [z, a, b, c, d], e, hlt =>
    simp only [List.map_cons, List.map_nil, List.cons.injEq, and_true, Val.int.injEq] at e
    obtain ⟨hz, rfl, rfl, rfl, rfl⟩ := e
    obtain rfl : z = 0 := by omega
    exact ⟨a, b, c, d, rfl, rfl, rfl, rfl, rfl, rfl⟩

theorem check_nat {lo hi n : Nat} (h : checkRange ((lo : Int) : Rat) ((hi : Int) : Rat) (.int n) = .ok ()) : lo ≤ n ∧ n ≤ hi := by
  obtain ⟨q, e, h1, h2⟩ := check_ok.1 h
  cases e
  have h1 := rat_le.1 h1
  have h2 := rat_le.1 h2
  omega

theorem onOff_only {U : UnicodeDb} {v w : Val} (h : parseOnOff U v = .ok w) : w = .int 0 ∨ w = .int 1 := by
  have hd : ∀ m : Int, (enOnOff.nameOf m).isSome → m = 0 ∨ m = 1 := by
    intro m hm
    simp only [EnumDef.nameOf, enOnOff, List.find?_cons] at hm
    by_cases h0 : (0 : Int) = m
    · exact .inl h0.symm
    · by_cases h1 : (1 : Int) = m
      · exact .inr h1.symm
      · simp only [beq_eq_false_iff_ne.2 h0, beq_eq_false_iff_ne.2 h1] at hm
        cases hm
  have hp : ∀ n : Int, (enOnOff.parseInt n).getD 0 = 0 ∨ (enOnOff.parseInt n).getD 0 = 1 := by
    intro n
    simp only [EnumDef.parseInt]
    split
    · rename_i h1; exact hd n h1
    · exact .inl (by decide)
  have hn : ∀ m : String, ∀ x, enOnOff.valueOf m = some x → x = 0 ∨ x = 1 := by
    intro m x hx
    simp only [EnumDef.valueOf, enOnOff, List.find?_cons, List.find?_nil] at hx
    split at hx
    · simp at hx; exact .inl hx.symm
    · split at hx
      · simp at hx; exact .inr hx.symm
      · simp at hx
  cases v with
  | int n => cases h; rcases hp n with h | h <;> rw [h] <;> simp
  | str s =>
    cases h
    simp only [EnumDef.parseStr]
    have h0 : (enOnOff.nameOf 0).isSome = true := by decide
    simp only [h0, if_true]
    split
    · split
      · split
        · rename_i h1; rcases hd _ h1 with rfl | rfl <;> simp
        · simp
      · simp
    · split
      · rename_i x hx; rcases hn _ _ hx with rfl | rfl <;> simp
      · simp
  | _ => cases h

theorem scg_plan (pool spa chlor timer : Val) {f : Val → Except PyErr (Int × Except PyErr Bytes)} (hf : setterPlan E (.setScg pool spa chlor timer) = some f) (d0 : Val) (code : Int)
    (data : Bytes) (hp : f d0 = .ok (code, .ok data)) :
    ∃ (p s c t : Nat) (v : Val), code = 12576 ∧ data = words [0, p, s, c, t] ∧ p ≤ 100 ∧ s ≤ 100 ∧ c ≤ 1 ∧ t ≤ 72 ∧
      Takes pool poolSetpoint d0 (.int p) ∧
      Takes spa spaSetpoint d0 (.int s) ∧
      Takes chlor superChlorinate d0 v ∧ (v = .int 0 ∨ v = .int 1 → v = .int c) ∧
      Takes timer superTimer d0 (.int t) := by
  cases hf
  obtain ⟨⟨v1, v2, v3, v4⟩, hv, hp⟩ := bind_ok hp
  obtain ⟨a, b, c, d, rfl, rfl, rfl, rfl, hc, hd⟩ := words_five hp
  have hv := asSL_ok hv
  obtain ⟨p, h1, hv⟩ := bind_ok hv
  obtain ⟨s, h2, hv⟩ := bind_ok hv
  obtain ⟨v, h3, hv⟩ := bind_ok hv
  obtain ⟨t, h4, hv⟩ := bind_ok hv
  obtain ⟨_, h5, hv⟩ := bind_ok hv
  obtain ⟨_, h6, hv⟩ := bind_ok hv
  obtain ⟨w, h7, hv⟩ := bind_ok hv
  obtain ⟨_, h8, hv⟩ := bind_ok hv
  cases hv
  refine ⟨a, b, c, d, v, hc, hd, (check_nat (lo := 0) (hi := 100) h5).2, (check_nat (lo := 0) (hi := 100) h6).2, ?_,
    (check_nat (lo := 0) (hi := 72) h8).2, takes_iff.1 h1, takes_iff.1 h2, takes_iff.1 h3, ?_, takes_iff.1 h4⟩
  · rcases onOff_only h7 with h | h <;> (have := Val.int.inj h; omega)
  · rintro (rfl | rfl)
    · have : parseOnOff E.uni (.int 0) = .ok (.int 0) := rfl
      rw [this] at h7; exact Except.ok.inj h7
    · have : parseOnOff E.uni (.int 1) = .ok (.int 1) := rfl
      rw [this] at h7; exact Except.ok.inj h7

/-- **C31** Whatever the arguments are: if the call ever makes a request, it is that message, with each setting as given,
or as cached if it was left out, and in range; **C32** (the true part) the super chlorination sent is 0 or 1, and it is the
given (or cached) one if that is 0 or 1. -/
theorem C31_only (pool spa chlor timer : Val) (es2 : List Ev) (code : Int) (data : Bytes)
    (hm : (code, data) ∈ userAsks (actsOf E clientId maxRetries es (.setScg pool spa chlor timer) es2)) :
    ∃ (p s c t : Nat) (v : Val), code = 12576 ∧ data = words [0, p, s, c, t] ∧ p ≤ 100 ∧ s ≤ 100 ∧ c ≤ 1 ∧ t ≤ 72 ∧
      Takes pool poolSetpoint (after E clientId maxRetries es).g.data (.int p) ∧
      Takes spa spaSetpoint (after E clientId maxRetries es).g.data (.int s) ∧
      Takes chlor superChlorinate (after E clientId maxRetries es).g.data v ∧ (v = .int 0 ∨ v = .int 1 → v = .int c) ∧
      Takes timer superTimer (after E clientId maxRetries es).g.data (.int t) :=
  scg_plan (E := E) pool spa chlor timer rfl _ code data (only (a := .setScg pool spa chlor timer) (f := _) rfl hm)

/-- **C32 is false**: any other number given for super chlorination is not refused but sent as 0 (off). -/
theorem C32_refuted (pool spa timer : Val) (n : Int) (p s t : Nat) (hn : n ≠ 0) (hn1 : n ≠ 1)
    (hp : Takes pool poolSetpoint (after E clientId maxRetries es).g.data (.int p))
    (hs : Takes spa spaSetpoint (after E clientId maxRetries es).g.data (.int s))
    (ht : Takes timer superTimer (after E clientId maxRetries es).g.data (.int t))
    (hp1 : p ≤ 100) (hs1 : s ≤ 100) (ht1 : t ≤ 72) :
    SendsExactly E clientId maxRetries es (.setScg pool spa (.int n) timer) 12576 (words [0, p, s, 0, t]) := by
  refine sends (f := _) (ns := [0, p, s, 0, t]) rfl (codeI := 12576) (vs := [.int 0, .int p, .int s, .int 0, .int t]) ?_ rfl rfl ?_ (by decide) (by simp)
  · have h1 : checkRange 0 100 (.int p) = .ok () := check_ok.2 ⟨_, rfl, rat_le (a := 0) (b := p) |>.2 (by omega), rat_le (b := 100).2 (by omega)⟩
    have h2 : checkRange 0 100 (.int s) = .ok () := check_ok.2 ⟨_, rfl, rat_le (a := 0) (b := s) |>.2 (by omega), rat_le (b := 100).2 (by omega)⟩
    have h3 : checkRange 0 72 (.int t) = .ok () := check_ok.2 ⟨_, rfl, rat_le (a := 0) (b := t) |>.2 (by omega), rat_le (b := 72).2 (by omega)⟩
    have h4 : parseOnOff E.uni (.int n) = .ok (.int 0) := by
      have : enOnOff.parseInt n = some 0 := by
        have h0 : (0 : Int) ≠ n := fun h => hn h.symm
        have h1 : (1 : Int) ≠ n := fun h => hn1 h.symm
        simp [EnumDef.parseInt, EnumDef.nameOf, enOnOff, h0, h1]
      simp [parseOnOff, this]
    have hv : scgValues E pool spa (.int n) timer (after E clientId maxRetries es).g.data = .ok (.int p, .int s, .int 0, .int t) := by
      have hp := takes_iff.2 hp
      have hs := takes_iff.2 hs
      have ht := takes_iff.2 ht
      have hc : orCached (.int n) [.s "scg", .s "super_chlorinate"] (after E clientId maxRetries es).g.data = .ok (.int n) := by simp [orCached]
      simp only [poolSetpoint, spaSetpoint, superTimer] at hp hs ht
      simp only [scgValues, hp, hs, hc, ht, Except_bind_ok, h1, h2, h3, h4]
      rfl
    simp only [hv, asScreenLogic]
    rfl
  · intro n hn
    simp only [List.mem_cons, List.not_mem_nil, or_false] at hn
    omega

/-- **C32**, the part that holds: whatever is given or cached, the state sent is 0 or 1, and it is the given one if that is 0 or 1.
Missing: a refusal of the other values (`C32_refuted`). -/
theorem C32_partial (pool spa timer : Val) (n : Int) (es2 : List Ev) (code : Int) (data : Bytes)
    (hm : (code, data) ∈ userAsks (actsOf E clientId maxRetries es (.setScg pool spa (.int n) timer) es2)) :
    ∃ p s c t : Nat, data = words [0, p, s, c, t] ∧ c ≤ 1 ∧ (n = 0 ∨ n = 1 → n = c) := by
  obtain ⟨p, s, c, t, v, -, hd, -, -, hc, -, -, -, hv, hn, -⟩ := C31_only pool spa (.int n) timer es2 code data hm
  refine ⟨p, s, c, t, hd, hc, ?_⟩
  rcases hv with ⟨-, rfl⟩ | ⟨h, -⟩
  · rintro (rfl | rfl)
    · exact Val.int.inj (hn (.inl rfl))
    · exact Val.int.inj (hn (.inr rfl))
  · cases h

/-! ## C33: water chemistry -/

/-- Where the chemistry settings are cached. -/
def phSetpoint : Path := [.s "intellichem", .s "configuration", .s "ph_setpoint"]
/-- See `phSetpoint`. -/
def orpSetpoint : Path := [.s "intellichem", .s "configuration", .s "orp_setpoint"]
/-- See `phSetpoint`. -/
def calciumHardness : Path := [.s "intellichem", .s "configuration", .s "calcium_hardness"]
/-- See `phSetpoint`. -/
def totalAlkalinity : Path := [.s "intellichem", .s "configuration", .s "total_alkalinity"]
/-- See `phSetpoint`. -/
def cyaLevel : Path := [.s "intellichem", .s "configuration", .s "cya"]
/-- See `phSetpoint`. -/
def saltLevel : Path := [.s "intellichem", .s "configuration", .s "salt_tds_ppm"]

/-- The double nearest to 7.2, exactly. -/
def double72 : Rat := 8106479329266893 / 1125899906842624
/-- The double nearest to 7.6, exactly. -/
def double76 : Rat := 4278419646001971 / 562949953421312

theorem phMin_eq : phMin = double72 := by decide +kernel
theorem phMax_eq : phMax = double76 := by decide +kernel

/-- The pH double `n / 100`, multiplied by 100 and truncated, is `n` again, for every `n` of the allowed range. -/
theorem ph_exact : ∀ k : Nat, k < 41 → phHundredths (.flt (intDiv ((720 + k : Nat) : Int) 100)) = .ok (.int ((720 + k : Nat) : Int)) ∧
    phMin ≤ intDiv ((720 + k : Nat) : Int) 100 ∧ intDiv ((720 + k : Nat) : Int) 100 ≤ phMax := by decide +kernel

theorem check_in {lo hi n : Nat} (h1 : lo ≤ n) (h2 : n ≤ hi) : checkRange ((lo : Int) : Rat) ((hi : Int) : Rat) (.int n) = .ok () :=
  check_ok.2 ⟨_, rfl, rat_le.2 (by omega), rat_le.2 (by omega)⟩

/-- **C33** Each setting given or cached, in range: exactly the chemistry message (code 12594; 0, pH in hundredths, ORP,
calcium, alkalinity, cyanuric acid, salt).  The pH set point is a double: `n / 100` goes out as `n`. -/
theorem C33_sends (ph orp ca ta cya salt : Val) (n o c t y l : Nat)
    (h1 : Takes ph phSetpoint (after E clientId maxRetries es).g.data (.flt (intDiv n 100)))
    (h2 : Takes orp orpSetpoint (after E clientId maxRetries es).g.data (.int o))
    (h3 : Takes ca calciumHardness (after E clientId maxRetries es).g.data (.int c))
    (h4 : Takes ta totalAlkalinity (after E clientId maxRetries es).g.data (.int t))
    (h5 : Takes cya cyaLevel (after E clientId maxRetries es).g.data (.int y))
    (h6 : Takes salt saltLevel (after E clientId maxRetries es).g.data (.int l))
    (r1 : 720 ≤ n ∧ n ≤ 760) (r2 : 400 ≤ o ∧ o ≤ 800) (r3 : 25 ≤ c ∧ c ≤ 800) (r4 : 25 ≤ t ∧ t ≤ 800) (r5 : y ≤ 201) (r6 : 500 ≤ l ∧ l ≤ 6500) :
    SendsExactly E clientId maxRetries es (.setChem ph orp ca ta cya salt) 12594 (words [0, n, o, c, t, y, l]) := by
  refine sends (f := _) (ns := [0, n, o, c, t, y, l]) rfl (codeI := 12594)
    (vs := [.int 0, .int n, .int o, .int c, .int t, .int y, .int l]) ?_ rfl rfl ?_ (by decide) (by simp)
  · obtain ⟨e1, e2, e3⟩ := ph_exact (n - 720) (by omega)
    rw [show 720 + (n - 720) = n by omega] at e1 e2 e3
    have c1 : checkRange phMin phMax (.flt (intDiv n 100)) = .ok () := check_ok.2 ⟨_, rfl, e2, e3⟩
    have c2 : checkRange 400 800 (.int o) = .ok () := check_in r2.1 r2.2
    have c3 : checkRange 25 800 (.int c) = .ok () := check_in r3.1 r3.2
    have c4 : checkRange 25 800 (.int t) = .ok () := check_in r4.1 r4.2
    have c5 : checkRange 0 201 (.int y) = .ok () := check_in (Nat.zero_le _) r5
    have c6 : checkRange 500 6500 (.int l) = .ok () := check_in r6.1 r6.2
    have h1 := takes_iff.2 h1
    have h2 := takes_iff.2 h2
    have h3 := takes_iff.2 h3
    have h4 := takes_iff.2 h4
    have h5 := takes_iff.2 h5
    have h6 := takes_iff.2 h6
    simp only [phSetpoint, orpSetpoint, calciumHardness, totalAlkalinity, cyaLevel, saltLevel] at h1 h2 h3 h4 h5 h6
    have hv : chemValues ph orp ca ta cya salt (after E clientId maxRetries es).g.data = .ok (.flt (intDiv n 100), .int o, .int c, .int t, .int y, .int l) := by
      simp only [chemValues, h1, h2, h3, h4, h5, h6, Except_bind_ok, c1, c2, c3, c4, c5, c6]
      rfl
    simp only [hv, asScreenLogic, Except_bind_ok, e1]
  · intro m hm
    simp only [List.mem_cons, List.not_mem_nil, or_false] at hm
    omega

theorem orCached_cases (arg : Val) (p : Path) (d : Val) : (∃ v, orCached arg p d = .ok v) ∨ orCached arg p d = .error .keyError := by
  rcases takes_or_lacks arg p d with ⟨v, h⟩ | h
  · exact .inl ⟨v, takes_iff.2 h⟩
  · exact .inr (lacks_iff.2 h)

/-- **C33** A setting neither given nor cached: `ScreenLogicError`, nothing is sent. -/
theorem C33_missing (ph orp ca ta cya salt : Val)
    (h : Lacks ph phSetpoint (after E clientId maxRetries es).g.data ∨
      Lacks orp orpSetpoint (after E clientId maxRetries es).g.data ∨
      Lacks ca calciumHardness (after E clientId maxRetries es).g.data ∨
      Lacks ta totalAlkalinity (after E clientId maxRetries es).g.data ∨
      Lacks cya cyaLevel (after E clientId maxRetries es).g.data ∨
      Lacks salt saltLevel (after E clientId maxRetries es).g.data) :
    Refuses E clientId maxRetries es (.setChem ph orp ca ta cya salt) .slError := by
  refine setter_refuses (f := _) rfl ?_
  have hv : chemValues ph orp ca ta cya salt (after E clientId maxRetries es).g.data = .error .keyError := by
    simp only [← lacks_iff, phSetpoint, orpSetpoint, calciumHardness, totalAlkalinity, cyaLevel, saltLevel] at h
    rcases orCached_cases ph [.s "intellichem", .s "configuration", .s "ph_setpoint"] (after E clientId maxRetries es).g.data with ⟨v0, h0⟩ | h0
    rotate_left
    · simp only [chemValues, h0, Except_bind_ok]; rfl
    rcases orCached_cases orp [.s "intellichem", .s "configuration", .s "orp_setpoint"] (after E clientId maxRetries es).g.data with ⟨v1, h1⟩ | h1
    rotate_left
    · simp only [chemValues, h0, h1, Except_bind_ok]; rfl
    rcases orCached_cases ca [.s "intellichem", .s "configuration", .s "calcium_hardness"] (after E clientId maxRetries es).g.data with ⟨v2, h2⟩ | h2
    rotate_left
    · simp only [chemValues, h0, h1, h2, Except_bind_ok]; rfl
    rcases orCached_cases ta [.s "intellichem", .s "configuration", .s "total_alkalinity"] (after E clientId maxRetries es).g.data with ⟨v3, h3⟩ | h3
    rotate_left
    · simp only [chemValues, h0, h1, h2, h3, Except_bind_ok]; rfl
    rcases orCached_cases cya [.s "intellichem", .s "configuration", .s "cya"] (after E clientId maxRetries es).g.data with ⟨v4, h4⟩ | h4
    rotate_left
    · simp only [chemValues, h0, h1, h2, h3, h4, Except_bind_ok]; rfl
    rcases orCached_cases salt [.s "intellichem", .s "configuration", .s "salt_tds_ppm"] (after E clientId maxRetries es).g.data with ⟨v5, h5⟩ | h5
    rotate_left
    · simp only [chemValues, h0, h1, h2, h3, h4, h5, Except_bind_ok]; rfl
    rcases h with h | h | h | h | h | h
    · rw [h0] at h; cases h
    · rw [h1] at h; cases h
    · rw [h2] at h; cases h
    · rw [h3] at h; cases h
    · rw [h4] at h; cases h
    · rw [h5] at h; cases h
  simp only [hv, asSL_key]
  rfl

/-- **C33** Numbers, but one of them out of range: `ScreenLogicError`, nothing is sent.  (The pH limits are the
doubles nearest 7.2 and 7.6.) -/
theorem C33_refuses (ph orp ca ta cya salt : Val) (v0 v1 v2 v3 v4 v5 : Val) (q0 q1 q2 q3 q4 q5 : Rat)
    (h0 : Takes ph phSetpoint (after E clientId maxRetries es).g.data v0) (n0 : v0.num = some q0)
    (h1 : Takes orp orpSetpoint (after E clientId maxRetries es).g.data v1) (n1 : v1.num = some q1)
    (h2 : Takes ca calciumHardness (after E clientId maxRetries es).g.data v2) (n2 : v2.num = some q2)
    (h3 : Takes ta totalAlkalinity (after E clientId maxRetries es).g.data v3) (n3 : v3.num = some q3)
    (h4 : Takes cya cyaLevel (after E clientId maxRetries es).g.data v4) (n4 : v4.num = some q4)
    (h5 : Takes salt saltLevel (after E clientId maxRetries es).g.data v5) (n5 : v5.num = some q5)
    (h : q0 < double72 ∨ double76 < q0 ∨ q1 < 400 ∨ 800 < q1 ∨ q2 < 25 ∨ 800 < q2 ∨ q3 < 25 ∨ 800 < q3 ∨ q4 < 0 ∨ 201 < q4 ∨ q5 < 500 ∨ 6500 < q5) :
    Refuses E clientId maxRetries es (.setChem ph orp ca ta cya salt) .slError := by
  rw [← phMin_eq, ← phMax_eq] at h
  refine setter_refuses (f := _) rfl ?_
  have hv : chemValues ph orp ca ta cya salt (after E clientId maxRetries es).g.data = .error .valueError := by
    have h0 := takes_iff.2 h0
    have h1 := takes_iff.2 h1
    have h2 := takes_iff.2 h2
    have h3 := takes_iff.2 h3
    have h4 := takes_iff.2 h4
    have h5 := takes_iff.2 h5
    simp only [phSetpoint, orpSetpoint, calciumHardness, totalAlkalinity, cyaLevel, saltLevel] at h0 h1 h2 h3 h4 h5
    simp only [chemValues, h0, h1, h2, h3, h4, h5, Except_bind_ok]
    rcases check_num (lo := phMin) (hi := phMax) n0 with c0 | c0
    rotate_left
    · simp only [c0, Except_bind_ok]; rfl
    rcases check_num (lo := 400) (hi := 800) n1 with c1 | c1
    rotate_left
    · simp only [c0, c1, Except_bind_ok]; rfl
    rcases check_num (lo := 25) (hi := 800) n2 with c2 | c2
    rotate_left
    · simp only [c0, c1, c2, Except_bind_ok]; rfl
    rcases check_num (lo := 25) (hi := 800) n3 with c3 | c3
    rotate_left
    · simp only [c0, c1, c2, c3, Except_bind_ok]; rfl
    rcases check_num (lo := 0) (hi := 201) n4 with c4 | c4
    rotate_left
    · simp only [c0, c1, c2, c3, c4, Except_bind_ok]; rfl
    rcases check_num (lo := 500) (hi := 6500) n5 with c5 | c5
    rotate_left
    · simp only [c0, c1, c2, c3, c4, c5, Except_bind_ok]; rfl
    exfalso
    obtain ⟨q, e0, a0, b0⟩ := check_ok.1 c0; rw [n0] at e0; cases e0
    obtain ⟨q, e1, a1, b1⟩ := check_ok.1 c1; rw [n1] at e1; cases e1
    obtain ⟨q, e2, a2, b2⟩ := check_ok.1 c2; rw [n2] at e2; cases e2
    obtain ⟨q, e3, a3, b3⟩ := check_ok.1 c3; rw [n3] at e3; cases e3
    obtain ⟨q, e4, a4, b4⟩ := check_ok.1 c4; rw [n4] at e4; cases e4
    obtain ⟨q, e5, a5, b5⟩ := check_ok.1 c5; rw [n5] at e5; cases e5
    rcases h with h | h | h | h | h | h | h | h | h | h | h | h
    · exact absurd a0 (Rat.not_le.2 h)
    · exact absurd b0 (Rat.not_le.2 h)
    · exact absurd a1 (Rat.not_le.2 h)
    · exact absurd b1 (Rat.not_le.2 h)
    · exact absurd a2 (Rat.not_le.2 h)
    · exact absurd b2 (Rat.not_le.2 h)
    · exact absurd a3 (Rat.not_le.2 h)
    · exact absurd b3 (Rat.not_le.2 h)
    · exact absurd a4 (Rat.not_le.2 h)
    · exact absurd b4 (Rat.not_le.2 h)
    · exact absurd a5 (Rat.not_le.2 h)
    · exact absurd b5 (Rat.not_le.2 h)
  simp only [hv, asSL_value]
  rfl

theorem chem_plan (ph orp ca ta cya salt : Val) {f : Val → Except PyErr (Int × Except PyErr Bytes)} (hf : setterPlan E (.setChem ph orp ca ta cya salt) = some f) (d0 : Val) (code : Int)
    (data : Bytes) (hp : f d0 = .ok (code, .ok data)) :
    ∃ (n o c t y l : Nat) (v : Val) (q : Rat), code = 12594 ∧ data = words [0, n, o, c, t, y, l] ∧
      Takes ph phSetpoint d0 v ∧ v.num = some q ∧ double72 ≤ q ∧ q ≤ double76 ∧
      v = .flt q ∧ (n : Int) = truncRat (fmul q 100) ∧
      Takes orp orpSetpoint d0 (.int o) ∧ 400 ≤ o ∧ o ≤ 800 ∧
      Takes ca calciumHardness d0 (.int c) ∧ 25 ≤ c ∧ c ≤ 800 ∧
      Takes ta totalAlkalinity d0 (.int t) ∧ 25 ≤ t ∧ t ≤ 800 ∧
      Takes cya cyaLevel d0 (.int y) ∧ 0 ≤ y ∧ y ≤ 201 ∧
      Takes salt saltLevel d0 (.int l) ∧ 500 ≤ l ∧ l ≤ 6500 := by
  cases hf
  obtain ⟨⟨v1, v2, v3, v4, v5, v6⟩, hv, hp⟩ := bind_ok hp
  obtain ⟨w, hw, hp1⟩ := bind_ok hp
  simp only [Except.ok.injEq, Prod.mk.injEq] at hp1
  obtain ⟨rfl, hp2⟩ := hp1
  obtain ⟨ns, e, hlt, rfl⟩ := packObjs_ok hp2
  match ns, e, hlt with
  | [z, n, o, c, t, y, l], e, hlt =>
    simp only [List.map_cons, List.map_nil, List.cons.injEq, and_true, Val.int.injEq] at e
    obtain ⟨hz, rfl, rfl, rfl, rfl, rfl, rfl⟩ := e
    obtain rfl : z = 0 := by omega
    have hv := asSL_ok hv
    obtain ⟨_, h1, hv⟩ := bind_ok hv
    obtain ⟨_, h2, hv⟩ := bind_ok hv
    obtain ⟨_, h3, hv⟩ := bind_ok hv
    obtain ⟨_, h4, hv⟩ := bind_ok hv
    obtain ⟨_, h5, hv⟩ := bind_ok hv
    obtain ⟨_, h6, hv⟩ := bind_ok hv
    obtain ⟨_, c1, hv⟩ := bind_ok hv
    obtain ⟨_, c2, hv⟩ := bind_ok hv
    obtain ⟨_, c3, hv⟩ := bind_ok hv
    obtain ⟨_, c4, hv⟩ := bind_ok hv
    obtain ⟨_, c5, hv⟩ := bind_ok hv
    obtain ⟨_, c6, hv⟩ := bind_ok hv
    cases hv
    obtain ⟨q, hq, a, b⟩ := check_ok.1 c1
    have hfl : v1 = .flt q ∧ (n : Int) = truncRat (fmul q 100) := by
      cases v1 with
      | int m =>
        exfalso
        cases hq
        have ha : ((7 : Int) : Rat) < (m : Rat) := Std.lt_of_lt_of_le (by decide +kernel) a
        have hb : (m : Rat) < ((8 : Int) : Rat) := Std.lt_of_le_of_lt b (by decide +kernel)
        rw [Rat.intCast_lt_intCast] at ha hb
        omega
      | flt q' => cases hq; exact ⟨rfl, (Val.int.inj (Except.ok.inj hw)).symm⟩
      | _ => cases hq
    have d2 := check_nat (lo := 400) (hi := 800) c2
    have d3 := check_nat (lo := 25) (hi := 800) c3
    have d4 := check_nat (lo := 25) (hi := 800) c4
    have d5 := check_nat (lo := 0) (hi := 201) c5
    have d6 := check_nat (lo := 500) (hi := 6500) c6
    exact ⟨n, o, c, t, y, l, _, q, rfl, rfl, takes_iff.1 h1, hq, phMin_eq ▸ a, phMax_eq ▸ b, hfl.1, hfl.2, takes_iff.1 h2, d2.1, d2.2, takes_iff.1 h3, d3.1, d3.2,
      takes_iff.1 h4, d4.1, d4.2, takes_iff.1 h5, d5.1, d5.2, takes_iff.1 h6, d6.1, d6.2⟩

/-- **C33** Whatever the arguments are: if the call ever makes a request, it is that message, with each setting as given, or as
cached if it was left out, and in range; the pH is the double times 100, truncated. -/
theorem C33_only (ph orp ca ta cya salt : Val) (es2 : List Ev) (code : Int) (data : Bytes)
    (hm : (code, data) ∈ userAsks (actsOf E clientId maxRetries es (.setChem ph orp ca ta cya salt) es2)) :
    ∃ (n o c t y l : Nat) (v : Val) (q : Rat), code = 12594 ∧ data = words [0, n, o, c, t, y, l] ∧
      Takes ph phSetpoint (after E clientId maxRetries es).g.data v ∧ v.num = some q ∧ double72 ≤ q ∧ q ≤ double76 ∧
      v = .flt q ∧ (n : Int) = truncRat (fmul q 100) ∧
      Takes orp orpSetpoint (after E clientId maxRetries es).g.data (.int o) ∧ 400 ≤ o ∧ o ≤ 800 ∧
      Takes ca calciumHardness (after E clientId maxRetries es).g.data (.int c) ∧ 25 ≤ c ∧ c ≤ 800 ∧
      Takes ta totalAlkalinity (after E clientId maxRetries es).g.data (.int t) ∧ 25 ≤ t ∧ t ≤ 800 ∧
      Takes cya cyaLevel (after E clientId maxRetries es).g.data (.int y) ∧ 0 ≤ y ∧ y ≤ 201 ∧
      Takes salt saltLevel (after E clientId maxRetries es).g.data (.int l) ∧ 500 ≤ l ∧ l ≤ 6500 :=
  chem_plan (E := E) ph orp ca ta cya salt rfl _ code data (only (a := .setChem ph orp ca ta cya salt) (f := _) rfl hm)

/-! ## C34: date and time -/

/-- **C34** Neither a time nor a flag: `ValueError`, nothing is sent. -/
theorem C34_needs_one : Refuses E clientId maxRetries es (.setDateTime none .null) .valueError :=
  setter_refuses (f := _) rfl rfl

theorem sends_raw {a : Call} {f : Val → Except PyErr (Int × Except PyErr Bytes)} (hf : setterPlan E a = some f) {code : Nat} {codeI : Int} {b : Bytes}
    (hp : f (after E clientId maxRetries es).g.data = .ok (codeI, .ok b)) (hc : codeI = (code : Int)) (hlt : code < 65536) (hl : b.length < 100) :
    SendsExactly E clientId maxRetries es a code b := by
  subst hc
  exact setter_sends hf hp hlt (by omega)

/-- The plan of `setDateTime` (the same as in `setterPlan`). -/
def dateTimePlan (E : Env) (date : Option DateTime) (dst data : Val) : Except PyErr (Int × Except PyErr Bytes) := do
  if date = none ∧ dst = .null then .error .valueError
  else
    let t ← dateOrCached E date data
    let v ← orCached dst [.s "controller", .s "date_time", .s "auto_dst"] data
    .ok (8112, dateTimePayload t v)

theorem sends_dt {date : Option DateTime} {dst : Val} {t : DateTime} {n : Nat} (hsome : ¬ (date = none ∧ dst = .null))
    (hd : dateOrCached E date (after E clientId maxRetries es).g.data = .ok t)
    (hv : orCached dst [.s "controller", .s "date_time", .s "auto_dst"] (after E clientId maxRetries es).g.data = .ok (.int n))
    (ht : t.valid) (hn : n < 2 ^ 32) :
    SendsExactly E clientId maxRetries es (.setDateTime date dst) 8112
      (timeBlock t.year t.month t.weekday t.day t.hour t.minute 0 (t.microsecond / 1000) ++ words [n]) := by
  have hb : dateTimePayload t (.int n) =
      .ok (timeBlock t.year t.month t.weekday t.day t.hour t.minute 0 (t.microsecond / 1000) ++ words [n]) := by
    have h2 : packObjs [.int n] = .ok (words [n]) := packObjs_nats [n] (by intro m hm; rw [List.mem_singleton.1 hm]; exact hn)
    rw [dateTimePayload, C06_encode_time t ht, Except_bind_ok, h2, Except_bind_ok]
    rfl
  have hp : dateTimePlan E date dst (after E clientId maxRetries es).g.data =
      .ok (8112, .ok (timeBlock t.year t.month t.weekday t.day t.hour t.minute 0 (t.microsecond / 1000) ++ words [n])) := by
    rw [dateTimePlan, if_neg hsome, hd, Except_bind_ok, hv, Except_bind_ok, hb]
  refine sends_raw (f := dateTimePlan E date dst) rfl hp rfl (by decide) ?_
  simp only [List.length_append, length_words, timeBlock, length_u16, List.length_cons, List.length_nil]
  omega

/-- Where the daylight saving flag is cached. -/
def autoDst : Path := [.s "controller", .s "date_time", .s "auto_dst"]

/-- **C34** A time is given: exactly the set-time message (code 8112; year, month, day of week, day, hour, minute, 0 seconds,
milliseconds, flag), the flag as given, or as cached if it was left out. -/
theorem C34_time_sends (t : DateTime) (dst : Val) (n : Nat) (ht : t.valid)
    (hv : Takes dst autoDst (after E clientId maxRetries es).g.data (.int n)) (hn : n < 2 ^ 32) :
    SendsExactly E clientId maxRetries es (.setDateTime (some t) dst) 8112
      (timeBlock t.year t.month t.weekday t.day t.hour t.minute 0 (t.microsecond / 1000) ++ words [n]) :=
  sends_dt (by simp) rfl (takes_iff.2 hv) ht hn

/-- **C34** Synchronizing sends exactly the host's current calendar time, with the flag as it was last reported. -/
theorem C34_sync (now : DateTime) (n : Nat) (ht : now.valid)
    (hv : (after E clientId maxRetries es).g.data.look (autoDst ++ [.s "value"]) = some (.int n)) (hn : n < 2 ^ 32) :
    SendsExactly E clientId maxRetries es (.syncDateTime now) 8112
      (timeBlock now.year now.month now.weekday now.day now.hour now.minute 0 (now.microsecond / 1000) ++ words [n]) := by
  have hd : (after E clientId maxRetries es).g.data ≠ .null := by
    intro h; rw [h] at hv; cases hv
  exact C34_time_sends now .null n ht (.inr ⟨rfl, by rw [C35_value true autoDst _ hd]; exact getData_look true hv (by simp)⟩) hn

/-- **C34** A time is given but the flag is neither given nor known: `KeyError`, nothing is sent. -/
theorem C34_missing (t : DateTime) (dst : Val) (h : Lacks dst autoDst (after E clientId maxRetries es).g.data) :
    Refuses E clientId maxRetries es (.setDateTime (some t) dst) .keyError := by
  refine setter_refuses (f := dateTimePlan E (some t) dst) rfl ?_
  have hl := lacks_iff.2 h
  simp only [autoDst] at hl
  rw [dateTimePlan, if_neg (by simp), dateOrCached, Except_bind_ok, hl]
  rfl

/-- **C34** Only the flag is given: the message carries the flag, and the time the host's `datetime.fromtimestamp` makes of the cached
clock. -/
theorem C34_flag_sends (n : Nat) (ts : Val) (q : Rat) (t : DateTime)
    (hc : getData true [.s "controller", .s "date_time", .s "timestamp"] (after E clientId maxRetries es).g.data = .ok ts)
    (hq : ts.num = some q) (hf : E.fromTimestamp q = .ok t) (ht : t.valid) (hn : n < 2 ^ 32) :
    SendsExactly E clientId maxRetries es (.setDateTime none (.int n)) 8112
      (timeBlock t.year t.month t.weekday t.day t.hour t.minute 0 (t.microsecond / 1000) ++ words [n]) := by
  refine sends_dt (by simp) ?_ (by simp [orCached]) ht hn
  simp only [dateOrCached, hc, Except_bind_ok, hq, hf]

/-- **C34**, the clock, where it holds: if the controller's clock was last told by the message `m` (`C56_date_time`), and the host renders
that time stamp as those same calendar fields (it is in UTC), setting only the flag sends the controller its own clock (the
seconds as 0).  Missing: the hosts in other zones (`C34_clock_refuted`). -/
theorem C34_clock_partial (m : Spec.DateTimeMsg) (n : Nat)
    (hc : (after E clientId maxRetries es).g.data.look [.s "controller", .s "date_time", .s "timestamp"] =
      some (.flt (intDiv (m.unixMillis * 1000) 1000000)))
    (hf : E.fromTimestamp (intDiv (m.unixMillis * 1000) 1000000) =
      .ok ⟨m.year, m.month, m.day, m.hour, m.minute, m.second, m.milli * 1000⟩) (hn : n < 2 ^ 32) :
    SendsExactly E clientId maxRetries es (.setDateTime none (.int n)) 8112
      (timeBlock m.year m.month (DateTime.mk m.year m.month m.day 0 0 0 0).weekday m.day m.hour m.minute 0 m.milli ++ words [n]) := by
  have hv : (DateTime.mk m.year m.month m.day m.hour m.minute m.second (m.milli * 1000)).valid := by
    refine ⟨m.yearOk.1, m.yearOk.2, m.monthOk.1, m.monthOk.2, m.dayOk.1, ?_, m.hourOk, m.minuteOk, m.secondOk, ?_⟩
    · exact monthLength_eq m.year m.month m.monthOk.1 m.monthOk.2 ▸ m.dayOk.2
    · have := m.milliOk
      show m.milli * 1000 ≤ 999999
      omega
  have := C34_flag_sends (E := E) (clientId := clientId) (maxRetries := maxRetries) (es := es) n _ _ _ (getData_look true hc (by simp)) rfl hf hv hn
  rw [show (m.milli * 1000) / 1000 = m.milli by omega] at this
  exact this

theorem time_block {t : DateTime} {b : Bytes} (h : encodeMessageTime t = .ok b) :
    b = timeBlock t.year t.month t.weekday t.day t.hour t.minute 0 (t.microsecond / 1000) := by
  unfold encodeMessageTime pack8H at h
  obtain ⟨b1, h1, h⟩ := bind_ok h
  obtain ⟨b2, h2, h⟩ := bind_ok h
  obtain ⟨b3, h3, h⟩ := bind_ok h
  obtain ⟨b4, h4, h⟩ := bind_ok h
  obtain ⟨b5, h5, h⟩ := bind_ok h
  obtain ⟨b6, h6, h⟩ := bind_ok h
  obtain ⟨b7, h7, h⟩ := bind_ok h
  obtain ⟨b8, h8, h⟩ := bind_ok h
  cases h
  obtain ⟨-, -, rfl⟩ := packU_eq_ok.1 h1
  obtain ⟨-, -, rfl⟩ := packU_eq_ok.1 h2
  obtain ⟨-, -, rfl⟩ := packU_eq_ok.1 h3
  obtain ⟨-, -, rfl⟩ := packU_eq_ok.1 h4
  obtain ⟨-, -, rfl⟩ := packU_eq_ok.1 h5
  obtain ⟨-, -, rfl⟩ := packU_eq_ok.1 h6
  obtain ⟨-, -, rfl⟩ := packU_eq_ok.1 h7
  obtain ⟨-, -, rfl⟩ := packU_eq_ok.1 h8
  simp only [timeBlock, u16_eq, Int.toNat_natCast]

theorem date_plan (date : Option DateTime) (dst : Val) {f : Val → Except PyErr (Int × Except PyErr Bytes)} (hf : setterPlan E (.setDateTime date dst) = some f) (d0 : Val) (code : Int)
    (data : Bytes) (hp : f d0 = .ok (code, .ok data)) :
    ∃ (t : DateTime) (n : Nat), code = 8112 ∧
      data = timeBlock t.year t.month t.weekday t.day t.hour t.minute 0 (t.microsecond / 1000) ++ words [n] ∧ n < 2 ^ 32 ∧
      Takes dst autoDst d0 (.int n) ∧
      (date = some t ∨ date = none ∧ ∃ ts q,
        getData true [.s "controller", .s "date_time", .s "timestamp"] d0 = .ok ts ∧
        ts.num = some q ∧ E.fromTimestamp q = .ok t) := by
  cases hf
  have hp : dateTimePlan E date dst d0 = _ := hp
  rw [dateTimePlan] at hp
  split at hp
  · cases hp
  · obtain ⟨t, ht, hp⟩ := bind_ok hp
    obtain ⟨v, hv, hp1⟩ := bind_ok hp
    simp only [Except.ok.injEq, Prod.mk.injEq] at hp1
    obtain ⟨rfl, hp2⟩ := hp1
    obtain ⟨b, hb, hp3⟩ := bind_ok hp2
    obtain ⟨c, hc, hp4⟩ := bind_ok hp3
    cases hp4
    obtain ⟨ns, e, hlt, rfl⟩ := packObjs_ok hc
    match ns, e, hlt with
    | [n], e, hlt =>
      simp only [List.map_cons, List.map_nil, List.cons.injEq, and_true] at e
      subst e
      refine ⟨t, n, rfl, by rw [time_block hb], hlt n (by simp), takes_iff.1 hv, ?_⟩
      cases date with
      | some t' => exact .inl (by rw [Except.ok.inj ht])
      | none =>
        obtain ⟨ts, h1, h2⟩ := bind_ok ht
        refine .inr ⟨rfl, ts, ?_⟩
        cases hq : ts.num with
        | none => rw [hq] at h2; cases h2
        | some q => rw [hq] at h2; exact ⟨q, h1, rfl, h2⟩

/-- **C34** Whatever the arguments are: if the call ever makes a request, it is that message, with the time as given, or as the host makes
it of the cached clock, and the flag as given or as cached. -/
theorem C34_only (date : Option DateTime) (dst : Val) (es2 : List Ev) (code : Int) (data : Bytes)
    (hm : (code, data) ∈ userAsks (actsOf E clientId maxRetries es (.setDateTime date dst) es2)) :
    ∃ (t : DateTime) (n : Nat), code = 8112 ∧
      data = timeBlock t.year t.month t.weekday t.day t.hour t.minute 0 (t.microsecond / 1000) ++ words [n] ∧ n < 2 ^ 32 ∧
      Takes dst autoDst (after E clientId maxRetries es).g.data (.int n) ∧
      (date = some t ∨ date = none ∧ ∃ ts q,
        getData true [.s "controller", .s "date_time", .s "timestamp"] (after E clientId maxRetries es).g.data = .ok ts ∧
        ts.num = some q ∧ E.fromTimestamp q = .ok t) :=
  date_plan (E := E) date dst rfl _ code data (only (a := .setDateTime date dst) (f := _) rfl hm)

end

/-! ## Witnesses and counterexamples -/

/-- After a status message: the limits of body 0 are 40 and 104, and there is no body 7. -/
example :
    (after sampleEnv 100 1 (polledEvs .getStatus 12527 smallStatus.enc)).g.data.look [.s "body", .i 0, .s "min_setpoint"] = some (.int 40) ∧
    (after sampleEnv 100 1 (polledEvs .getStatus 12527 smallStatus.enc)).g.data.look [.s "body", .i 0, .s "max_setpoint"] = some (.int 104) ∧
    ¬ Known "body" 7 (after sampleEnv 100 1 (polledEvs .getStatus 12527 smallStatus.enc)).g.data := by
  refine ⟨by decide +kernel, by decide +kernel, by unfold Known; decide +kernel⟩

/-- After polling the chlorinator, the chemistry, the clock or the status: the hypotheses of the theorems above are met by cached values. -/
example :
    Takes .null poolSetpoint (after sampleEnv 100 1 (polledEvs .getScg 12573 sampleScg.enc)).g.data (.int 50) ∧
    Takes .null superChlorinate (after sampleEnv 100 1 (polledEvs .getScg 12573 sampleScg.enc)).g.data (.int 0) ∧
    Takes .null superTimer (after sampleEnv 100 1 (polledEvs .getScg 12573 sampleScg.enc)).g.data (.int 24) ∧
    Takes .null phSetpoint (after sampleEnv 100 1 (polledEvs .getChemistry 12593 sampleChem.enc)).g.data (.flt (intDiv 729 100)) ∧
    Takes .null saltLevel (after sampleEnv 100 1 (polledEvs .getChemistry 12593 sampleChem.enc)).g.data (.int 2950) ∧
    Takes .null autoDst (after sampleEnv 100 1 (polledEvs .getDatetime 8111 sampleDateTime.enc)).g.data (.int 1) ∧
    Lacks .null saltLevel (after sampleEnv 100 1 connectEvs).g.data := by
  refine ⟨.inr ⟨rfl, ?_⟩, .inr ⟨rfl, ?_⟩, .inr ⟨rfl, ?_⟩, .inr ⟨rfl, ?_⟩, .inr ⟨rfl, ?_⟩, .inr ⟨rfl, ?_⟩, lacks_iff.1 ?_⟩
  all_goals decide +kernel

/-- **C34 is false for the clock**: the controller's clock is 29 February 2024, 12:34; on a host that renders that time stamp otherwise (here
as midnight of 1 January), setting only the flag sets the controller's clock to that. -/
theorem C34_clock_refuted :
    (after sampleEnv 100 1 (polledEvs .getDatetime 8111 sampleDateTime.enc)).g.data.look [.s "controller", .s "date_time", .s "timestamp"] =
      some (.flt (intDiv (sampleDateTime.unixMillis * 1000) 1000000)) ∧
    SendsExactly sampleEnv 100 1 (polledEvs .getDatetime 8111 sampleDateTime.enc) (.setDateTime none (.int 1)) 8112 (timeBlock 2024 1 0 1 0 0 0 0 ++ words [1]) := by
  have hl : (after sampleEnv 100 1 (polledEvs .getDatetime 8111 sampleDateTime.enc)).g.data.look [.s "controller", .s "date_time", .s "timestamp"] =
      some (.flt (intDiv (sampleDateTime.unixMillis * 1000) 1000000)) := by decide +kernel
  exact ⟨hl, C34_flag_sends 1 _ _ ⟨2024, 1, 1, 0, 0, 0, 0⟩ (getData_look true hl (by simp)) rfl rfl (by decide) (by decide)⟩

/-- The hypotheses of `C34_sync` are met after the controller's clock was read, those of `C34_missing` before. -/
example : (after sampleEnv 100 1 (polledEvs .getDatetime 8111 sampleDateTime.enc)).g.data.look (autoDst ++ [.s "value"]) = some (.int 1) ∧
    Lacks .null autoDst (after sampleEnv 100 1 connectEvs).g.data := by
  refine ⟨by decide +kernel, rfl, ?_⟩
  have : getValue true autoDst (after sampleEnv 100 1 connectEvs).g.data = .error .keyError := by
    have h : (match getValue true autoDst (after sampleEnv 100 1 connectEvs).g.data with | .error .keyError => true | _ => false) = true := by decide +kernel
    revert h
    cases getValue true autoDst (after sampleEnv 100 1 connectEvs).g.data with
    | ok v => intro h; cases h
    | error e => cases e <;> intro h <;> first | rfl | cases h
  intro v hv
  rw [this] at hv; cases hv

end SL
