import Verif.Props.CliProps
import Verif.Lemmas.Sample
/-!
# The command line: endings, displays, the clock option
-/
set_option linter.unusedVariables false

namespace SL

open Cli (ask say data lift exec)

section
variable {E : Env} {C : CliEnv} {G : Gate} {d : Val}

/-! ## C77: disconnecting -/

/-- **C77 is false** of the export command: it connects and never disconnects, on every gateway. -/
theorem C77_refuted_export {a : CliArgs} {found : List Host} {host : ConnectArgs} (hu : Uses a found host) (ha : a.action = .export)
    (hr : LetsIn G host d) :
    (cli E C G a found).result = .ok 0 ∧ ∃ r1 r2, (cli E C G a found).calls = [(.connect host, .ok r1), (.update, .ok r2)] := by
  obtain ⟨r1, r2, h⟩ := ready_exec (E := E) (C := C) a hr
  have hb : exec G (cliBody E C a found) [] (.dict []) = ⟨[(.connect host, .ok r1), (.update, .ok r2)], [.line], .ok 0⟩ := by
    rw [uses_body hu (by rw [ha]; simp), h]
    unfold afterUpdate
    rw [ha]
    rfl
  refine ⟨?_, r1, r2, ?_⟩
  · unfold cli; simp only [hb]
  · rw [cli_calls, hb]

/-- **C77 is false** of failures: whatever call made after connecting fails, that call is the last one: no disconnect follows. -/
theorem C77_refuted_failure (a : CliArgs) (found : List Host) (c : Call) (e : PyErr) (hm : (c, .error e) ∈ (cli E C G a found).calls)
    (hc : ∀ f, c ≠ .disconnect f) : ∀ x, (cli E C G a found).calls.getLast? = some x → ∀ f, x.1 ≠ .disconnect f := by
  obtain ⟨⟨l, h, -⟩, -⟩ := C76_failure a found c e hm
  intro x hx f
  rw [h, List.getLast?_concat] at hx
  cases hx
  exact hc f

/-- **C77 is false** when the controller is missing from the data: status 1, connected, and no disconnect. -/
theorem C77_refuted_empty {a : CliArgs} {found : List Host} {host : ConnectArgs} (hu : Uses a found host) (ha : a.action ≠ .discover)
    {r1 r2 : Res} {d1 : Val} {kv : List (Key × Val)} (h1 : G [] (.connect host) = (.ok r1, d1))
    (h2 : G [(.connect host, .ok r1)] .update = (.ok r2, .dict kv)) (h3 : aget (.s "controller") kv = none) :
    (cli E C G a found).result = .ok 1 ∧ (cli E C G a found).calls = [(.connect host, .ok r1), (.update, .ok r2)] := by
  have hb : exec G (cliBody E C a found) [] (.dict []) = ⟨[(.connect host, .ok r1), (.update, .ok r2)], [], .ok 1⟩ := by
    rw [uses_body hu ha]
    unfold cliConnected
    rw [exec_ask_ok h1, List.nil_append, exec_ask_ok h2, exec_data]
    have hin : inData (.s "controller") (.dict kv) = .ok false := by simp [inData, h3]
    rw [hin, exec_ok, if_neg (by simp)]
    rfl
  refine ⟨?_, ?_⟩
  · unfold cli; simp only [hb]
  · rw [cli_calls, hb]

/-- **C77**, the part that holds: a command or the dashboard that ends with a status other than -1 and 1 has disconnected, as the last
thing it did.  Missing: the other endings, for which it is false (`C77_refuted_export`, `C77_refuted_failure`, `C77_refuted_empty`). -/
theorem C77_partial {a : CliArgs} {found : List Host} (ha : a.action = .dashboard ∨ ∃ c, a.action = .cmd c) {n : Int}
    (h : (cli E C G a found).result = .ok n) (hn : n ≠ -1) (hn1 : n ≠ 1) :
    ∃ l r, (cli E C G a found).calls = l ++ [(.disconnect false, .ok r)] := by
  have h' := cli_ok h hn
  rw [cli_calls]
  have hconn : ∀ host, (exec G (cliConnected E C a host) [] (.dict [])).result = .ok n →
      ∃ l r, (exec G (cliConnected E C a host) [] (.dict [])).calls = l ++ [(.disconnect false, .ok r)] := by
    intro host hh
    unfold cliConnected at hh ⊢
    rcases h1 : G [] (.connect host) with ⟨e | r1, d1⟩
    · rw [exec_ask_error h1] at hh; cases hh
    rw [exec_ask_ok h1, List.nil_append] at hh ⊢
    rcases h2 : G [(.connect host, .ok r1)] .update with ⟨e | r2, d2⟩
    · rw [exec_ask_error h2] at hh; cases hh
    rw [exec_ask_ok h2, exec_data] at hh ⊢
    cases hin : inData (.s "controller") d2 with
    | error e => rw [hin, exec_error] at hh; cases hh
    | ok b =>
      simp only [hin, exec_ok] at hh ⊢
      cases b with
      | false =>
        rw [if_neg (by simp)] at hh
        cases hh
        exact absurd rfl hn1
      | true =>
        rw [if_pos rfl] at hh ⊢
        rcases ha with ha | ⟨c, ha⟩
        · rw [ha] at hh ⊢
          simp only at hh ⊢
          have e : (printDashboard >>= fun _ => ask (.disconnect false) >>= fun _ => pure (0 : Int)) =
              ((printDashboard >>= fun _ => pure (0 : Int)) >>= fun code => ask (.disconnect false) >>= fun _ => pure code) := by
            rw [cli_assoc]; rfl
          rw [e] at hh ⊢
          exact disconnect_last (k := fun x => x) hh
        · rw [ha] at hh ⊢
          simp only at hh ⊢
          split at hh
          · rw [exec_say] at hh
            rename_i hv
            rw [if_pos hv, exec_say]
            exact disconnect_last (k := fun x => x) hh
          · rename_i hv
            rw [if_neg hv]
            exact disconnect_last (k := fun x => x) hh
  have hne : a.action ≠ .discover := by rcases ha with h | ⟨c, h⟩ <;> rw [h] <;> simp
  unfold cliBody at h' ⊢
  split at h'
  · rename_i hip
    rw [if_pos hip]
    cases found with
    | nil => cases h'; exact absurd rfl hn1
    | cons x rest =>
      simp only at h' ⊢
      cases hact : a.action with
      | discover => exact absurd hact hne
      | _ => exact hconn _ h'
  · rename_i hip
    rw [if_neg hip]
    exact hconn _ h'

/-- An address given for the `discover` action: the program connects and then leaves with an `AttributeError`. -/
theorem C76_discover_given {a : CliArgs} {found : List Host} {ip : String} (hi : a.ip = some ip) (hne : ip ≠ "") (ha : a.action = .discover)
    (hr : LetsIn G { ip := some ip, port := some a.port } d) : (cli E C G a found).result = .error .attributeError := by
  obtain ⟨r1, r2, h⟩ := ready_exec (E := E) (C := C) a hr
  have hb : (exec G (cliBody E C a found) [] (.dict [])).result = .error .attributeError := by
    unfold cliBody
    rw [hi, if_neg (by simpa using hne), h]
    unfold afterUpdate
    rw [ha]
    rfl
  unfold cli
  simp only [hb, PyErr.isScreenLogic, PyErr.isComm, Bool.false_eq_true, if_false]

/-! ## C76: nothing to do -/

/-- The statuses of commands that find nothing to do. -/
inductive Idle (d : Val) : CliCmd → Int → Prop
  | getCircuit (n : Int) (kv : List (Key × Val)) : d.look [.s "circuit"] = some (.dict kv) → aget (.i n) kv = none →
      Idle d (.getCircuit n) 4
  | setCircuit (n : Int) (t : String) (v : Int) (kv : List (Key × Val)) : Chosen enOnOff t v →
      d.look [.s "circuit"] = some (.dict kv) → aget (.i n) kv = none → Idle d (.setCircuit n t) 4
  | scg : Idle d (.setScg none none) 65
  | super : Idle d (.setSuper none none) 65
  | chemSet : Idle d (.setChemSetpoint none none) 129
  | chemVal : Idle d (.setChemValue none none none none) 129

/-- **C76**: a circuit the gateway does not know, or nothing given to set: the program connects, updates and disconnects, no more, and the exit
status tells. -/
theorem C76_idle (hU : E.uni.Ascii) {a : CliArgs} {found : List Host} {host : ConnectArgs} {c : CliCmd} {n : Int} (hu : Uses a found host)
    (hc : a.action = .cmd c) (hr : LetsIn G host d) (hi : Idle d c n) :
    ∃ r1 r2 r, (cli E C G a found).calls = [(.connect host, .ok r1), (.update, .ok r2), (.disconnect false, r)] ∧
      ((∃ x, r = .ok x) → (cli E C G a found).result = .ok n) := by
  obtain ⟨r1, r2, o, h⟩ := cmd_run (E := E) (C := C) hu hc hr
  have hp : ∀ h', exec G (c.prog E C a.verbose >>= fun code => ask (.disconnect false) >>= fun _ => pure code) h' d =
      { exec G (ask (.disconnect false) >>= fun _ => pure n) h' d with
        out := .line :: (exec G (ask (.disconnect false) >>= fun _ => pure n) h' d).out } := by
    intro h'
    cases hi with
    | getCircuit m kv h1 h2 =>
      unfold CliCmd.prog
      rw [cli_assoc, exec_data, cli_assoc, getData_look false h1 (by simp), exec_ok, cli_assoc]
      have hin : inData (.i m) (.dict kv) = .ok false := by simp [inData, h2]
      rw [hin, exec_ok, if_neg (by simp)]
      rfl
    | setCircuit m t v kv ht h1 h2 =>
      unfold CliCmd.prog
      rw [cli_assoc, option_value hU en_mem.1 ht, exec_ok, cli_assoc, exec_data, cli_assoc, getData_look false h1 (by simp), exec_ok, cli_assoc]
      have hin : inData (.i m) (.dict kv) = .ok false := by simp [inData, h2]
      rw [hin, exec_ok, if_neg (by simp)]
      rfl
    | scg => rfl
    | super => rfl
    | chemSet => rfl
    | chemVal => rfl
  rw [cli_calls]
  rcases hg : G [(.connect host, .ok r1), (.update, .ok r2)] (.disconnect false) with ⟨e | r, d2⟩
  · refine ⟨r1, r2, .error e, ?_, ?_⟩
    · rw [h, hp, exec_ask_error hg]; rfl
    · rintro ⟨x, hx⟩; cases hx
  · refine ⟨r1, r2, .ok r, ?_, fun _ => ?_⟩
    · rw [h, hp, exec_ask_ok hg]; rfl
    · unfold cli
      rw [h, hp, exec_ask_ok hg]
      rfl

/-! ## C70: heat states -/

/-- The names the controller's heat states have (device_const/heat.py:16-20). -/
def heatStateTitle : Int → String
  | 0 => "Off"
  | 1 => "Solar"
  | 2 => "Heater"
  | _ => "Both"

/-- Show a heat state and disconnect. -/
def stateShown (verbose : Bool) (kv : List (Key × Val)) : Cli Int :=
  lift (vFormat verbose (.dict kv) (some enOnOff)) >>= fun o => say o >>= fun _ => ask (.disconnect false) >>= fun _ => pure 0

theorem shown_state (hU : E.uni.Ascii) {a : CliArgs} {found : List Host} {host : ConnectArgs} {t : String} {b : Int} {kv : List (Key × Val)}
    (hu : Uses a found host) (hc : a.action = .cmd (.getHeatState t)) (ht : Chosen enBodyType t b) (hr : LetsIn G host d)
    (hd : d.look [.s "body", .i b, .s "heat_state"] = some (.dict kv)) :
    ∃ h', (exec G (cliBody E C a found) [] (.dict [])).result = (exec G (stateShown a.verbose kv) h' d).result ∧
      ∀ x ∈ (exec G (stateShown a.verbose kv) h' d).out, x ∈ (exec G (cliBody E C a found) [] (.dict [])).out := by
  obtain ⟨r1, r2, o, h⟩ := cmd_run (E := E) (C := C) hu hc hr
  have hp : exec G ((CliCmd.getHeatState t).prog E C a.verbose >>= fun code => ask (.disconnect false) >>= fun _ => pure code)
      [(.connect host, .ok r1), (.update, .ok r2)] d = exec G (stateShown a.verbose kv) [(.connect host, .ok r1), (.update, .ok r2)] d := by
    unfold CliCmd.prog showElement stateShown
    simp only [cli_assoc]
    rw [option_value hU en_mem.2.2.1 ht, exec_ok, exec_data, getData_look false hd (by simp), exec_ok]
    rfl
  refine ⟨[(.connect host, .ok r1), (.update, .ok r2)], ?_, ?_⟩
  · rw [h, ← hp]
  · rw [h, ← hp]
    intro x hx
    exact List.mem_append_right _ hx

/-- **C70 is false**: `get heat-state` of a body that is heated by the heater (2) or by both (3) prints nothing and leaves the program with a
`ValueError`, on every gateway. -/
theorem C70_refuted_get (hU : E.uni.Ascii) {a : CliArgs} {found : List Host} {host : ConnectArgs} {t : String} {b s : Int} {kv : List (Key × Val)}
    {name : Val} (hu : Uses a found host) (hc : a.action = .cmd (.getHeatState t)) (ht : Chosen enBodyType t b) (hr : LetsIn G host d)
    (hd : d.look [.s "body", .i b, .s "heat_state"] = some (.dict kv)) (hn : aget (.s "name") kv = some name)
    (hs : aget (.s "value") kv = some (.int s)) (h23 : s = 2 ∨ s = 3) : (cli E C G a found).result = .error .valueError := by
  obtain ⟨h', h, hx⟩ := shown_state (E := E) (C := C) hU hu hc ht hr hd
  have hf : vFormat a.verbose (.dict kv) (some enOnOff) = .error .valueError := by
    unfold vFormat
    rcases h23 with rfl | rfl <;> cases a.verbose <;> simp only [Val.item, hn, hs] <;> rfl
  have hb : (exec G (cliBody E C a found) [] (.dict [])).result = .error .valueError := by
    rw [h, stateShown, hf, exec_error]
  unfold cli
  simp only [hb, PyErr.isScreenLogic, PyErr.isComm, Bool.false_eq_true, if_false]

/-- **C70**, the part that holds: without `--verbose`, states 0 (off) and 1 (solar) are printed as such.  Missing: the other states
(`C70_refuted_get`), and the dashboard's wrong names (`C70_refuted_dashboard`). -/
theorem C70_partial (hU : E.uni.Ascii) {a : CliArgs} {found : List Host} {host : ConnectArgs} {t : String} {b s : Int} {kv : List (Key × Val)}
    (hv : a.verbose = false) (hu : Uses a found host) (hc : a.action = .cmd (.getHeatState t)) (ht : Chosen enBodyType t b) (hr : LetsIn G host d)
    (hd : d.look [.s "body", .i b, .s "heat_state"] = some (.dict kv))
    (hs : aget (.s "value") kv = some (.int s)) (h01 : s = 0 ∨ s = 1) : .value (.int s) ∈ (cli E C G a found).out := by
  obtain ⟨h', h, hx⟩ := shown_state (E := E) (C := C) hU hu hc ht hr hd
  have hf : vFormat a.verbose (.dict kv) (some enOnOff) = .ok (.value (.int s)) := by
    unfold vFormat
    rw [hv]
    rcases h01 with rfl | rfl <;> simp only [Val.item, hs] <;> rfl
  have hb : .value (.int s) ∈ (exec G (cliBody E C a found) [] (.dict [])).out := by
    refine hx _ ?_
    rw [stateShown, hf, exec_ok, exec_say]
    simp
  unfold cli
  simp only
  split
  · split
    · simp [hb]
    · exact hb
  · exact hb

/-! ## C71: daylight saving -/

/-- **C71 is false**: whatever text is given for `--auto-dst`, the program's only setter call passes it on unconverted (if it gets that far), and
no gateway, in any state, ever sends anything for that call. -/
theorem C71_refuted (hU : E.uni.Ascii) {a : CliArgs} {found : List Host} {host : ConnectArgs} {date : Option String} {dst : String}
    (hu : Uses a found host) (hc : a.action = .cmd (.setDateTime date (some dst))) (hr : LetsIn G host d)
    (hd : ∀ s, date = some s → ∃ t, C.fromIso s = .ok t) :
    ∃ t, ((cli E C G a found).setters = [.setDateTime t (.str dst)] ∨ (cli E C G a found).setters = []) ∧
      ∀ clientId maxRetries es es2, userAsks (actsOf E clientId maxRetries es (.setDateTime t (.str dst)) es2) = [] := by
  have hnone : ∀ t clientId maxRetries es es2, userAsks (actsOf E clientId maxRetries es (.setDateTime t (.str dst)) es2) = [] := by
    intro t clientId maxRetries es es2
    cases hl : userAsks (actsOf E clientId maxRetries es (.setDateTime t (.str dst)) es2) with
    | nil => rfl
    | cons x l =>
      obtain ⟨t', n, -, -, -, htk, -⟩ := C34_only (E := E) (clientId := clientId) (maxRetries := maxRetries) (es := es) t (.str dst) es2 x.1 x.2
        (by rw [hl]; exact List.mem_cons_self)
      rcases htk with ⟨-, h⟩ | ⟨h, -⟩ <;> cases h
  have key : ∀ t, Wants C d (.setDateTime date (some dst)) (.setDateTime t (.str dst)) →
      (cli E C G a found).setters = [.setDateTime t (.str dst)] ∨ (cli E C G a found).setters = [] := by
    intro t hw
    rcases C75_sets (E := E) hU hu hc hr hw with h | ⟨h, -⟩
    · exact .inl h
    · exact .inr h
  cases date with
  | none => exact ⟨none, key _ (.flag dst), hnone _⟩
  | some s =>
    obtain ⟨t, ht⟩ := hd s rfl
    exact ⟨some t, key _ (.date s t (some dst) _ ht (.given dst)), hnone _⟩

/-- **C71**, what holds: without `--auto-dst`, a time given is set (or asking for the clock failed), and the gateway sends it with the flag it
has cached.  Missing: the option itself, which never works (`C71_refuted`). -/
theorem C71_partial (hU : E.uni.Ascii) {a : CliArgs} {found : List Host} {host : ConnectArgs} {s : String} {t : DateTime}
    (hu : Uses a found host) (hc : a.action = .cmd (.setDateTime (some s) none)) (hr : LetsIn G host d) (hi : C.fromIso s = .ok t) (ht : t.valid) :
    ((cli E C G a found).setters = [.setDateTime (some t) .null] ∨
      ∃ e, (Call.getDatetime, .error e) ∈ (cli E C G a found).calls) ∧
    ∀ clientId maxRetries es (n : Nat), n < 2 ^ 32 → getValue true autoDst (after E clientId maxRetries es).g.data = .ok (.int n) →
      SendsExactly E clientId maxRetries es (.setDateTime (some t) .null) 8112
        (timeBlock t.year t.month t.weekday t.day t.hour t.minute 0 (t.microsecond / 1000) ++ words [n]) := by
  refine ⟨?_, fun clientId maxRetries es n hn hv => C34_time_sends t .null n ht (.inr ⟨rfl, hv⟩) hn⟩
  rcases C75_sets (E := E) hU hu hc hr (.date s t none _ hi .left) with h | ⟨-, -, h⟩
  · exact .inl h
  · exact .inr h

/-! ## Witnesses -/

/-- A small gateway's data: one body whose heat state is given, one circuit. -/
def smallData (state : Int) : Val :=
  .dict [(.s "controller", .dict []),
    (.s "body", .dict [(.i 0, .dict [(.s "body_type", .int 0),
      (.s "last_temperature", .dict [(.s "name", .str "Last Pool Temperature"), (.s "value", .int 80), (.s "unit", .str "F")]),
      (.s "heat_setpoint", .dict [(.s "name", .str "Pool Heat Set Point"), (.s "value", .int 82)]),
      (.s "heat_state", .dict [(.s "name", .str "Pool Heat"), (.s "value", .int state)]),
      (.s "heat_mode", .dict [(.s "name", .str "Pool Heat Mode"), (.s "value", .int 3)])])]),
    (.s "circuit", .dict [(.i 505, .dict [(.s "name", .str "Pool"), (.s "value", .int 1), (.s "interface", .int 0)])])]

/-- A gateway all of whose calls succeed and which has these data. -/
def smallGate (state : Int) : Gate := fun _ _ => (.ok .none, smallData state)

/-- The command line with an address. -/
def smallArgs (act : Action) : CliArgs := { verbose := false, ip := some "10.0.0.2", port := 80, action := act }

/-- A clock and an ISO parser that knows one text. -/
def smallClock : CliEnv where
  now := ⟨2024, 5, 6, 7, 8, 9, 0⟩
  fromIso s := if s = "2024-01-02T03:04:00" then .ok ⟨2024, 1, 2, 3, 4, 0, 0⟩ else .error .valueError
  fromTimestampUtc _ := .ok ⟨2024, 1, 1, 0, 0, 0, 0⟩

theorem small_uses (act : Action) : Uses (smallArgs act) [] { ip := some "10.0.0.2", port := some 80 } := .given "10.0.0.2" rfl (by decide)

theorem small_ready (state : Int) : LetsIn (smallGate state) { ip := some "10.0.0.2", port := some 80 } (smallData state) :=
  ⟨.none, _, .none, .dict [], rfl, rfl, rfl⟩

theorem sample_ascii : sampleEnv.uni.Ascii := all_ascii (by decide +kernel)

theorem small_pool : Chosen enBodyType "pool" 0 := ⟨"POOL", by decide, .inr (by decide +kernel)⟩

/-- The titles the dashboard showed as heat states. -/
def Run.heatShown {α : Type} (r : Run α) : List String :=
  r.out.filterMap fun o =>
    match o with
    | .titled (.str n) t => if n = "Pool Heat" then some t else none
    | _ => none

/-- **C70 is false** of the dashboard: a body heated by the heater (2) is shown as "Solar Preferred", one heated by both (3) as "Heater". -/
theorem C70_refuted_dashboard :
    (cli sampleEnv smallClock (smallGate 2) (smallArgs .dashboard) []).heatShown = ["Solar Preferred"] ∧
    (cli sampleEnv smallClock (smallGate 3) (smallArgs .dashboard) []).heatShown = ["Heater"] ∧
    heatStateTitle 2 = "Heater" ∧ heatStateTitle 3 = "Both" := by
  decide +kernel

-- C70: the hypotheses are met.
example : (cli sampleEnv smallClock (smallGate 2) (smallArgs (.cmd (.getHeatState "pool"))) []).result = .error .valueError :=
  C70_refuted_get sample_ascii (small_uses _) rfl small_pool (small_ready 2) rfl rfl rfl (.inl rfl)

example : .value (.int 1) ∈ (cli sampleEnv smallClock (smallGate 1) (smallArgs (.cmd (.getHeatState "pool"))) []).out :=
  C70_partial sample_ascii rfl (small_uses _) rfl small_pool (small_ready 1) rfl rfl (.inr rfl)

-- C71
example : (cli sampleEnv smallClock (smallGate 1) (smallArgs (.cmd (.setDateTime none (some "on")))) []).setters =
    [.setDateTime none (.str "on")] := by
  rcases C75_sets sample_ascii (small_uses _) rfl (small_ready 1) (.flag "on") with h | ⟨-, -, e, he⟩
  · exact h
  · obtain ⟨-, h, -⟩ := C76_failure _ _ _ _ he
    exact absurd he (by
      rw [show (cli sampleEnv smallClock (smallGate 1) (smallArgs (.cmd (.setDateTime none (some "on")))) []).calls =
        [(.connect { ip := some "10.0.0.2", port := some 80 }, .ok .none), (.update, .ok .none), (.getDatetime, .ok .none),
         (.setDateTime none (.str "on"), .ok .none), (.getDatetime, .ok .none)] from rfl]
      simp)

-- C75
example : (cli sampleEnv smallClock (smallGate 1) (smallArgs (.cmd (.setHeatMode "pool" "heater"))) []).setters =
    [.setHeatMode (.int 0) (.int 3)] := by
  rcases C75_sets sample_ascii (small_uses _) rfl (small_ready 1)
    (.heatMode "pool" "heater" 0 3 small_pool ⟨"HEATER", by decide, .inr (by decide +kernel)⟩) with h | ⟨-, ⟨_, _, h⟩, -⟩
  · exact h
  · cases h

-- C76
example : ∃ r1 r2 r, (cli sampleEnv smallClock (smallGate 1) (smallArgs (.cmd (.getCircuit 999))) []).calls =
      [(.connect { ip := some "10.0.0.2", port := some 80 }, .ok r1), (.update, .ok r2), (.disconnect false, r)] ∧
      ((∃ x, r = .ok x) → (cli sampleEnv smallClock (smallGate 1) (smallArgs (.cmd (.getCircuit 999))) []).result = .ok 4) :=
  C76_idle sample_ascii (small_uses _) rfl (small_ready 1) (.getCircuit 999 _ rfl (by decide))

-- C77
example : (cli sampleEnv smallClock (smallGate 1) (smallArgs .dashboard) []).result = .ok 0 := by decide +kernel

example : (cli sampleEnv smallClock (smallGate 1) (smallArgs .export) []).calls.map (·.1) =
    [.connect { ip := some "10.0.0.2", port := some 80 }, .update] := rfl

/-- A gateway whose update fails. -/
def deafGate : Gate := fun _ c =>
  match c with
  | .update => (.error .slRequest, smallData 0)
  | _ => (.ok .none, smallData 0)

example : ∃ e, (Call.update, Except.error e) ∈ (cli sampleEnv smallClock deafGate (smallArgs .dashboard) []).calls ∧
    (cli sampleEnv smallClock deafGate (smallArgs .dashboard) []).result = .ok (-1) :=
  ⟨.slRequest, List.mem_cons_of_mem _ List.mem_cons_self, rfl⟩

end

end SL
