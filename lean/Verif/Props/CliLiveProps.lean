import Verif.Spec.Live
import Verif.Props.CliEndProps
import Verif.Props.VocabProps
import Verif.Props.PollProps
/-!
# C95: the command line, end to end

The command line of `CliProps` run on the gateway of the model, connections, wire and all, instead of an arbitrary one.
-/
set_option linter.unusedVariables false

namespace SL
open Cli (ask say data lift exec)

/-! ## The program's calls -/

/-- The program makes only such calls. -/
inductive Makes {α : Type} (P : Call → Prop) : Cli α → Prop
  | ret (a : α) : Makes P (.ret a)
  | raise (e : PyErr) : Makes P (.raise e)
  | print {k : Cli α} (o : Out) : Makes P k → Makes P (.print o k)
  | read {k : Val → Cli α} : (∀ d, Makes P (k d)) → Makes P (.read k)
  | call {k : Res → Cli α} (c : Call) : P c → (∀ r, Makes P (k r)) → Makes P (.call c k)

section
variable {P : Call → Prop}

theorem Makes.bind {α β : Type} {p : Cli α} {f : α → Cli β} (hp : Makes P p) (hf : ∀ a, Makes P (f a)) : Makes P (p >>= f) := by
  show Makes P (Cli.bind p f)
  induction hp with
  | ret a => exact hf a
  | raise e => exact .raise e
  | print o _ ih => exact .print o ih
  | read _ ih => exact .read ih
  | call c hc _ ih => exact .call c hc ih

theorem makes_pure {α : Type} (a : α) : Makes P (pure a : Cli α) := .ret a

theorem makes_lift {α : Type} (r : Except PyErr α) : Makes P (lift r) := by
  cases r
  · exact .raise _
  · exact .ret _

theorem makes_data : Makes P data := .read (fun d => .ret d)

theorem makes_say (o : Out) : Makes P (say o) := .print o (.ret ())

theorem makes_ask {c : Call} (h : P c) : Makes P (ask c) := .call c h (fun r => .ret r)

theorem makes_exec {α : Type} {G : Gate} {p : Cli α} (hp : Makes P p) : ∀ h d, (∀ x ∈ h, P x.1) → ∀ x ∈ (exec G p h d).calls, P x.1 := by
  induction hp with
  | ret a => intro h d hh; exact hh
  | raise e => intro h d hh; exact hh
  | print o _ ih => intro h d hh; exact ih h d hh
  | read _ ih => intro h d hh; exact ih d h d hh
  | @call k c hc _ ih =>
    intro h d hh
    have hs : ∀ r, ∀ x ∈ h ++ [(c, r)], P x.1 := by
      intro r x hx
      rcases List.mem_append.1 hx with hx | hx
      · exact hh x hx
      · cases List.mem_singleton.1 hx; exact hc
    simp only [exec]
    split
    · exact ih _ _ _ (hs _)
    · exact hs _

end

/-- Not a message by hand. -/
def Civil (c : Call) : Prop := ∀ code data, c ≠ .send code data

theorem makes_show (v : Bool) (p : Path) (e : Option EnumDef) : Makes Civil (showElement v p e) :=
  makes_data.bind fun _ => (makes_lift _).bind fun _ => (makes_lift _).bind fun _ => (makes_say _).bind fun _ => makes_pure _

theorem makes_clock (C : CliEnv) : Makes Civil (showClock C) := by
  refine makes_data.bind fun _ => (makes_lift _).bind fun ts => ?_
  cases ts.num with
  | none => exact .raise _
  | some q => exact (makes_lift _).bind fun _ => (makes_say _).bind fun _ => makes_pure _

theorem civil_ask {c : Call} (h : ∀ code data, c ≠ .send code data) : Makes Civil (ask c) := makes_ask h

theorem makes_scg (v : Bool) (a b c d : Val) : Makes Civil (cliSetScg v a b c d) := by
  unfold cliSetScg
  split
  · exact (makes_say _).bind fun _ => makes_pure _
  · exact (civil_ask (by simp)).bind fun _ => (civil_ask (by simp)).bind fun _ => makes_data.bind fun _ => (makes_lift _).bind fun _ =>
      (makes_lift _).bind fun _ => (makes_say _).bind fun _ => makes_pure _

theorem makes_chem (v : Bool) (a b c d e f : Val) : Makes Civil (cliSetChem v a b c d e f) := by
  unfold cliSetChem
  split
  · exact (makes_say _).bind fun _ => makes_pure _
  · exact (civil_ask (by simp)).bind fun _ => (civil_ask (by simp)).bind fun _ => makes_data.bind fun _ => (makes_lift _).bind fun _ =>
      (makes_lift _).bind fun _ => (makes_say _).bind fun _ => makes_pure _

section
variable {E : Env} {C : CliEnv}

theorem makes_cmd (c : CliCmd) (v : Bool) : Makes Civil (c.prog E C v) := by
  cases c with
  | getCircuit n =>
    refine makes_data.bind fun _ => (makes_lift _).bind fun _ => (makes_lift _).bind fun b => ?_
    split
    · exact makes_show _ _ _
    · exact (makes_say _).bind fun _ => makes_pure _
  | getHeatMode b => exact (makes_lift _).bind fun _ => makes_show _ _ _
  | getHeatTemp b => exact (makes_lift _).bind fun _ => makes_show _ _ _
  | getHeatState b => exact (makes_lift _).bind fun _ => makes_show _ _ _
  | getCurrentTemp b => exact (makes_lift _).bind fun _ => makes_show _ _ _
  | getDateTime => exact (civil_ask (by simp)).bind fun _ => makes_clock C
  | getAutoDst => exact (civil_ask (by simp)).bind fun _ => makes_show _ _ _
  | getJson => exact makes_data.bind fun _ => (makes_say _).bind fun _ => makes_pure _
  | setCircuit n st =>
    refine (makes_lift _).bind fun _ => makes_data.bind fun _ => (makes_lift _).bind fun _ => (makes_lift _).bind fun b => ?_
    split
    · exact (civil_ask (by simp)).bind fun _ => (civil_ask (by simp)).bind fun _ => makes_show _ _ _
    · exact (makes_say _).bind fun _ => makes_pure _
  | setColorLights m =>
    refine (makes_lift _).bind fun _ => (civil_ask (by simp)).bind fun _ => ?_
    split
    · exact (makes_lift _).bind fun _ => (makes_say _).bind fun _ => makes_pure _
    · exact (makes_say _).bind fun _ => makes_pure _
  | setHeatMode b m =>
    exact (makes_lift _).bind fun _ => (makes_lift _).bind fun _ => (civil_ask (by simp)).bind fun _ => (civil_ask (by simp)).bind fun _ => makes_show _ _ _
  | setHeatTemp b t =>
    refine (makes_lift _).bind fun _ => ?_
    split
    · exact (civil_ask (by simp)).bind fun _ => (civil_ask (by simp)).bind fun _ => makes_show _ _ _
    · exact makes_show _ _ _
  | setScg p s => exact makes_scg _ _ _ _ _
  | setSuper s t => exact makes_scg _ _ _ _ _
  | setChemSetpoint p o => exact makes_chem _ _ _ _ _ _ _
  | setChemValue a b c d => exact makes_chem _ _ _ _ _ _ _
  | setDateTime date dst =>
    exact (makes_lift _).bind fun _ => (civil_ask (by simp)).bind fun _ => (civil_ask (by simp)).bind fun _ => (civil_ask (by simp)).bind fun _ =>
      makes_clock C

theorem makes_bodies (l : List (Key × Val)) : Makes Civil (printBodies l) := by
  induction l with
  | nil => exact makes_pure _
  | cons x l ih =>
    obtain ⟨k, b⟩ := x
    refine Makes.bind ?_ fun _ => ih
    unfold printBody
    repeat' first | exact makes_say _ | refine Makes.bind (makes_lift _) fun _ => ?_ | refine Makes.bind (makes_say _) fun _ => ?_

theorem makes_circuits (l : List (Key × Val)) : Makes Civil (printCircuits l) := by
  induction l with
  | nil => exact makes_pure _
  | cons x l ih =>
    obtain ⟨k, b⟩ := x
    refine Makes.bind (makes_lift _) fun i => ?_
    split
    · exact ih
    · exact (makes_lift _).bind fun _ => (makes_lift _).bind fun _ => (makes_lift _).bind fun _ => (makes_say _).bind fun _ => ih

theorem makes_hosts (l : List Host) : Makes Civil (printHosts l) := by
  induction l with
  | nil => exact makes_pure _
  | cons x l ih => exact (makes_say _).bind fun _ => ih

theorem makes_dashboard : Makes Civil printDashboard :=
  makes_data.bind fun _ => (makes_say _).bind fun _ => (makes_lift _).bind fun _ => (makes_lift _).bind fun _ => (makes_bodies _).bind fun _ =>
    (makes_lift _).bind fun _ => (makes_lift _).bind fun _ => (makes_circuits _).bind fun _ => makes_say _

theorem makes_connected (a : CliArgs) (host : ConnectArgs) : Makes Civil (cliConnected E C a host) := by
  unfold cliConnected
  refine (civil_ask (by simp)).bind fun _ => (civil_ask (by simp)).bind fun _ => makes_data.bind fun _ => (makes_lift _).bind fun b => ?_
  split
  · split
    · exact (makes_say _).bind fun _ => makes_pure _
    · exact makes_dashboard.bind fun _ => (civil_ask (by simp)).bind fun _ => makes_pure _
    · exact .raise _
    · rename_i c hc
      have h2 := (makes_cmd (E := E) (C := C) c a.verbose).bind (f := fun code => ask (.disconnect false) >>= fun _ => pure code)
        fun code => (civil_ask (by simp)).bind fun _ => makes_pure _
      simp only
      split
      · exact (makes_say _).bind fun _ => h2
      · exact h2
  · exact makes_pure _

theorem makes_body (a : CliArgs) (found : List Host) : Makes Civil (cliBody E C a found) := by
  unfold cliBody
  split
  · split
    · exact (makes_say _).bind fun _ => makes_pure _
    · split
      · exact (makes_hosts _).bind fun _ => makes_pure _
      · exact makes_connected _ _
  · exact makes_connected _ _

theorem cli_civil {G : Gate} (a : CliArgs) (found : List Host) : ∀ x ∈ (cli E C G a found).calls, Civil x.1 := by
  rw [cli_calls]
  exact makes_exec (makes_body a found) [] _ (by intro x hx; cases hx)

end

/-! ## Histories -/

theorem history_calls {W : Nat → List Ev} (hW : NoOtherCalls W) {c : Call} : ∀ {cs : List Call} {n : Nat}, Ev.call c ∈ history W n cs → c ∈ cs
  | [], _, h => by cases h
  | c' :: cs, n, h => by
    simp only [history, List.mem_cons, List.mem_append, Ev.call.injEq] at h
    rcases h with h | h | h
    · exact h ▸ List.mem_cons_self
    · exact absurd h (hW n c)
    · exact List.mem_cons_of_mem _ (history_calls hW h)

theorem Says.narrow {id : Int} {es es' : List Ev} (h : ∀ c, c.isSetter = true → Ev.call c ∈ es → Ev.call c ∈ es')
    (hc : ∀ code data, Ev.call (.send code data) ∉ es) {code : Int} {data : Bytes} (hs : Says id es code data) : Says id es' code data := by
  cases hs with
  | challenge => exact .challenge
  | login => exact .login
  | ping => exact .ping
  | version => exact .version
  | dateTime => exact .dateTime
  | status => exact .status
  | config => exact .config
  | scg => exact .scg
  | chemistry => exact .chemistry
  | pump i hi => exact .pump i hi
  | addClient n h1 h2 => exact .addClient n h1 h2
  | removeClient n h1 h2 => exact .removeClient n h1 h2
  | setCircuit a b h0 h1 h2 => exact .setCircuit a b (h _ rfl h0) h1 h2
  | setHeatTemp a b h0 h1 h2 => exact .setHeatTemp a b (h _ rfl h0) h1 h2
  | setHeatMode a b h0 h1 h2 => exact .setHeatMode a b (h _ rfl h0) h1 h2
  | setColorLights a h0 h1 => exact .setColorLights a (h _ rfl h0) h1
  | setScg a b c d h0 p s x t h1 h2 h3 h4 h5 h6 h7 => exact .setScg a b c d (h _ rfl h0) p s x t h1 h2 h3 h4 h5 h6 h7
  | setChem a b c d e f h0 n o p t y l h1 h2 h3 h4 h5 h6 h7 h8 h9 h10 h11 =>
    exact .setChem a b c d e f (h _ rfl h0) n o p t y l h1 h2 h3 h4 h5 h6 h7 h8 h9 h10 h11
  | setDateTime a b h0 t n h1 h2 h3 => exact .setDateTime a b (h _ rfl h0) t n h1 h2 h3
  | byHand _ _ h0 => exact absurd h0 (hc _ _)

section
variable {E : Env} {C : CliEnv} {clientId maxRetries : Int} {W : Nat → List Ev} {G : Gate} {d : Val}

/-- What may be sent during a run, from its setters. -/
theorem run_says (hW : NoOtherCalls W) {a : CliArgs} {found : List Host} {cs : List Call}
    (hs : ∀ c ∈ (cli E C G a found).setters, c ∈ cs) {code : Int} {data : Bytes}
    (h : Says clientId ((cli E C G a found).history W) code data) : Says clientId (cs.map .call) code data := by
  refine h.narrow (fun c hc hm => ?_) (fun code data hm => ?_)
  · have := history_calls hW hm
    exact List.mem_map.2 ⟨c, hs c (List.mem_filter.2 ⟨this, hc⟩), rfl⟩
  · obtain ⟨x, hx, he⟩ := List.mem_map.1 (history_calls hW hm)
    exact cli_civil a found x hx code data he

/-- The gateway answers as it does. -/
theorem exec_gate {α : Type} (p : Cli α) : ∀ h d, (∀ l1 c r l2, h = l1 ++ (c, r) :: l2 → (G l1 c).1 = r) →
    ∀ l1 c r l2, (exec G p h d).calls = l1 ++ (c, r) :: l2 → (G l1 c).1 = r := by
  induction p with
  | ret a => intro h d hh; exact hh
  | raise e => intro h d hh; exact hh
  | print o k ih => intro h d hh; exact ih h d hh
  | read k ih => intro h d hh; exact ih d h d hh
  | call c k ih =>
    intro h d hh
    have hs : ∀ r, (G h c).1 = r → ∀ l1 c' r' l2, h ++ [(c, r)] = l1 ++ (c', r') :: l2 → (G l1 c').1 = r' := by
      intro r hr l1 c' r' l2 he
      rcases List.append_eq_append_iff.1 he with ⟨l, h1, h2⟩ | ⟨l, h1, h2⟩
      · cases l with
        | nil =>
          simp only [List.append_nil, List.nil_append, List.cons.injEq, Prod.mk.injEq] at h1 h2
          obtain ⟨⟨rfl, rfl⟩, -⟩ := h2
          rw [h1]; exact hr
        | cons y l => simp at h2
      · cases l with
        | nil =>
          simp only [List.append_nil, List.nil_append, List.cons.injEq, Prod.mk.injEq] at h1 h2
          obtain ⟨⟨rfl, rfl⟩, -⟩ := h2
          rw [← h1]; exact hr
        | cons y l =>
          simp only [List.cons_append, List.cons.injEq] at h2
          obtain ⟨rfl, -⟩ := h2
          exact hh _ _ _ _ h1
    simp only [exec]
    split
    · rename_i r d' hg
      exact ih _ _ _ (hs _ (by rw [hg]))
    · rename_i e d' hg
      exact hs _ (by rw [hg])

theorem cli_gate {a : CliArgs} {found : List Host} {l1 l2 : List (Call × Except PyErr Res)} {c : Call} {r : Except PyErr Res}
    (h : (cli E C G a found).calls = l1 ++ (c, r) :: l2) : (G l1 c).1 = r := by
  rw [cli_calls] at h
  exact exec_gate (cliBody E C a found) [] _ (by intro l1 c r l2 he; simp at he) _ _ _ _ h

end

/-! ## C95 -/

section
variable (E : Env) (C : CliEnv) (clientId maxRetries : Int) (W : Nat → List Ev)

/-- **C95** Reading (the dashboard, discovery, the export, a get command) sends nothing but the greetings, the queries and the
keepalive: nothing that changes anything. -/
theorem C95_reads (hW : NoOtherCalls W) {a : CliArgs} {found : List Host} (hg : ∀ c, a.action = .cmd c → c.isGet = true)
    (t c : Nat) (code : Int) (data : Bytes)
    (h : (t, Act.ask c code data) ∈ (after E clientId maxRetries ((cli E C (liveGate E clientId maxRetries W) a found).history W)).g.log) :
    Says clientId [] code data ∧ code ∉ changeCodes := by
  have hs : Says clientId [] code data :=
    run_says (cs := []) hW (by rw [C75_reads a found hg]; intro c hc; exact hc) (C87_requests E clientId maxRetries _ t c code data h)
  refine ⟨hs, ?_⟩
  cases hs <;> first | decide | exact absurd ‹Ev.call _ ∈ []› (List.not_mem_nil)

/-- **C95** A set command sends, apart from the greetings, the queries and the keepalive, only the message of its own setting, with the
values given. -/
theorem C95_sets (hW : NoOtherCalls W) (hU : E.uni.Ascii) {a : CliArgs} {found : List Host} {host : ConnectArgs} {cmd : CliCmd} {call : Call} {d : Val}
    (hu : Uses a found host) (hc : a.action = .cmd cmd) (hr : LetsIn (liveGate E clientId maxRetries W) host d) (hw : Wants C d cmd call)
    (t c : Nat) (code : Int) (data : Bytes)
    (h : (t, Act.ask c code data) ∈ (after E clientId maxRetries ((cli E C (liveGate E clientId maxRetries W) a found).history W)).g.log) :
    Says clientId [.call call] code data := by
  refine run_says (cs := [call]) hW ?_ (C87_requests E clientId maxRetries _ t c code data h)
  rcases C75_sets (E := E) hU hu hc hr hw with he | ⟨he, -⟩ <;> rw [he]
  · intro c hc; exact hc
  · intro c hc; cases hc

/-- **C95** ... and so it is on the wire: whatever packet was written on any connection of the run is the framing of such a message. -/
theorem C95_wire (hW : NoOtherCalls W) (hU : E.uni.Ascii) {a : CliArgs} {found : List Host} {host : ConnectArgs} {cmd : CliCmd} {call : Call} {d : Val}
    (hu : Uses a found host) (hc : a.action = .cmd cmd) (hr : LetsIn (liveGate E clientId maxRetries W) host d) (hw : Wants C d cmd call)
    {x : Conn} (hx : x ∈ (after E clientId maxRetries ((cli E C (liveGate E clientId maxRetries W) a found).history W)).g.conns)
    {n : Nat} {bs : Bytes} (h : (n, bs) ∈ x.w.p.written) :
    ∃ (code : Nat) (data : Bytes), Says clientId [.call call] code data ∧ bs = Spec.frame (n % 32767) code data := by
  obtain ⟨code, data, hs, he⟩ := C87_wire E clientId maxRetries _ hx h
  refine ⟨code, data, run_says (cs := [call]) hW ?_ hs, he⟩
  rcases C75_sets (E := E) hU hu hc hr hw with he | ⟨he, -⟩ <;> rw [he]
  · intro c hc; exact hc
  · intro c hc; cases hc

end

theorem setter_changes (E : Env) {a : Call} {f : Val → Except PyErr (Int × Except PyErr Bytes)} (h : setterPlan E a = some f)
    {d : Val} {p : Int × Except PyErr Bytes} (hp : f d = .ok p) : p.1 ∈ changeCodes := by
  have fin : ∀ {c : Int} {q : Except PyErr Bytes}, c ∈ changeCodes → (Except.ok (c, q) : Except PyErr _) = .ok p → p.1 ∈ changeCodes := by
    intro c q hc he
    cases he
    exact hc
  cases a with
  | setCircuit circuit st =>
    cases h
    obtain ⟨_, _, hp⟩ := bind_ok hp
    obtain ⟨_, _, hp⟩ := bind_ok hp
    exact fin (by decide) hp
  | setHeatTemp body temp =>
    cases h
    obtain ⟨_, _, hp⟩ := bind_ok hp
    obtain ⟨_, _, hp⟩ := bind_ok hp
    exact fin (by decide) hp
  | setHeatMode body mode =>
    cases h
    obtain ⟨_, _, hp⟩ := bind_ok hp
    obtain ⟨_, _, hp⟩ := bind_ok hp
    exact fin (by decide) hp
  | setColorLights cmd =>
    cases h
    obtain ⟨_, _, hp⟩ := bind_ok hp
    exact fin (by decide) hp
  | setScg a b c d =>
    cases h
    obtain ⟨_, _, hp⟩ := bind_ok hp
    exact fin (by decide) hp
  | setChem a b c d e f =>
    cases h
    obtain ⟨_, _, hp⟩ := bind_ok hp
    obtain ⟨_, _, hp⟩ := bind_ok hp
    exact fin (by decide) hp
  | setDateTime date dst =>
    cases h
    simp only at hp
    split at hp
    · cases hp
    · obtain ⟨_, _, hp⟩ := bind_ok hp
      obtain ⟨_, _, hp⟩ := bind_ok hp
      exact fin (by decide) hp
  | _ => cases h

section
variable (E : Env) (C : CliEnv) (clientId maxRetries : Int) (W : Nat → List Ev)

/-- A setter that returned was acknowledged. -/
theorem setter_done {es es2 : List Ev} {call : Call} {r : Res} (hset : call.isSetter = true)
    (h : resultOf E clientId maxRetries es call es2 = some (.ok r)) :
    r = .none ∧ ∃ code data, Says clientId [.call call] code data ∧ code ∈ changeCodes ∧
      EndsWith (actsOf E clientId maxRetries es call es2) code data (some []) := by
  have hf : ∃ f, setterPlan E call = some f := by cases call <;> first | exact ⟨_, rfl⟩ | cases hset
  obtain ⟨f, hf⟩ := hf
  cases hp : f (after E clientId maxRetries es).g.data with
  | error e =>
    have := (refused_forever (setter_refuses hf hp) es2).2
    rw [this] at h; cases h
  | ok p =>
    obtain ⟨code, payload⟩ := p
    obtain ⟨h1, data, rfl, h2⟩ := (setter_run hf hp es2).2 r h
    have hs := setter_says E clientId (es := [.call call]) (by simp) hf _ hp
    refine ⟨h1, code, data, hs, ?_, h2⟩
    exact setter_changes E hf hp

/-- **C95** When a set command ends with any exit status but -1, its setting has been acknowledged: the last thing its setter did was to
send a message of the changing ones, its own and with the values given, and to get the empty answer to it. -/
theorem C95_done (hW : NoOtherCalls W) (hU : E.uni.Ascii) {a : CliArgs} {found : List Host} {host : ConnectArgs} {cmd : CliCmd} {call : Call} {d : Val}
    (hu : Uses a found host) (hc : a.action = .cmd cmd) (hr : LetsIn (liveGate E clientId maxRetries W) host d) (hw : Wants C d cmd call)
    {n : Int} (hres : (cli E C (liveGate E clientId maxRetries W) a found).result = .ok n) (hn : n ≠ -1) :
    ∃ pre post code data, (cli E C (liveGate E clientId maxRetries W) a found).calls = pre ++ (call, .ok .none) :: post ∧
      Says clientId [.call call] code data ∧ code ∈ changeCodes ∧
      EndsWith (actsOf E clientId maxRetries (history W 0 (pre.map (·.1))) call (W pre.length)) code data (some []) := by
  have hok := C76_success a found n hres hn
  have hset : (cli E C (liveGate E clientId maxRetries W) a found).setters = [call] := by
    rcases C75_sets (E := E) hU hu hc hr hw with he | ⟨-, -, e, he⟩
    · exact he
    · obtain ⟨r, hr⟩ := hok _ he; cases hr
  have hm : call ∈ (cli E C (liveGate E clientId maxRetries W) a found).setters := by rw [hset]; simp
  obtain ⟨hm, hset⟩ := List.mem_filter.1 hm
  obtain ⟨⟨c, r⟩, hm', rfl⟩ := List.mem_map.1 hm
  obtain ⟨r', hr'⟩ := hok _ hm'
  cases hr'
  obtain ⟨pre, post, he⟩ := List.append_of_mem hm'
  have hg := cli_gate he
  have hres : resultOf E clientId maxRetries (history W 0 (pre.map (·.1))) c (W pre.length) = some (.ok r') := by
    simp only [liveGate] at hg
    cases h : resultOf E clientId maxRetries (history W 0 (pre.map (·.1))) c (W pre.length) with
    | none => rw [h] at hg; cases hg
    | some x => rw [h] at hg; exact congrArg some hg
  obtain ⟨rfl, code, data, h1, h2, h3⟩ := setter_done E clientId maxRetries hset hres
  exact ⟨pre, post, code, data, he, h1, h2, h3⟩

end

/-! ## A run -/

/-- The adapter's answers to one update, on its first connection: this status, and nothing else new. -/
def pollAt (st : Bytes) (t : Nat) (id : Int) : List Ev :=
  reply 0 id 12527 st ++ [.resume t] ++ reply 0 (id + 1) 12585 [] ++ [.resume t] ++ reply 0 (id + 2) 12593 [] ++ [.resume t] ++
    reply 0 (id + 3) 12573 [] ++ [.resume t] ++ reply 0 (id + 4) 8111 [] ++ [.resume t]

/-- Circuit 505 is on. -/
def onStatus : Spec.Status := { sampleStatus with circuits := [⟨505, 1, 2, 1, 10, 0⟩], countFits := by decide }

/-- What happens during `screenlogicpy -i 10.0.0.2 set circuit 505 on`: connecting, the first update, the button press, the second
update, disconnecting. -/
def pressEvs : Nat → List Ev
  | 0 => loginEvs 0 0 ++ configEvs 0 0
  | 1 => pollAt [] 1 4
  | 2 => reply 0 9 12531 [] ++ [.resume 2]
  | 3 => pollAt onStatus.enc 3 10
  | 4 => [.net 0 .lost, .net 0 (.closeFinish 0), .resume 4]
  | _ => []

theorem press_alone : NoOtherCalls pressEvs := by
  intro n a h
  match n with
  | 0 => simp [pressEvs, loginEvs, configEvs, reply] at h
  | 1 => simp [pressEvs, pollAt, reply] at h
  | 2 => simp [pressEvs, reply] at h
  | 3 => simp [pressEvs, pollAt, reply] at h
  | 4 => simp [pressEvs] at h
  | n + 5 => simp [pressEvs] at h

theorem letsIn_of {G : Gate} {host : ConnectArgs} {r1 r2 : Res} {x : Val} (h1 : (G [] (.connect host)).1 = .ok r1)
    (h2 : (G [(.connect host, .ok r1)] .update).1 = .ok r2) (h3 : (G [(.connect host, .ok r1)] .update).2.look [.s "controller"] = some x) :
    LetsIn G host (G [(.connect host, .ok r1)] .update).2 :=
  ⟨r1, (G [] (.connect host)).2, r2, x, Prod.ext h1 rfl, Prod.ext h2 rfl, h3⟩

/-- That run. -/
def pressRun : Run Int := cli sampleEnv smallClock (liveGate sampleEnv 1 1 pressEvs) (smallArgs (.cmd (.setCircuit 505 "on"))) []

/-- The hypotheses of C95 are met by that run, which ends with status 0 and shows 1 (on); its messages are the greetings, the queries and one button press. -/
theorem C95_witness :
    NoOtherCalls pressEvs ∧ sampleEnv.uni.Ascii ∧ Uses (smallArgs (.cmd (.setCircuit 505 "on"))) [] { ip := some "10.0.0.2", port := some 80 } ∧
    (∃ d, LetsIn (liveGate sampleEnv 1 1 pressEvs) { ip := some "10.0.0.2", port := some 80 } d ∧
      Wants smallClock d (.setCircuit 505 "on") (.setCircuit (.int 505) (.int 1))) ∧
    pressRun.result = .ok 0 ∧ pressRun.calls.map (·.2) = .ok (.bool true) :: List.replicate 4 (.ok .none) ∧
    (pressRun.out.map fun | .value v => v | _ => .null) = [.int 1] ∧
    ((after sampleEnv 1 1 (pressRun.history pressEvs)).g.log.filterMap fun e => match e.2 with | .ask _ code _ => some code | _ => none) =
      [14, 27, 8120, 12532, 12526, 12584, 12592, 12572, 8110, 12530, 12526, 12584, 12592, 12572, 8110] := by
  refine ⟨press_alone, sample_ascii, small_uses _, ?_, by decide +kernel, by decide +kernel, by decide +kernel, by decide +kernel⟩
  have h1 : (liveGate sampleEnv 1 1 pressEvs [] (.connect { ip := some "10.0.0.2", port := some 80 })).1 = .ok (.bool true) := by decide +kernel
  have h2 : (liveGate sampleEnv 1 1 pressEvs [(.connect { ip := some "10.0.0.2", port := some 80 }, .ok (.bool true))] .update).1 = .ok .none := by decide +kernel
  have h3 : ((liveGate sampleEnv 1 1 pressEvs [(.connect { ip := some "10.0.0.2", port := some 80 }, .ok (.bool true))] .update).2.look [.s "controller"]).isSome = true := by
    decide +kernel
  have h4 : ((liveGate sampleEnv 1 1 pressEvs [(.connect { ip := some "10.0.0.2", port := some 80 }, .ok (.bool true))] .update).2.look
      [.s "circuit", .i 505]).isSome = true := by
    decide +kernel
  obtain ⟨x, hx⟩ := Option.isSome_iff_exists.1 h3
  obtain ⟨y, hy⟩ := Option.isSome_iff_exists.1 h4
  exact ⟨(liveGate sampleEnv 1 1 pressEvs [(.connect { ip := some "10.0.0.2", port := some 80 }, .ok (.bool true))] .update).2,
    letsIn_of (G := liveGate sampleEnv 1 1 pressEvs) (host := { ip := some "10.0.0.2", port := some 80 }) (r1 := .bool true) (r2 := .none) (x := x) h1 h2 hx,
    .circuit 505 "on" 1 y hy ⟨"ON", by decide, .inr (by decide +kernel)⟩⟩

end SL
