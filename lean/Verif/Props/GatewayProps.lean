import Verif.Lemmas.Sample
import Verif.Lemmas.Safe
import Verif.Spec.Calls
/-!
# C27, C28, C37, C38, C43: commands, retries, connecting
-/
set_option linter.unusedVariables false

namespace SL

/-! ## C27 -/

/-- The task of a command. -/
def Command.co (m : Command) (c : Nat) (r : Int) : Co Res := do
  m.run c r
  return .none

theorem command_ack (m : Command) : ∃ payload, m.run = ackRequest m.code payload := by
  cases m <;> exact ⟨_, rfl⟩

/-- Where the task of a command stands. -/
def CommandAt (s : Sys) (t c : Nat) (code : Int) : Prop :=
  (s.g.acts t = [] ∧ ∃ e, s.result t = some (.error e)) ∨
  ∃ data, (s.g.acts t = [.ask c code data] ∧ s.result t = none) ∨
    ∃ o, s.g.acts t = [.ask c code data, .got o] ∧ s.result t = some (ackOutcome o)

/-- **C27** for the request functions themselves: start any command on any connection of any reachable gateway,
and let anything happen.  Unless its arguments cannot be packed, the command makes one request call, and it
ends exactly as `ackOutcome` says of how that call ended. -/
theorem C27_request (E : Env) (clientId maxRetries : Int) (es : List Ev) (m : Command) (c : Nat) (r : Int) (es2 : List Ev) :
    CommandAt (((after E clientId maxRetries es).spawn (m.co c r)).run E es2) (after E clientId maxRetries es).tasks.length c m.code := by
  have hlog := ((SysOk.init E False clientId maxRetries).run es (fun u => u.elim)).log
  rw [show ((Sys.init clientId maxRetries).run E es) = after E clientId maxRetries es from rfl] at hlog
  revert hlog
  generalize after E clientId maxRetries es = s
  intro hlog
  have hf := hlog.fresh
  generalize ht : s.tasks.length = t at hf ⊢
  obtain ⟨payload, hm⟩ := command_ack m
  generalize m.code = code at hm ⊢
  simp only [Command.co, hm]
  clear hm
  cases payload with
  | error e =>
    left
    have hd : (s.spawn (do ackRequest code (.error e) c r; return Res.none)).tasks[t]? = some (.done (.error e)) := by
      subst ht
      simp only [Sys.spawn, List.getElem?_concat_length]
      rfl
    have hacts : (s.spawn (do ackRequest code (.error e) c r; return Res.none)).g.acts t = [] := by
      rw [← hf]
      rfl
    have := done_forever E es2 hd
    exact ⟨this.2.trans hacts, e, by simp only [Sys.result, this.1]⟩
  | ok data =>
    right
    refine ⟨data, ?_⟩
    -- the continuation of the request call
    have hco : ∃ k : Except PyErr (Option Bytes) → Co Res, (do ackRequest code (.ok data) c r; return Res.none : Co Res) = .request c code data r k ∧
        ∀ o g, settle t (k o) g = (.done (ackOutcome o), g) := by
      refine ⟨_, rfl, ?_⟩
      intro o g
      cases o with
      | error e => rfl
      | ok v =>
        cases v with
        | none => rfl
        | some b => cases b <;> rfl
    obtain ⟨k, hk, hset⟩ := hco
    rw [hk]
    have key : ∀ (es : List Ev) (s : Sys), s.g.acts t = [.ask c code data] → (∃ i, s.tasks[t]? = some (.request c i k)) →
        ((s.run E es).g.acts t = [.ask c code data] ∧ (s.run E es).result t = none) ∨
        ∃ o, (s.run E es).g.acts t = [.ask c code data, .got o] ∧ (s.run E es).result t = some (ackOutcome o) := by
      intro es
      induction es with
      | nil =>
        intro s h1 ⟨i, h2⟩
        exact .inl ⟨h1, by simp only [Sys.run, List.foldl_nil, Sys.result, h2]⟩
      | cons ev es ih =>
        intro s h1 ⟨i, h2⟩
        have htl : t < s.tasks.length := (List.getElem?_eq_some_iff.1 h2).1
        have hrun : s.run E (ev :: es) = (s.step E ev).run E es := rfl
        rw [hrun]
        cases ho : ev.own t with
        | false =>
          have := step_other_task E s ev htl ho
          exact ih _ (this.2.trans h1) ⟨i, this.1.trans h2⟩
        | true =>
          cases ev with
          | opened t' ok =>
            obtain rfl : t' = t := by simpa [Ev.own] using ho
            have : s.step E (.opened t' ok) = s := by simp only [Sys.step, h2]
            rw [this]
            exact ih s h1 ⟨i, h2⟩
          | cancel t' =>
            obtain rfl : t' = t := by simpa [Ev.own] using ho
            have : s.step E (.cancel t') = s := by simp only [Sys.step, h2]
            rw [this]
            exact ih s h1 ⟨i, h2⟩
          | resume t' =>
            obtain rfl : t' = t := by simpa [Ev.own] using ho
            cases hoc : s.g.outcome c i with
            | none =>
              have : s.step E (.resume t') = s := by simp only [Sys.step, h2, hoc]
              rw [this]
              exact ih s h1 ⟨i, h2⟩
            | some o =>
              have : s.step E (.resume t') = s.put t' (.done (ackOutcome o), s.g.note t' (.got o)) := by
                simp only [Sys.step, h2, hoc, hset]
              have hd : (s.step E (.resume t')).tasks[t']? = some (.done (ackOutcome o)) := by
                rw [this]
                simp only [Sys.put, List.getElem?_set_self htl]
              have ha : (s.step E (.resume t')).g.acts t' = [.ask c code data, .got o] := by
                rw [this]
                simp only [Sys.put, acts_note_same, h1]
                rfl
              have hdf := done_forever E es hd
              rw [ha] at hdf
              refine .inr ⟨o, hdf.2, ?_⟩
              simp only [Sys.result, hdf.1]
          | _ => cases ho
    have ha : (s.g.ask t c code data r).2.acts t = [.ask c code data] := by rw [acts_ask_same, hf]; rfl
    cases ho : (s.g.ask t c code data r).2.outcome c (s.g.ask t c code data r).1 with
    | none =>
      have e : s.spawn (.request c code data r k) =
          { g := (s.g.ask t c code data r).2, tasks := s.tasks ++ [.request c (s.g.ask t c code data r).1 k] } := by
        simp only [Sys.spawn, ht, settle, ho]
      rw [e]
      refine key es2 _ ha ⟨(s.g.ask t c code data r).1, ?_⟩
      subst ht
      simp
    | some o =>
      have e : s.spawn (.request c code data r k) =
          { g := ((s.g.ask t c code data r).2).note t (.got o), tasks := s.tasks ++ [.done (ackOutcome o)] } := by
        simp only [Sys.spawn, ht, settle, ho, hset]
      rw [e]
      have hd : (Sys.mk (((s.g.ask t c code data r).2).note t (.got o)) (s.tasks ++ [.done (ackOutcome o)])).tasks[t]? = some (.done (ackOutcome o)) := by
        subst ht
        simp
      have hdf := done_forever E es2 hd
      refine .inr ⟨o, ?_, ?_⟩
      · rw [hdf.2, acts_note_same, ha]
        rfl
      · simp only [Sys.result, hdf.1]

theorem setter_has_plan (E : Env) (a : Call) (h : a.isSetter = true) : ∃ f, setterPlan E a = some f := by
  cases a <;> first | exact ⟨_, rfl⟩ | cases h

/-- **C27** for the gateway's setters: whatever happened before and happens afterwards, a setter that returns
has just received an empty acknowledgement of its command (and returns nothing else). -/
theorem C27_setter (E : Env) (clientId maxRetries : Int) (es : List Ev) (a : Call) (h : a.isSetter = true) (es2 : List Ev) (r : Res)
    (hr : resultOf E clientId maxRetries es a es2 = some (.ok r)) :
    r = .none ∧ ∃ code data, EndsWith (actsOf E clientId maxRetries es a es2) code data (some []) ∧ code ∉ connectCodes := by
  obtain ⟨f, hf⟩ := setter_has_plan E a h
  cases hp : f (after E clientId maxRetries es).g.data with
  | error e =>
    rw [(refused_forever (setter_refuses hf hp) es2).2] at hr
    cases hr
  | ok p =>
    obtain ⟨code, payload⟩ := p
    obtain ⟨h1, data, -, h2⟩ := (setter_run hf hp es2).2 r hr
    exact ⟨h1, code, data, h2, setter_code E hf hp⟩

/-! ## C28 -/

/-- **C28**: over every history of a gateway made with a `max_retries` between 1 and 5 (others are refused by the
constructor in the same way). -/
theorem C28_always (E : Env) (clientId maxRetries : Int) (h1 : 1 ≤ maxRetries) (h5 : maxRetries ≤ 5) (es : List Ev) :
    1 ≤ (after E clientId maxRetries es).g.maxRetries ∧ (after E clientId maxRetries es).g.maxRetries ≤ 5 :=
  reach_retries E clientId maxRetries h1 h5 es

/-- Out-of-range values raise `ValueError` and change nothing. -/
theorem C28_refused (g : Gw) (n : Int) (h : n < 1 ∨ 5 < n) : g.setMaxRetries n = (.error .valueError, g) := by
  simp only [Gw.setMaxRetries]
  rw [if_neg (by omega)]

/-- Values in range are taken, and nothing else changes. -/
theorem C28_taken (g : Gw) (n : Int) (h1 : 1 ≤ n) (h5 : n ≤ 5) : g.setMaxRetries n = (.ok (), { g with maxRetries := n }) := by
  simp only [Gw.setMaxRetries]
  rw [if_pos (by omega)]

/-- And only this call changes it. -/
theorem C28_only (E : Env) (clientId maxRetries : Int) (es : List Ev) (ev : Ev) (h : ∀ n, ev ≠ .setMaxRetries n) :
    (after E clientId maxRetries (es ++ [ev])).g.maxRetries = (after E clientId maxRetries es).g.maxRetries := by
  have hk : Part.Kept (Chg E) Gw.maxRetries :=
    ⟨fun f g hf => by
      cases hf with
      | _ => rfl, fun _ _ _ => rfl, fun _ _ _ => rfl, fun _ _ => rfl, fun _ _ => rfl, fun _ => rfl⟩
  rw [after_snoc]
  by_cases hc : ∃ a, ev = .call (.connect a)
  · obtain ⟨a, rfl⟩ := hc
    simp only [Sys.step, Sys.spawn]
    rcases settle_connect E (after E clientId maxRetries es).tasks.length a (after E clientId maxRetries es).g with
      ⟨_, e⟩ | ⟨_, _, e⟩ | ⟨_, _, k, hk, e⟩ <;> rw [e] <;> rfl
  · refine (Sys.All.step hk (reach_all E clientId maxRetries es) ev (fun a e => hc ⟨a, e⟩)
      (fun cb code _ _ => by simp only [Gw.addListener]; split <;> rfl) (fun n e => absurd e (h n)) ?_ ?_ ?_
      (fun _ => rfl) (fun _ => rfl) rfl).2
    · intro u _
      simp only [Gw.unsubscribe, Gw.dropCode]
      repeat' split
      all_goals rfl
    · intro c e
      simp only [Gw.lostCallback]
      repeat' split
      all_goals rfl
    · intro c _
      simp only [Gw.runHandler, Gw.commonCallback, Gw.commonCallback.notify]
      repeat' split
      all_goals rfl

/-! ## C37 -/

/-- **C37**: on a connected gateway, whatever the history and the arguments, `async_connect` returns `True` at
once and the whole state is as it was. -/
theorem C37_connected (E : Env) (clientId maxRetries : Int) (es : List Ev) (a : ConnectArgs)
    (h : (after E clientId maxRetries es).g.isConnected = true) :
    after E clientId maxRetries (es ++ [.call (.connect a)]) =
      { g := (after E clientId maxRetries es).g, tasks := (after E clientId maxRetries es).tasks ++ [.done (.ok (.bool true))] } := by
  rw [after_snoc]
  simp only [Sys.step, Sys.spawn]
  rcases settle_connect E (after E clientId maxRetries es).tasks.length a (after E clientId maxRetries es).g with
    ⟨_, e⟩ | ⟨hn, _, e⟩ | ⟨hn, _, k, hk, e⟩
  · rw [e]
  · rw [h] at hn; cases hn
  · rw [h] at hn; cases hn

/-- The connected state is reached. -/
theorem C37_witness : (after sampleEnv 1 1 connectEvs).g.isConnected = true := by decide +kernel

/-! ## C43 -/

theorem info_over (g : Gw) (a : ConnectArgs) : (g.remember a).info = a.over g.info := by
  obtain ⟨ip, port, gtype, subtype, name, cb⟩ := a
  cases ip <;> cases port <;> cases gtype <;> cases subtype <;> cases name <;> rfl

/-- **C43**, what the info is: it starts empty (`C43_initial`), and a call of `async_connect` on a gateway that is not
connected replaces exactly the fields it gives (on a connected one, nothing). -/
theorem C43_given (E : Env) (clientId maxRetries : Int) (es : List Ev) (a : ConnectArgs) :
    (after E clientId maxRetries (es ++ [.call (.connect a)])).g.info =
      if (after E clientId maxRetries es).g.isConnected then (after E clientId maxRetries es).g.info
      else a.over (after E clientId maxRetries es).g.info := by
  rw [after_snoc]
  simp only [Sys.step, Sys.spawn]
  rcases settle_connect E (after E clientId maxRetries es).tasks.length a (after E clientId maxRetries es).g with
    ⟨h, e⟩ | ⟨h, _, e⟩ | ⟨h, _, k, hk, e⟩
  · rw [e, h]; rfl
  · rw [e, h]; exact info_over _ a
  · rw [e, h]; exact info_over _ a

theorem info_unsubscribe (g : Gw) (u : Sub) : (g.unsubscribe u).info = g.info := by
  simp only [Gw.unsubscribe, Gw.dropCode]
  repeat' split
  all_goals rfl

theorem info_handler (E : Env) (g : Gw) (c : Nat) : (g.runHandler E c).info = g.info := by
  simp only [Gw.runHandler, Gw.commonCallback, Gw.commonCallback.notify]
  repeat' split
  all_goals rfl

/-- Nothing else ever changes it: no other call, no automatic reconnection, nothing from the network. -/
theorem C43_kept (E : Env) (clientId maxRetries : Int) (es : List Ev) (ev : Ev) (hev : ∀ a, ev ≠ .call (.connect a)) :
    (after E clientId maxRetries (es ++ [ev])).g.info = (after E clientId maxRetries es).g.info := by
  have hk : Part.Kept (Chg E) Gw.info :=
    ⟨fun f g hf => by
      cases hf with
      | remember =>
        change (Gw.remember g {}).info = g.info
        rw [info_over]
        rfl
      | _ => rfl, fun _ _ _ => rfl, fun _ _ _ => rfl, fun _ _ => rfl, fun _ _ => rfl, fun _ => rfl⟩
  rw [after_snoc]
  refine (Sys.All.step hk (reach_all E clientId maxRetries es) ev hev (fun cb code _ _ => by simp only [Gw.addListener]; split <;> rfl) ?_ ?_ ?_ ?_ (fun _ => rfl) (fun _ => rfl) rfl).2
  · intro n _
    simp only [Gw.setMaxRetries]
    split <;> rfl
  · exact fun u _ => info_unsubscribe _ u
  · intro c e
    simp only [Gw.lostCallback]
    repeat' split
    all_goals rfl
  · exact fun c _ => info_handler E _ c

/-- A new gateway knows no ip; the port is 80. -/
theorem C43_initial (E : Env) (clientId maxRetries : Int) :
    (after E clientId maxRetries []).g.info = (none, 80, 0, 0, "Unnamed-Screenlogic-Gateway") := rfl

/-- **C43**, how it is used: a gateway that is not connected opens a connection to the ip and port it now
remembers, and does nothing else before that connection is made. -/
theorem C43_opens (E : Env) (clientId maxRetries : Int) (es : List Ev) (a : ConnectArgs)
    (h : (after E clientId maxRetries es).g.isConnected = false) (host : String)
    (hip : (a.over (after E clientId maxRetries es).g.info).1 = some host) (hne : host ≠ "") :
    actsOf E clientId maxRetries es (.connect a) [] = [.opn host (a.over (after E clientId maxRetries es).g.info).2.1] ∧
    (after E clientId maxRetries (es ++ [.call (.connect a)])).g.conns = (after E clientId maxRetries es).g.conns := by
  have hi := info_over (after E clientId maxRetries es).g a
  have h1 : ((after E clientId maxRetries es).g.remember a).ip = some host := by
    have := congrArg (·.1) hi
    simp only [Gw.info] at this
    rw [this]
    exact hip
  have h2 : ((after E clientId maxRetries es).g.remember a).port = (a.over (after E clientId maxRetries es).g.info).2.1 := by
    have := congrArg (·.2.1) hi
    simpa only [Gw.info] using this
  have hf := fresh_acts E clientId maxRetries es
  simp only [actsOf, after_snoc]
  simp only [callTask] at hf ⊢
  simp only [Sys.step, Sys.spawn]
  rcases settle_connect E (after E clientId maxRetries es).tasks.length a (after E clientId maxRetries es).g with
    ⟨hc, e⟩ | ⟨hc, hn, e⟩ | ⟨hc, hn, k, hk, e⟩
  · rw [h] at hc; cases hc
  · simp only [Gw.noIp, h1] at hn
    simp [hne] at hn
  · rw [e]
    refine ⟨?_, rfl⟩
    simp only [acts_note_same, h1, h2]
    change (after E clientId maxRetries es).g.acts _ ++ _ = _
    rw [hf]
    rfl

/-- Without any ip it raises ScreenLogicError at once and contacts nobody. -/
theorem C43_no_ip (E : Env) (clientId maxRetries : Int) (es : List Ev) (a : ConnectArgs)
    (h : (after E clientId maxRetries es).g.isConnected = false)
    (hip : (a.over (after E clientId maxRetries es).g.info).1 = none ∨ (a.over (after E clientId maxRetries es).g.info).1 = some "") (es2 : List Ev) :
    actsOf E clientId maxRetries es (.connect a) es2 = [] ∧ resultOf E clientId maxRetries es (.connect a) es2 = some (.error .slError) := by
  have hi := info_over (after E clientId maxRetries es).g a
  have h1 : ((after E clientId maxRetries es).g.remember a).ip = none ∨ ((after E clientId maxRetries es).g.remember a).ip = some "" := by
    have := congrArg (·.1) hi
    simp only [Gw.info] at this
    rw [this]
    exact hip
  have hf := fresh_acts E clientId maxRetries es
  have hd : (after E clientId maxRetries (es ++ [.call (.connect a)])).tasks[callTask E clientId maxRetries es]? = some (.done (.error .slError)) ∧
      (after E clientId maxRetries (es ++ [.call (.connect a)])).g.acts (callTask E clientId maxRetries es) = [] := by
    simp only [after_snoc, callTask] at hf ⊢
    simp only [Sys.step, Sys.spawn, List.getElem?_concat_length]
    rcases settle_connect E (after E clientId maxRetries es).tasks.length a (after E clientId maxRetries es).g with
      ⟨hc, e⟩ | ⟨hc, hn, e⟩ | ⟨hc, hn, k, hk, e⟩
    · rw [h] at hc; cases hc
    · rw [e]; exact ⟨rfl, hf⟩
    · rcases h1 with h1 | h1
      · simp [Gw.noIp, h1] at hn
      · simp [Gw.noIp, h1] at hn
  have := done_forever E es2 hd.1
  rw [← after_call_cons] at this
  exact ⟨this.2.trans hd.2, by simp only [resultOf, Sys.result, this.1]⟩

/-- A concrete history: connected, the connection is lost, reconnecting with another port only. -/
theorem C43_witness :
    (after sampleEnv 1 1 (connectEvs ++ [.net 0 .lost])).g.isConnected = false ∧
    actsOf sampleEnv 1 1 (connectEvs ++ [.net 0 .lost]) (.connect { port := some 8080 }) [] = [.opn "10.0.0.1" 8080] ∧
    resultOf sampleEnv 1 1 [] (.connect { port := some 8080 }) [] = some (.error .slError) := by decide +kernel

/-! ## C38 -/

/-- **C38**, setters. -/
theorem C38_setter (E : Env) (clientId maxRetries : Int) (es : List Ev) (a : Call) (h : a.isSetter = true) (es2 : List Ev) :
    ∃ x, AtMostTwice (actsOf E clientId maxRetries es a es2) x := by
  obtain ⟨f, hf⟩ := setter_has_plan E a h
  cases hp : f (after E clientId maxRetries es).g.data with
  | error e =>
    rw [(refused_forever (setter_refuses hf hp) es2).1]
    exact ⟨(0, []), 0, by omega, rfl, by omega⟩
  | ok p =>
    obtain ⟨code, payload⟩ := p
    obtain ⟨k, data, hk, hd, e, hcl⟩ := (setter_run hf hp es2).1
    exact ⟨(code, data), k, hk, by simpa using e, fun h => hcl (by omega)⟩

theorem sent_twice {code : Int} {data : Bytes} {h : List Act} (hs : Sent [] code (.ok data) 2 h) : AtMostTwice h (code, data) := by
  obtain ⟨k, d, hk, hd, e, hcl⟩ := hs
  refine ⟨k, hk, ?_, fun h => hcl (by omega)⟩
  cases k with
  | zero => simpa using e
  | succ k =>
    cases hd (by omega)
    simpa using e

/-- **C38**, getters: and a getter that returns has made its request and got a reply to it last. -/
theorem C38_getter (E : Env) (clientId maxRetries : Int) (es : List Ev) (a : Call) (x : Int × Bytes) (hx : a.getter = some x) (es2 : List Ev) :
    AtMostTwice (actsOf E clientId maxRetries es a es2) x ∧
    ∀ r, resultOf E clientId maxRetries es a es2 = some (.ok r) → ∃ v, EndsWith (actsOf E clientId maxRetries es a es2) x.1 x.2 v := by
  have key : ∀ (key : Path) (D : Gw → Decoder) (code : Int) (payload : Except PyErr Bytes) (data : Bytes), payload = .ok data →
      (∀ g, (D g).query = some (code, payload)) → (∀ g, (D g).rawPath = key) → code ∉ connectCodes →
      (a.co E = do poll key (queryRequest E D code payload); return .none) →
      AtMostTwice (actsOf E clientId maxRetries es a es2) (code, data) ∧
      ∀ r, resultOf E clientId maxRetries es a es2 = some (.ok r) → ∃ v, EndsWith (actsOf E clientId maxRetries es a es2) code data v := by
    intro key D code payload data hp hD hkey hcode hco
    have h := call_run (E := E) (clientId := clientId) (maxRetries := maxRetries) (U := False) (X := noX) (I := Sent [] code payload 2)
      (hc_sent (fun _ h => h)) (Q := fun h o => ∀ r, o = .ok r → ∃ v, EndsWith h code data v) es a es2
      (fun u => u.elim) (fun _ _ _ _ _ _ _ => trivial) trivial ((Sent.zero rfl code payload).mono (by omega)) ?_
    · refine ⟨sent_twice (hp ▸ h.1), fun r hr => h.2 _ hr r rfl⟩
    · rintro g rfl s
      rw [hco]
      refine Co.wp_bind' _ _ _ _ (Co.wp_mono ?_ _ _ _ (wp_pollSent (E := E) hD hkey hcode (l0 := []) (fun h' x _ => x) s rfl))
      intro h o g hq
      cases o with
      | error e => intro r hr; cases hr
      | ok u =>
        intro r hr
        obtain ⟨d, k, hd, _, _, _, _, v, he, _⟩ := hq.2.2.2 rfl
        rw [hp] at hd
        cases hd
        exact ⟨v, he⟩
  cases a with
  | getStatus => cases hx; exact key _ (fun _ => .status) _ _ _ rfl (fun _ => rfl) (fun _ => rfl) (by decide) rfl
  | getChemistry => cases hx; exact key _ (fun _ => .chemistry) _ _ _ rfl (fun _ => rfl) (fun _ => rfl) (by decide) rfl
  | getScg => cases hx; exact key _ (fun _ => .scg) _ _ _ rfl (fun _ => rfl) (fun _ => rfl) (by decide) rfl
  | getDatetime => cases hx; exact key _ (fun g => .dateTime g.now) _ _ _ rfl (fun _ => rfl) (fun _ => rfl) (by decide) rfl
  | _ => cases hx

/-- **C38**, messages sent by hand. -/
theorem C38_send (E : Env) (clientId maxRetries : Int) (es : List Ev) (code : Int) (data : Bytes) (hcode : code ∉ connectCodes) (es2 : List Ev) :
    AtMostTwice (actsOf E clientId maxRetries es (.send code data) es2) (code, data) ∧
    ∀ r, resultOf E clientId maxRetries es (.send code data) es2 = some (.ok r) →
      ∃ v, r = .bytes v ∧ EndsWith (actsOf E clientId maxRetries es (.send code data) es2) code data v := by
  have h := call_run (E := E) (clientId := clientId) (maxRetries := maxRetries) (U := False) (X := noX) (I := Sent [] code (.ok data) 2)
    (hc_sent (fun _ h => h)) (Q := fun h o => ∀ r, o = .ok r → ∃ v, r = .bytes v ∧ EndsWith h code data v) es (.send code data) es2
    (fun u => u.elim) (fun _ _ _ _ _ _ _ => trivial) trivial ((Sent.zero rfl code (.ok data)).mono (by omega)) ?_
  · exact ⟨sent_twice h.1, fun r hr => h.2 _ hr r rfl⟩
  · rintro g rfl s
    refine Co.wp_bind' _ _ _ _ (Co.wp_mono ?_ _ _ _ (wp_send (E := E) (fun u => u.elim) (fun h' x => x hcode) s rfl))
    intro h o g hq
    cases o with
    | error e => intro r hr; cases hr
    | ok u =>
      intro r hr
      cases hr
      exact ⟨u, rfl, hq.2.2 u rfl⟩

/-- A request that really is made twice: the adapter rejects it, the library reconnects and asks again. -/
theorem C38_witness :
    userAsks (actsOf sampleEnv 1 1 bareConnectEvs .getScg (rejectEvs 1 0 4 ++ loginEvs 1 1 ++ noConfigEvs 1 1)) =
      [(12572, [0, 0, 0, 0]), (12572, [0, 0, 0, 0])] := by
  decide +kernel

/-- The two outcomes of a command, concretely: acknowledged, and answered with something else. -/
theorem C27_witness :
    ((((after sampleEnv 1 1 bareConnectEvs).spawn (Command.ping.co 0 1)).run sampleEnv (reply 0 4 17 [] ++ [.resume 1])).result 1 = some (.ok .none)) ∧
    ((((after sampleEnv 1 1 bareConnectEvs).spawn (Command.ping.co 0 1)).run sampleEnv (reply 0 4 17 [1] ++ [.resume 1])).result 1 =
      some (.error .slResponse)) := by
  decide +kernel

end SL
