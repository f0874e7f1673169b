import Verif.Lemmas.Stages
import Verif.Lemmas.Sample
/-!
# How a connection begins (C81), and when one is started (C39)
-/
set_option linter.unusedVariables false

namespace SL

/-- **C81** (one connection, any history).  On every connection a gateway ever makes, the requests begin with challenge,
login and version, with these payloads: what was asked on it is an initial part of these three, or begins with them. -/
theorem C81_greetings (E : Env) (clientId maxRetries : Int) (es : List Ev) (c : Nat) :
    asksOn c (after E clientId maxRetries es).g.log <+: greetings ∨
    greetings <+: asksOn c (after E clientId maxRetries es).g.log := by
  obtain ⟨owns, h⟩ := reach_shy E clientId maxRetries es
  exact h.ok.pre c

/-- **C81** (the first bytes).  The only bytes written to a connection outside of messages are the text
`CONNECTSERVERHOST` and two line ends, once. -/
theorem C81_hello (E : Env) (clientId maxRetries : Int) (es : List Ev) (x : Conn)
    (hx : x ∈ (after E clientId maxRetries es).g.conns) : x.raw = [helloBytes] := by
  obtain ⟨owns, h⟩ := reach_shy E clientId maxRetries es
  exact h.ok.raw _ (List.mem_map_of_mem hx)

/-- **C81** (the connection in use).  The connection the gateway uses, and the one its push subscription uses, have been
greeted completely: no other request precedes the login. -/
theorem C81_used (E : Env) (clientId maxRetries : Int) (es : List Ev) (c : Nat)
    (hc : (after E clientId maxRetries es).g.protocol = some c ∨ (after E clientId maxRetries es).g.cmProto = some c) :
    greetings <+: asksOn c (after E clientId maxRetries es).g.log ∧ c < (after E clientId maxRetries es).g.conns.length := by
  obtain ⟨owns, h⟩ := reach_shy E clientId maxRetries es
  have := h.ok.use c hc
  exact ⟨this.2.resolve_right (fun e => by cases e), this.1⟩

/-- The first piece of a connect call that has to connect. -/
theorem connect_opening (E : Env) (t : Nat) (a : ConnectArgs) (g : Gw) (hn : g.isConnected = false) {h : String}
    (hh : a.ip.or g.ip = some h) (hne : h ≠ "") : settle t ((Call.connect a).co E) g =
      (.opening g.maxRetries boolK, (g.remember a).note t (.opn h (a.port.getD g.port))) := by
  have hc' : ¬ g.isConnected = true := by simp [hn]
  have hn' : ¬ (g.remember a).noIp = true := by
    have e : (g.remember a).ip = some h := hh
    simp [Gw.noIp, e, hne]
  change settle t (Co.bindE (if g.isConnected then _ else _) _) g = _
  rw [if_neg hc']
  change settle t (Co.bindE (if (g.remember a).noIp then _ else _) _) (g.remember a) = _
  rw [if_neg hn']
  have e : (g.remember a).ip.getD "" = h := by
    have e : (g.remember a).ip = some h := hh
    rw [e]; rfl
  change (Task.opening g.maxRetries boolK, (g.remember a).note t (.opn ((g.remember a).ip.getD "") (g.remember a).port)) = _
  rw [e]
  rfl

theorem connect_stage (E : Env) (clientId maxRetries : Int) (es : List Ev) (a : ConnectArgs) {h : String}
    (hn : (after E clientId maxRetries es).g.isConnected = false)
    (hh : a.ip.or (after E clientId maxRetries es).g.ip = some h) (hne : h ≠ "") (es2 : List Ev) :
    ∃ y, (after E clientId maxRetries (es ++ .call (.connect a) :: es2)).tasks[callTask E clientId maxRetries es]? = some y ∧
      Stage E h (a.port.getD (after E clientId maxRetries es).g.port)
        ((after E clientId maxRetries (es ++ .call (.connect a) :: es2)).g.acts (callTask E clientId maxRetries es)) y := by
  have e2 := after_call_cons E clientId maxRetries es (.connect a) es2
  rw [e2]
  have e3 := after_snoc E clientId maxRetries es (.call (.connect a))
  have e4 : (after E clientId maxRetries es).step E (.call (.connect a)) = (after E clientId maxRetries es).spawn ((Call.connect a).co E) := rfl
  have hf := fresh_acts E clientId maxRetries es
  rw [callTask] at hf ⊢
  have e5 := connect_opening E (after E clientId maxRetries es).tasks.length a (after E clientId maxRetries es).g hn hh hne
  refine stage_run es2 (x := .opening (after E clientId maxRetries es).g.maxRetries boolK) ?_ ?_
  · rw [e3, e4]
    simp only [Sys.spawn, e5]
    simp
  · rw [e3, e4]
    simp only [Sys.spawn, e5]
    have : ∀ (g g' : Gw) t act, g'.log = g.log → g.acts t = [] → (g'.note t act).acts t = [act] := by
      intro g g' t act hl hg
      simp only [Gw.acts] at hg
      simp only [Gw.acts, Gw.note, List.filter_append, List.map_append, hl, hg]
      simp
    rw [this (after E clientId maxRetries es).g ((after E clientId maxRetries es).g.remember a) _ _ rfl hf]
    exact .opening _

/-- **C81** (the connect call).  Whatever else happens, an `async_connect` made while the gateway is not connected, with a
host that is known, goes through the handshake in this order, and every step waits for the answer to the one before:
`Begins` lists what it may have done and with which result. -/
theorem C81_connect (E : Env) (clientId maxRetries : Int) (es : List Ev) (a : ConnectArgs) (h : String)
    (hn : (after E clientId maxRetries es).g.isConnected = false)
    (hh : a.ip.or (after E clientId maxRetries es).g.ip = some h) (hne : h ≠ "") (es2 : List Ev) :
    Begins h (a.port.getD (after E clientId maxRetries es).g.port) (actsOf E clientId maxRetries es (.connect a) es2)
      (resultOf E clientId maxRetries es (.connect a) es2) := by
  obtain ⟨y, h1, h2⟩ := connect_stage E clientId maxRetries es a hn hh hne es2
  rw [resultOf, result_eq h1, actsOf]
  exact h2.begins

/-- **C81** (the version).  When the answer `v` to the version request arrives, the connect call goes on if and only if
the adapter's version is then known; otherwise it returns False at once, and if the answer cannot be decoded it raises
that error. -/
theorem C81_version (E : Env) (clientId maxRetries : Int) (es : List Ev) (a : ConnectArgs) (h : String)
    (hn : (after E clientId maxRetries es).g.isConnected = false)
    (hh : a.ip.or (after E clientId maxRetries es).g.ip = some h) (hne : h ≠ "") (es2 : List Ev) (ev : Ev)
    (b b' : Bytes) (c : Nat) (p : Int) (v : Option Bytes) (l : List Act)
    (h1 : actsOf E clientId maxRetries es (.connect a) es2 = [.opn h p, .ask c 14 [], .got (.ok (some b)), .ask c 27 loginBytes,
      .got (.ok (some b')), .ask c 8120 []])
    (h2 : actsOf E clientId maxRetries es (.connect a) (es2 ++ [ev]) = [.opn h p, .ask c 14 [], .got (.ok (some b)),
      .ask c 27 loginBytes, .got (.ok (some b')), .ask c 8120 [], .got (.ok v)] ++ l) :
    let D := decodedVersion E v (after E clientId maxRetries (es ++ .call (.connect a) :: es2)).g.data
    (∀ e, D.1 = .error e → resultOf E clientId maxRetries es (.connect a) (es2 ++ [ev]) = some (.error e) ∧ l = []) ∧
    (D.1 = .ok () → versionKnown D.2 = false →
      resultOf E clientId maxRetries es (.connect a) (es2 ++ [ev]) = some (.ok (.bool false)) ∧ l = []) ∧
    (D.1 = .ok () → versionKnown D.2 = true →
      resultOf E clientId maxRetries es (.connect a) (es2 ++ [ev]) ≠ some (.ok (.bool false))) := by
  obtain ⟨y, hy, hs⟩ := connect_stage E clientId maxRetries es a hn hh hne es2
  have e0 : after E clientId maxRetries (es ++ .call (.connect a) :: (es2 ++ [ev])) =
      (after E clientId maxRetries (es ++ .call (.connect a) :: es2)).step E ev := by
    rw [← after_snoc]
    simp
  rw [actsOf] at h1 h2
  rw [e0] at h2
  simp only [resultOf, e0]
  generalize after E clientId maxRetries (es ++ .call (.connect a) :: es2) = s at *
  generalize callTask E clientId maxRetries es = t at *
  have key : ∃ i k, y = .request c i k ∧ VerK E k := by
    rw [h1] at hs
    generalize hl : [Act.opn h p, .ask c 14 [], .got (.ok (some b)), .ask c 27 loginBytes, .got (.ok (some b')), .ask c 8120 []] = l0 at hs
    cases hs with
    | opening => simp at hl
    | pausing => simp at hl
    | challenge => simp at hl
    | login => simp at hl
    | version c' i k hk =>
      simp only [List.cons.injEq, Act.ask.injEq] at hl
      obtain ⟨-, ⟨hc, -⟩, -⟩ := hl
      exact ⟨i, k, by rw [hc], hk⟩
    | later => simp at hl
    | over l0 r hb =>
      exfalso
      have := done_forever E [ev] hy
      have e : (s.step E ev).g.acts t = s.g.acts t := this.2
      rw [e, h1] at h2
      simp at h2
  obtain ⟨i, k, rfl, hk⟩ := key
  have ht : t < s.tasks.length := (List.getElem?_eq_some_iff.1 hy).1
  have nochange : (s.step E ev).g.acts t ≠ s.g.acts t := by
    rw [h1, h2]
    simp
  cases ho : ev.own t with
  | false => exact absurd (step_other_task E s ev ht ho).2 nochange
  | true =>
    have ev_eq : (∃ ok, ev = .opened t ok) ∨ ev = .resume t ∨ ev = .cancel t := by
      cases ev <;> simp_all [Ev.own]
    have e1 : ∃ o, s.step E ev = s.put t (settle t (k o) (s.g.note t (.got o))) := by
      rcases ev_eq with ⟨ok, rfl⟩ | rfl | rfl
      · exact absurd (by simp only [Sys.step, hy]) nochange
      · cases h : s.g.outcome c i with
        | none => exact absurd (by simp only [Sys.step, hy, h]) nochange
        | some o => exact ⟨o, by simp only [Sys.step, hy, h]⟩
      · exact absurd (by simp only [Sys.step, hy]) nochange
    obtain ⟨o, e1⟩ := e1
    have hacts : (s.g.note t (.got o)).acts t = s.g.acts t ++ [.got o] := acts_got _ _ _
    rw [e1] at h2 ⊢
    rw [result_eq (put_task hy _)]
    change (settle t (k o) (s.g.note t (.got o))).2.acts t = _ at h2
    have hov : o = .ok v ∧ (∀ e, (decodedVersion E v s.g.data).1 = .error e → (settle t (k o) (s.g.note t (.got o))).1 = .done (.error e) ∧ l = []) ∧
        ((decodedVersion E v s.g.data).1 = .ok () → versionKnown (decodedVersion E v s.g.data).2 = false →
          (settle t (k o) (s.g.note t (.got o))).1 = .done (.ok (.bool false)) ∧ l = []) ∧
        ((decodedVersion E v s.g.data).1 = .ok () → versionKnown (decodedVersion E v s.g.data).2 = true →
          (settle t (k o) (s.g.note t (.got o))).1.Leaves notFalse) := by
      have grow : ∃ l', (settle t (k o) (s.g.note t (.got o))).2.acts t = s.g.acts t ++ [.got o] ++ l' := by
        have := (settle_leaves (Q := fun _ => True) t (k o) (s.g.note t (.got o)) (by
          have : ∀ co : Co Res, co.Leaves (fun _ => True) := by
            intro co
            induction co with
            | ret a => trivial
            | throw e => trivial
            | get k ih => exact fun g => ih g
            | upd u k ih => exact ih
            | request c code data r k ih => exact fun o => ih o
            | openConn r k ih => exact fun o => ih o
            | sleep k ih => exact fun o => ih o
            | close c force k ih => exact fun o => ih o
            | acquire k ih => exact fun o => ih o
          exact this _)).2
        obtain ⟨l', hl'⟩ := adds_acts this
        exact ⟨l', by rw [hl', hacts]⟩
      obtain ⟨l', hl'⟩ := grow
      have hov : o = .ok v ∧ l' = l := by
        rw [hl', h1] at h2
        simpa using h2
      obtain ⟨rfl, rfl⟩ := hov
      have same : (settle t (k (.ok v)) (s.g.note t (.got (.ok v)))).2.log = (s.g.note t (.got (.ok v))).log → l' = [] := by
        intro hlog
        rw [Gw.acts, hlog, ← Gw.acts, hacts] at hl'
        simpa using hl'
      refine ⟨rfl, fun e he => ?_, fun hd hv => ?_, fun hd hv => ?_⟩
      · have := hk.bad v s.g.data e (by rw [← he]) t (s.g.note t (.got (.ok v))) rfl
        exact ⟨this.1, same this.2⟩
      · have := hk.no v (s.g.note t (.got (.ok v))) t hd hv
        exact ⟨this.1, same this.2⟩
      · obtain ⟨co, g', e, hl, hlog⟩ := hk.yes v (s.g.note t (.got (.ok v))) t hd hv
        rw [e]
        exact (settle_leaves t co g' hl).1
    obtain ⟨rfl, q1, q2, q3⟩ := hov
    refine ⟨fun e he => ?_, fun hd hv => ?_, fun hd hv => ?_⟩
    · have := q1 e he
      rw [this.1]
      exact ⟨rfl, this.2⟩
    · have := q2 hd hv
      rw [this.1]
      exact ⟨rfl, this.2⟩
    · have := q3 hd hv
      intro hr
      cases hx : (settle t (k (.ok v)) (s.g.note t (.got (.ok v)))).1 with
      | done r =>
        rw [hx] at hr this
        cases hr
        exact this rfl
      | _ =>
        rw [hx] at hr
        cases hr

/-- **C39** (the part that holds).  No TCP connection is ever started while the gateway is connected: at the end of the
uninterrupted piece of execution in which an attempt is started, the gateway is not connected. -/
theorem C39_partial (E : Env) (clientId maxRetries : Int) (es : List Ev) (ev : Ev) :
    ∃ l, (after E clientId maxRetries (es ++ [ev])).g.log = (after E clientId maxRetries es).g.log ++ l ∧
      ((∃ t h p, (t, Act.opn h p) ∈ l) → (after E clientId maxRetries (es ++ [ev])).g.isConnected = false) := by
  obtain ⟨owns, h⟩ := reach_shy E clientId maxRetries es
  rw [after_snoc]
  exact (step_shy E h ev).opn

/-! ## Concrete cases -/

/-- A connection on which the configuration request follows the greetings. -/
example : asksOn 0 (after sampleEnv 1 1 connectEvs).g.log = greetings ++ [(12532, [0, 0, 0, 0, 0, 0, 0, 0])] := by decide +kernel

example : (after sampleEnv 1 1 connectEvs).g.protocol = some 0 := by decide +kernel

/-- The events up to the answer to the version request. -/
def versionEvs (answer : Bytes) : List Ev :=
  [.opened 0 true, .resume 0] ++ reply 0 0 15 (wireText "00-C0-33-00-00-01") ++ [.resume 0] ++ reply 0 1 28 [] ++ [.resume 0] ++
    reply 0 2 8121 answer

/-- The hypotheses of `C81_connect` and `C81_version` are met: the adapter answers the version request with an empty payload,
and the call returns False. -/
example : (after sampleEnv 1 1 []).g.isConnected = false ∧
    actsOf sampleEnv 1 1 [] (.connect { ip := some "10.0.0.1" }) (versionEvs []) =
      [.opn "10.0.0.1" 80, .ask 0 14 [], .got (.ok (some (wireText "00-C0-33-00-00-01"))), .ask 0 27 loginBytes, .got (.ok (some [])), .ask 0 8120 []] ∧
    actsOf sampleEnv 1 1 [] (.connect { ip := some "10.0.0.1" }) (versionEvs [] ++ [.resume 0]) =
      [.opn "10.0.0.1" 80, .ask 0 14 [], .got (.ok (some (wireText "00-C0-33-00-00-01"))), .ask 0 27 loginBytes, .got (.ok (some [])), .ask 0 8120 [],
        .got (.ok (some []))] ++ [] ∧
    resultOf sampleEnv 1 1 [] (.connect { ip := some "10.0.0.1" }) (versionEvs [] ++ [.resume 0]) = some (.ok (.bool false)) := by
  decide +kernel

/-- ... and if it tells its version, the call goes on with the configuration. -/
example : actsOf sampleEnv 1 1 [] (.connect { ip := some "10.0.0.1" }) (versionEvs (wireText "POOL: 5.2 Build 736.0 Rel") ++ [.resume 0]) =
      [.opn "10.0.0.1" 80, .ask 0 14 [], .got (.ok (some (wireText "00-C0-33-00-00-01"))), .ask 0 27 loginBytes, .got (.ok (some [])), .ask 0 8120 [],
        .got (.ok (some (wireText "POOL: 5.2 Build 736.0 Rel")))] ++ [.ask 0 12532 [0, 0, 0, 0, 0, 0, 0, 0]] := by
  decide +kernel

/-- `C39_partial`: the connection attempts of the sample histories. -/
example : ∃ t h p, (t, Act.opn h p) ∈ (after sampleEnv 1 1 bareConnectEvs).g.log := ⟨0, "10.0.0.1", 80, by decide +kernel⟩

end SL
