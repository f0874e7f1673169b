import Verif.Props.PollProps
import Verif.Props.RequestProps
/-!
# C39 - C42, C49: reconnecting, and what can go wrong

Several documented properties of connecting do not hold.  For those the theorem `Cnn_refuted` gives a history in which
they fail, and `Cnn_partial` proves what is left of them.
-/
set_option linter.unusedVariables false

namespace SL

/-! ## C41 -/

/-- **C41**, the part that holds: a connect call that had to connect returns True only after it has asked for the
configuration and got an answer. -/
theorem C41_partial (E : Env) (clientId maxRetries : Int) (es : List Ev) (a : ConnectArgs) (es2 : List Ev)
    (h : (after E clientId maxRetries es).g.isConnected = false)
    (hr : resultOf E clientId maxRetries es (.connect a) es2 = some (.ok (.bool true))) :
    CfgAnswered (actsOf E clientId maxRetries es (.connect a) es2) := by
  have h := call_run (E := E) (clientId := clientId) (maxRetries := maxRetries) (U := False) (X := noX) (I := fun _ => True)
    hc_true (Q := fun h o => o = .ok (.bool true) → CfgAnswered h) es (.connect a) es2
    (fun u => u.elim) (fun _ _ _ _ _ _ _ => trivial) trivial trivial ?_
  · exact h.2 _ hr rfl
  · rintro g rfl s
    refine Co.wp_bind' _ _ _ _ (Co.wp_mono ?_ _ _ _ (wp_asyncConnect (E := E) hc_true a s trivial))
    intro h' o g' hq
    cases o with
    | error e => intro hr; cases hr
    | ok b =>
      intro hr
      cases hr
      rcases hq.2.2 rfl with ⟨hc, _⟩ | ⟨l, e, hl⟩
      · rw [h] at hc; cases hc
      · rw [e]; exact hl.1

/-- Somebody connects; the adapter accepts the login but refuses to tell its version. -/
def halfEvs : List Ev :=
  [.call (.connect { ip := some "10.0.0.1" }), .opened 0 true, .resume 0] ++ reply 0 0 15 (wireText "00-C0-33-00-00-01") ++ [.resume 0] ++
    reply 0 1 28 [] ++ [.resume 0] ++ reply 0 2 13 [] ++ [.resume 0]

/-- **C41** does not hold: connecting again after a connect that failed half way returns True although nobody has ever
asked for the configuration. -/
theorem C41_refuted :
    resultOf sampleEnv 1 1 [] (.connect { ip := some "10.0.0.1" }) (halfEvs.drop 1) = some (.error .slLogin) ∧
    resultOf sampleEnv 1 1 halfEvs (.connect {}) [] = some (.ok (.bool true)) ∧
    ∀ t, ¬ CfgAsked ((after sampleEnv 1 1 (halfEvs ++ [.call (.connect {})])).g.acts t) := by
  refine ⟨by decide +kernel, by decide +kernel, ?_⟩
  have key : (after sampleEnv 1 1 (halfEvs ++ [.call (.connect {})])).g.log.all
      (fun x => match x.2 with | .ask _ code _ => code != 12532 | _ => true) = true := by decide +kernel
  rintro t ⟨c, p, hm⟩
  simp only [Gw.acts, List.mem_map, List.mem_filter] at hm
  obtain ⟨x, ⟨hx, _⟩, e⟩ := hm
  have := List.all_eq_true.1 key x hx
  rw [e] at this
  simp at this

/-- Also when the adapter gives an empty answer: connect returns True and there is no configuration. -/
theorem C41_refuted_empty :
    resultOf sampleEnv 1 1 [] (.connect { ip := some "10.0.0.1" }) (bareConnectEvs.drop 1) = some (.ok (.bool true)) ∧
    (Val.look [.s "controller"] (after sampleEnv 1 1 bareConnectEvs).g.data).isNone = true := by
  decide +kernel

/-- The hypotheses of `C41_partial` are met by an ordinary connect. -/
theorem C41_witness :
    (after sampleEnv 1 1 []).g.isConnected = false ∧
    resultOf sampleEnv 1 1 [] (.connect { ip := some "10.0.0.1" }) (connectEvs.drop 1) = some (.ok (.bool true)) := by
  decide +kernel

/-! ## C42 -/

/-- A connect whose login is refused. -/
def badLoginEvs : List Ev :=
  [.call (.connect { ip := some "10.0.0.1" }), .opened 0 true, .resume 0] ++ reply 0 0 15 (wireText "00-C0-33-00-00-01") ++ [.resume 0] ++
    reply 0 1 13 [] ++ [.resume 0]

/-- Whether connection `c` is open. -/
def openAt (g : Gw) (c : Nat) : Bool :=
  match g.conns[c]? with
  | some x => x.w.p.connected && !x.w.p.closing && !x.w.p.tclosing
  | none => false

/-- **C42** does not hold: the login is refused, connect raises, and the connection it opened is still open, while the
gateway does not know it. -/
theorem C42_refuted :
    resultOf sampleEnv 1 1 [] (.connect { ip := some "10.0.0.1" }) (badLoginEvs.drop 1) = some (.error .slLogin) ∧
    openAt (after sampleEnv 1 1 badLoginEvs).g 0 = true ∧ (after sampleEnv 1 1 badLoginEvs).g.protocol = none := by
  decide +kernel

/-- **C42**, the part that holds: if the TCP connection cannot be made, or the task is cancelled while connecting, the
call raises and there is no new connection. -/
theorem C42_partial (E : Env) (clientId maxRetries : Int) (es : List Ev) (a : ConnectArgs) (t : Nat) (es2 : List Ev)
    (ht : t = callTask E clientId maxRetries es)
    (hother : ∀ ev ∈ es2, ev.own t = false)
    (h : (after E clientId maxRetries es).g.isConnected = false) :
    (∀ ev, ev = .opened t false ∨ ev = .cancel t →
      (after E clientId maxRetries (es ++ .call (.connect a) :: (es2 ++ [ev]))).g.conns =
        (after E clientId maxRetries (es ++ .call (.connect a) :: es2)).g.conns ∧
      ∃ e, resultOf E clientId maxRetries es (.connect a) (es2 ++ [ev]) = some (.error e) ∧ (e = .slConnection ∨ e = .cancelled ∨ e = .slError)) := by
  intro ev hev
  have hstart : (after E clientId maxRetries (es ++ [.call (.connect a)])).tasks[t]? = some (.done (.error .slError)) ∨
      ∃ r k, (after E clientId maxRetries (es ++ [.call (.connect a)])).tasks[t]? = some (.opening r k) ∧
        ∀ e, k (.error e) = .throw e := by
    simp only [after_snoc, ht, callTask]
    simp only [Sys.step, Sys.spawn, List.getElem?_concat_length]
    rcases settle_connect E (after E clientId maxRetries es).tasks.length a (after E clientId maxRetries es).g with
      ⟨hc, e⟩ | ⟨hc, hn, e⟩ | ⟨hc, hn, k, hk, e⟩
    · rw [h] at hc; cases hc
    · rw [e]; exact .inl rfl
    · rw [e]; exact .inr ⟨_, k, rfl, hk.2⟩
  have hlen : t < (after E clientId maxRetries (es ++ [.call (.connect a)])).tasks.length := by
    simp [after_snoc, ht, callTask, Sys.step, Sys.spawn]
  have hstay : ∀ (l : List Ev) (s : Sys), (∀ ev ∈ l, ev.own t = false) → t < s.tasks.length → (s.run E l).tasks[t]? = s.tasks[t]? ∧
      t < (s.run E l).tasks.length := by
    intro l
    induction l with
    | nil => intro s _ hl; exact ⟨rfl, hl⟩
    | cons ev l ih =>
      intro s ho hl
      have h1 := (step_other_task E s ev hl (ho ev (by simp))).1
      have h2 := ih (s.step E ev) (fun e he => ho e (by simp [he])) (Nat.lt_of_lt_of_le hl (step_length E s ev))
      exact ⟨h2.1.trans h1, h2.2⟩
  have hs := hstay es2 _ hother hlen
  have e1 : after E clientId maxRetries (es ++ .call (.connect a) :: (es2 ++ [ev])) =
      ((after E clientId maxRetries (es ++ [.call (.connect a)])).run E es2).step E ev := by
    rw [after_call_cons, sys_run_append]
    rfl
  have e2 : after E clientId maxRetries (es ++ .call (.connect a) :: es2) =
      (after E clientId maxRetries (es ++ [.call (.connect a)])).run E es2 := after_call_cons _ _ _ _ _ _
  simp only [resultOf, ← ht]
  rw [e1, e2]
  clear e1 e2
  generalize (after E clientId maxRetries (es ++ [.call (.connect a)])).run E es2 = s at hs
  rw [← hs.1] at hstart
  rcases hstart with hd | ⟨r, k, hd, hk⟩
  · have : s.step E ev = s := by
      rcases hev with rfl | rfl <;> simp only [Sys.step, hd]
    rw [this]
    exact ⟨rfl, .slError, by simp only [Sys.result, hd], .inr (.inr rfl)⟩
  · rcases hev with rfl | rfl
    · simp only [Sys.step, hd, hk, Bool.false_eq_true, if_false]
      refine ⟨rfl, .slConnection, ?_, .inl rfl⟩
      simp only [settle, Sys.result, Sys.put]
      rw [List.getElem?_set_self hs.2]
    · simp only [Sys.step, hd, hk]
      refine ⟨rfl, .cancelled, ?_, .inr (.inl rfl)⟩
      simp only [settle, Sys.result, Sys.put]
      rw [List.getElem?_set_self hs.2]

/-! ## C39 -/

/-- How often a task started a TCP connection. -/
def openings (h : List Act) : Nat := (h.filter (fun | .opn _ _ => true | _ => false)).length

/-- **C39** does not hold: while the adapter accepts the login but refuses the configuration request, one call of
`async_get_status` reconnects again and again; here it is at its third reconnection and has not ended. -/
theorem C39_refuted :
    openings (actsOf sampleEnv 1 1 bareConnectEvs .getStatus
      (rejectEvs 1 0 4 ++ loginEvs 1 1 ++ rejectEvs 1 1 3 ++ loginEvs 1 2 ++ rejectEvs 1 2 3)) = 3 ∧
    resultOf sampleEnv 1 1 bareConnectEvs .getStatus
      (rejectEvs 1 0 4 ++ loginEvs 1 1 ++ rejectEvs 1 1 3 ++ loginEvs 1 2 ++ rejectEvs 1 2 3) = none := by
  decide +kernel

/-! ## C40 -/

/-- **C40** does not hold: the adapter cannot be reached, but the call raises AttributeError. -/
theorem C40_refuted :
    resultOf sampleEnv 1 1 [.call (.connect { ip := some "10.0.0.1" }), .opened 0 false] .getStatus [.opened 1 false] =
      some (.error .attributeError) := by
  decide +kernel

theorem outcome_error {w : World} {r : Nat} {e : PyErr} (h : w.outcome r = some (.error e)) :
    ∃ q, w.reqs[r]? = some q ∧ q.phase = .done (.raised e) := by
  simp only [World.outcome] at h
  split at h
  · rename_i q hq
    refine ⟨q, hq, ?_⟩
    split at h <;> simp_all
  · cases h

theorem outcome_comm {g : Gw} (hw : Worlds g) {c r : Nat} {e : PyErr} (h : g.outcome c r = some (.error e)) :
    e.isComm = true ∨ e = .cancelled ∨ e = .structError := by
  simp only [Gw.outcome] at h
  cases hx : g.conns[c]? with
  | none => simp [hx] at h
  | some x =>
    simp only [hx, Option.bind_some] at h
    obtain ⟨q, h1, h2⟩ := outcome_error h
    obtain ⟨es, he⟩ := hw x (List.mem_of_getElem? hx)
    rw [he] at h1
    rcases (C24_classification es r q e h1 h2).1 with ⟨i, f, _, h, _⟩ | ⟨h, _⟩ | ⟨h, _⟩ | ⟨h, _⟩
    · left
      rw [h]
      cases attemptReply (World.init.run es).p f with
      | none => rfl
      | some c =>
        simp only [describes]
        split
        · rfl
        · split <;> rfl
    · left; rw [h]; rfl
    · exact .inr (.inl h)
    · exact .inr (.inr h)

/-- **C40**, the part that holds: whatever happens, every request the gateway ever makes ends with an answer, a
ScreenLogic communication error, the cancellation of its task, or struct.error (code or payload too large for a
message). -/
theorem C40_partial (E : Env) (clientId maxRetries : Int) (es : List Ev) (t : Nat) (e : PyErr)
    (h : Act.got (.error e) ∈ (after E clientId maxRetries es).g.acts t) :
    e.isComm = true ∨ e = .cancelled ∨ e = .structError := by
  have key := reach_inv (E := E) (clientId := clientId) (maxRetries := maxRetries) (U := False)
    (I := fun g => Worlds g ∧ ∀ x ∈ g.log, ∀ e, x.2 = .got (.error e) → e.isComm = true ∨ e = .cancelled ∨ e = .structError)
    ⟨(by intro x hx; cases hx), (by intro x hx; cases hx)⟩ (fun g g' _ h m => ⟨worlds_micro h.1 m, ?_⟩) es (fun u => u.elim)
  · simp only [Gw.acts, List.mem_map, List.mem_filter] at h
    obtain ⟨x, ⟨hx, _⟩, he⟩ := h
    exact key.2 x hx e he
  · have snoc : ∀ (l : List (Nat × Act)) (y : Nat × Act), (∀ x ∈ l, ∀ e, x.2 = .got (.error e) → e.isComm = true ∨ e = .cancelled ∨ e = .structError) →
        (∀ e, y.2 = .got (.error e) → e.isComm = true ∨ e = .cancelled ∨ e = .structError) →
        ∀ x ∈ l ++ [y], ∀ e, x.2 = .got (.error e) → e.isComm = true ∨ e = .cancelled ∨ e = .structError := by
      intro l y hl hy x hx
      rcases List.mem_append.1 hx with hx | hx
      · exact hl x hx
      · simp only [List.mem_singleton] at hx
        subst hx
        exact hy
    cases m with
    | upd t' _ _ hu =>
      cases hu with
      | listen cb code =>
        simp only [Gw.addListener]
        split <;> exact h.2
      | _ => exact h.2
    | ask t' c code data r _ ha => exact snoc _ _ h.2 (by simp)
    | got t' o _ ho =>
      refine snoc _ _ h.2 ?_
      intro e' he'
      obtain ⟨c, r, ho⟩ := ho
      simp only [Act.got.injEq] at he'
      subst he'
      exact outcome_comm h.1 ho
    | opn t' => exact snoc _ _ h.2 (by simp)
    | cls t' c force => exact snoc _ _ h.2 (by simp)
    | env _ _ he => rw [he.log]; exact h.2
    | _ => exact h.2

/-- Such an error, concretely. -/
theorem C40_witness :
    actsOf sampleEnv 1 1 bareConnectEvs .getScg (reply 0 4 13 [] ++ [.resume 1]) =
      [.ask 0 12572 [0, 0, 0, 0], .got (.error .slLogin), .cls 0 true] := by
  decide +kernel

/-! ## C49 -/

/-- A task that waits for a lock it holds itself never goes on, unless it is cancelled. -/
theorem locked_forever {E : Env} {t : Nat} {k : Except PyErr Unit → Co Res} : ∀ (es : List Ev) {s : Sys}, SysOk E False s →
    s.tasks[t]? = some (.locked k) → s.g.lock = some t → .cancel t ∉ es → (s.run E es).tasks[t]? = some (.locked k)
  | [], s, _, ht, _, _ => ht
  | ev :: es, s, hs, ht, hl, hc => by
    have hlt : t < s.tasks.length := (List.getElem?_eq_some_iff.1 ht).1
    have hU : False → ∀ code data, ev = .call (.send code data) → code ≠ 12522 ∧ code ≠ 12524 := fun u => u.elim
    have key : (s.step E ev).tasks[t]? = some (.locked k) ∧ (s.step E ev).g.lock = some t := by
      cases ho : ev.own t with
      | false =>
        refine ⟨(step_other_task E s ev hlt ho).1.trans ht, ?_⟩
        exact (star_rely (step_but hs ev hU hlt ho)).1.lock hl
      | true =>
        cases ev with
        | opened t' ok =>
          obtain rfl : t' = t := by simpa [Ev.own] using ho
          have : s.step E (.opened t' ok) = s := by simp only [Sys.step, ht]
          rw [this]; exact ⟨ht, hl⟩
        | resume t' =>
          obtain rfl : t' = t := by simpa [Ev.own] using ho
          have : s.step E (.resume t') = s := by simp [Sys.step, ht, hl]
          rw [this]; exact ⟨ht, hl⟩
        | cancel t' =>
          obtain rfl : t' = t := by simpa [Ev.own] using ho
          exact absurd (by simp) hc
        | _ => cases ho
    exact locked_forever es (hs.step ev hU) key.1 key.2 (fun h => hc (by simp [h]))

/-- The adapter refuses to register the client; the library reconnects. -/
def refusedClientEvs : List Ev := rejectEvs 1 0 4 ++ loginEvs 1 1 ++ noConfigEvs 1 1

/-- **C49** does not hold: once the adapter has refused the registration and the library has reconnected, the
subscribing call waits for a lock it holds itself: whatever happens, short of cancelling it, it never returns. -/
theorem C49_refuted (es : List Ev) (h : .cancel 1 ∉ es) :
    callTask sampleEnv 1 1 bareConnectEvs = 1 ∧
    resultOf sampleEnv 1 1 bareConnectEvs (.subscribe 7 12500) (refusedClientEvs ++ es) = none := by
  have h1 : callTask sampleEnv 1 1 bareConnectEvs = 1 := by decide +kernel
  refine ⟨h1, ?_⟩
  have hk : (match (after sampleEnv 1 1 (bareConnectEvs ++ .call (.subscribe 7 12500) :: refusedClientEvs)).tasks[1]? with
      | some (.locked _) => true | _ => false) = true := by decide +kernel
  have hl : (after sampleEnv 1 1 (bareConnectEvs ++ .call (.subscribe 7 12500) :: refusedClientEvs)).g.lock = some 1 := by decide +kernel
  have hs : SysOk sampleEnv False (after sampleEnv 1 1 (bareConnectEvs ++ .call (.subscribe 7 12500) :: refusedClientEvs)) :=
    (SysOk.init sampleEnv False 1 1).run _ (fun u => u.elim)
  have e : after sampleEnv 1 1 (bareConnectEvs ++ .call (.subscribe 7 12500) :: (refusedClientEvs ++ es)) =
      (after sampleEnv 1 1 (bareConnectEvs ++ .call (.subscribe 7 12500) :: refusedClientEvs)).run sampleEnv es := by
    simp only [after, ← sys_run_append]
    simp
  simp only [resultOf, h1, e]
  split at hk
  · rename_i k hk'
    have := locked_forever es hs hk' hl h
    simp only [Sys.result, this]
  · cases hk

end SL
