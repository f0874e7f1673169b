import Verif.Lemmas.Budget
import Verif.Lemmas.Setters
import Verif.Lemmas.Sample
import Verif.Lemmas.Safe
/-!
# C103: what a call does on the network is paid for by answers
-/
set_option linter.unusedVariables false

namespace SL

/-- What a call may spend when nothing returns. -/
def Call.purse (P : Prices) (a : Call) : Nat := P.wo * a.freeOpens + P.wa * a.freeAsks + P.wc * a.freeCloses + P.ws * a.freePauses

theorem pays_call (E : Env) {P : Prices} (hP : P.Ample) (a : Call) (hs : setterPlan E a = none) : (a.co E).Pays P (fun _ _ => True) (a.purse P) := by
  have weak : ∀ {x : Co Res}, x.Costs P P.full → x.Pays P (fun _ _ => True) P.full := fun h =>
    h.run (b := 0) (by omega) (fun _ _ _ => trivial)
  have hfull : P.wo * 2 + P.wa * 3 + P.wc * 1 + P.ws * 3 = P.full := by simp only [Prices.full]; omega
  cases a with
  | disconnect force =>
    simp only [Call.purse, Call.freeOpens, Call.freeAsks, Call.freeCloses, Call.freePauses]
    refine Co.pays_bindE (Q := fun _ _ => True) ?_ _ _ ((pays_disconnect force 0).mono (fun _ _ _ _ _ => trivial) (by omega))
    intro n x _
    cases x <;> trivial
  | connect x =>
    simp only [Call.purse, Call.freeOpens, Call.freeAsks, Call.freeCloses, Call.freePauses]
    refine Co.pays_bindE (Q := fun _ _ => True) ?_ _ _ ((pays_connect hP x 0).mono (fun _ _ _ _ _ => trivial) (by omega))
    intro n x _
    cases x <;> trivial
  | update => simp only [Call.purse, Call.freeOpens, Call.freeAsks, Call.freeCloses, Call.freePauses, hfull]; exact weak (Co.costs_bind (costs_update E hP) (fun _ => Co.costs_pure _ _))
  | getConfig => simp only [Call.purse, Call.freeOpens, Call.freeAsks, Call.freeCloses, Call.freePauses, hfull]; exact weak (Co.costs_bind (costs_getConfig E hP) (fun _ => Co.costs_pure _ _))
  | getStatus => simp only [Call.purse, Call.freeOpens, Call.freeAsks, Call.freeCloses, Call.freePauses, hfull]; exact weak (Co.costs_bind (costs_getStatus E hP) (fun _ => Co.costs_pure _ _))
  | getPumps => simp only [Call.purse, Call.freeOpens, Call.freeAsks, Call.freeCloses, Call.freePauses, hfull]; exact weak (Co.costs_bind (costs_getPumpsFrom E hP 8 0) (fun _ => Co.costs_pure _ _))
  | getChemistry => simp only [Call.purse, Call.freeOpens, Call.freeAsks, Call.freeCloses, Call.freePauses, hfull]; exact weak (Co.costs_bind (costs_getChemistry E hP) (fun _ => Co.costs_pure _ _))
  | getScg => simp only [Call.purse, Call.freeOpens, Call.freeAsks, Call.freeCloses, Call.freePauses, hfull]; exact weak (Co.costs_bind (costs_getScg E hP) (fun _ => Co.costs_pure _ _))
  | getDatetime => simp only [Call.purse, Call.freeOpens, Call.freeAsks, Call.freeCloses, Call.freePauses, hfull]; exact weak (Co.costs_bind (costs_getDatetime E hP) (fun _ => Co.costs_pure _ _))
  | setCircuit x y => cases hs
  | setHeatTemp x y => cases hs
  | setHeatMode x y => cases hs
  | setColorLights x => cases hs
  | setScg x y z w => cases hs
  | setChem x y z w u v => cases hs
  | setDateTime x y => cases hs
  | subscribe cb code =>
    simp only [Call.purse, Call.freeOpens, Call.freeAsks, Call.freeCloses, Call.freePauses, hfull]
    refine weak (Co.costs_bind (Co.costs_state (fun g hg => ?_)) (fun _ => Co.costs_pure _ _))
    split
    · refine Co.costs_bind (Co.costs_modify _ _ ?_) (fun _ =>
        Co.costs_bind (Co.costs_modify _ _) (fun _ => Co.costs_state (fun g hg =>
          Co.costs_bind (Co.costs_when (costs_subscribe hP)) (fun _ => Co.costs_pure _ _))))
      intro g
      simp only [Gw.addListener]
      split <;> rfl
    · exact Co.costs_pure _ _
  | send code data =>
    simp only [Call.purse, Call.freeOpens, Call.freeAsks, Call.freeCloses, Call.freePauses, hfull]
    exact weak (Co.costs_bind (costs_connected hP (fun c r hr => Co.buys_make c _ _ r hr)) (fun _ => Co.costs_pure _ _))

theorem afford_call (E : Env) {P : Prices} (hP : P.Ample) {s : Sys} (hs : LogOk s) (hm : P.lim s.g.maxRetries) (a : Call) : (s.step E (.call a)).Afford P (a.purse P) s.tasks.length := by
  cases hp : setterPlan E a with
  | none => exact afford_spawn (g0 := s.g) hs hm rfl (pays_call E hP a hp)
  | some f =>
    have e : s.step E (.call a) = s.spawn (setterCo (f s.g.data)) := by
      show s.spawn (a.co E) = _
      simp only [Sys.spawn]
      rw [settle_look, setter_look E hp, ← settle_look]
    rw [e]
    have hw : a.purse P = P.full := by
      cases a <;> first | (cases hp; done) | (simp only [Call.purse, Call.freeOpens, Call.freeAsks, Call.freeCloses, Call.freePauses, Prices.full]; omega)
    rw [hw]
    exact afford_spawn (g0 := s.g) hs hm rfl ((costs_setter hP _).run (b := 0) (by omega) (fun _ _ _ => trivial))

theorem afford_bound {s : Sys} {P : Prices} {p t : Nat} (h : s.Afford P p t) :
    P.wo * s.g.count t Act.isOpen + P.wa * s.g.count t Act.isAsk + P.wc * s.g.count t Act.isClose ≤ p + P.gain * s.g.count t Act.isReturn := by
  obtain ⟨x, b, -, -, hl⟩ := h
  simp only [Prices.Balance, Prices.spent, Prices.earned] at hl
  simp only [Gw.count]
  omega

/-- Counting, without any limit on the retries. -/
def counting (wo wa wc gain : Nat) : Prices := ⟨wo, wa, wc, 0, gain, fun _ => True, trivial⟩

theorem limited_counting (E : Env) (wo wa wc gain : Nat) : ∀ (es : List Ev) (s : Sys), s.Limited E (counting wo wa wc gain) es
  | [], _ => trivial
  | ev :: es, s => ⟨trivial, limited_counting E wo wa wc gain es _⟩

theorem logOk_after (E : Env) (clientId maxRetries : Int) (es : List Ev) : LogOk (after E clientId maxRetries es) :=
  LogOk.run es (by intro x hx; cases hx)

section
variable (E : Env) (clientId maxRetries : Int) (es : List Ev) (a : Call) (es' : List Ev)

theorem afford_later {P : Prices} (hP : P.Ample) (hm : P.lim (after E clientId maxRetries es).g.maxRetries)
    (hl : ((after E clientId maxRetries es).step E (.call a)).Limited E P es') :
    (after E clientId maxRetries (es ++ [.call a] ++ es')).Afford P (a.purse P) (after E clientId maxRetries es).tasks.length := by
  have h := afford_run E es' hl (afford_call E hP (logOk_after E clientId maxRetries es) hm a)
  rw [← after_snoc] at h
  rw [after, sys_run_append]
  exact h

/-- **C103** Whatever has happened before and whatever happens afterwards, a call asks for no more TCP connections than it may ask for anyway, and one
more for every request of it that has returned. -/
theorem C103_opens : let t := (after E clientId maxRetries es).tasks.length
    let g := (after E clientId maxRetries (es ++ [.call a] ++ es')).g
    g.count t Act.isOpen ≤ a.freeOpens + g.count t Act.isReturn := by
  have h := afford_bound (afford_later E clientId maxRetries es a es' (P := counting 1 0 0 1) (by simp [Prices.Ample, counting]) trivial (limited_counting E _ _ _ _ _ _))
  simp only [Call.purse, counting] at h
  dsimp only
  omega

/-- **C103** ... it makes no more requests than it may make anyway, and three more for every request of it that has returned. -/
theorem C103_asks : let t := (after E clientId maxRetries es).tasks.length
    let g := (after E clientId maxRetries (es ++ [.call a] ++ es')).g
    g.count t Act.isAsk ≤ a.freeAsks + 3 * g.count t Act.isReturn := by
  have h := afford_bound (afford_later E clientId maxRetries es a es' (P := counting 0 1 0 3) (by simp [Prices.Ample, counting]) trivial (limited_counting E _ _ _ _ _ _))
  simp only [Call.purse, counting] at h
  dsimp only
  omega

/-- **C103** ... and it closes no more connections than it may close anyway, and one more for every request of it that has returned. -/
theorem C103_closes : let t := (after E clientId maxRetries es).tasks.length
    let g := (after E clientId maxRetries (es ++ [.call a] ++ es')).g
    g.count t Act.isClose ≤ a.freeCloses + g.count t Act.isReturn := by
  have h := afford_bound (afford_later E clientId maxRetries es a es' (P := counting 0 0 1 1) (by simp [Prices.Ample, counting]) trivial (limited_counting E _ _ _ _ _ _))
  simp only [Call.purse, counting] at h
  dsimp only
  omega

/-- **C103** A call whose requests all fail asks for at most two connections, makes at most three requests and closes at most one connection. -/
theorem C103_unanswered
    (h0 : (after E clientId maxRetries (es ++ [.call a] ++ es')).g.count (after E clientId maxRetries es).tasks.length Act.isReturn = 0) :
    let t := (after E clientId maxRetries es).tasks.length
    let g := (after E clientId maxRetries (es ++ [.call a] ++ es')).g
    g.count t Act.isOpen ≤ 2 ∧ g.count t Act.isAsk ≤ 3 ∧ g.count t Act.isClose ≤ 1 := by
  have h1 := C103_opens E clientId maxRetries es a es'
  have h2 := C103_asks E clientId maxRetries es a es'
  have h3 := C103_closes E clientId maxRetries es a es'
  simp only [h0] at h1 h2 h3
  have k1 : a.freeOpens ≤ 2 := by cases a <;> simp [Call.freeOpens]
  have k2 : a.freeAsks ≤ 3 := by cases a <;> simp [Call.freeAsks]
  have k3 : a.freeCloses ≤ 1 := by cases a <;> simp [Call.freeCloses, Call.freePauses]
  exact ⟨by omega, by omega, by omega⟩

end

theorem afford_background (E : Env) {P : Prices} (clientId maxRetries : Int) (es : List Ev) {ev : Ev} {co : Co Res} {g0 : Gw}
    (hs : Spawned E (after E clientId maxRetries es).g ev co g0) (he : (after E clientId maxRetries es).step E ev =
      Sys.spawn { after E clientId maxRetries es with g := g0 } co) (hm : P.lim g0.maxRetries) (hc : co.Pays P (fun _ _ => True) P.wa) (es' : List Ev)
    (hl : ((after E clientId maxRetries es).step E ev).Limited E P es') :
    (after E clientId maxRetries (es ++ [ev] ++ es')).Afford P P.wa (after E clientId maxRetries es).tasks.length := by
  have h := afford_spawn (logOk_after E clientId maxRetries es) hm hs.log hc
  rw [← he] at h
  have h := afford_run E es' hl h
  rw [← after_snoc] at h
  rw [after, sys_run_append]
  exact h

/-- **C103** A keepalive, or the unsubscription that follows the last `unsubscribe`, makes one request at most and neither opens nor closes a
connection. -/
theorem C103_background (E : Env) (clientId maxRetries : Int) (es : List Ev) {ev : Ev} (hev : (∃ c, ev = .ping c) ∨ ev = .runUnsub)
    (hnew : (after E clientId maxRetries es).tasks.length < (after E clientId maxRetries (es ++ [ev])).tasks.length) (es' : List Ev) :
    let t := (after E clientId maxRetries es).tasks.length
    let g := (after E clientId maxRetries (es ++ [ev] ++ es')).g
    g.count t Act.isOpen = 0 ∧ g.count t Act.isAsk ≤ 1 ∧ g.count t Act.isClose = 0 := by
  have key : ∀ wo wa wc : Nat, (after E clientId maxRetries (es ++ [ev] ++ es')).Afford (counting wo wa wc 0) wa (after E clientId maxRetries es).tasks.length := by
    intro wo wa wc
    have c1 : pingCo.Pays (counting wo wa wc 0) (fun _ _ => True) wa := (pays_ping 0).mono (fun _ _ _ _ _ => trivial) (Nat.le_of_eq (Nat.zero_add _))
    have c2 : unsubCo.Pays (counting wo wa wc 0) (fun _ _ => True) wa := (pays_unsub 0).mono (fun _ _ _ _ _ => trivial) (Nat.le_of_eq (Nat.zero_add _))
    rw [after_snoc] at hnew
    rcases step_cases E (after E clientId maxRetries es) ev with ⟨t, co, g0, ho, _, _, _⟩ | ⟨co, g0, hs, he⟩ | ⟨g', _, he⟩
    · rcases hev with ⟨c, rfl⟩ | rfl <;> cases ho
    · refine afford_background E clientId maxRetries es hs he trivial ?_ es' (limited_counting E _ _ _ _ _ _)
      cases hs with
      | call a => rcases hev with ⟨c, hev⟩ | hev <;> cases hev
      | ping c => exact c1
      | unsub h => exact c2
    · rw [he] at hnew
      exact absurd hnew (Nat.lt_irrefl _)
  have h1 := afford_bound (key 1 0 0)
  have h2 := afford_bound (key 0 1 0)
  have h3 := afford_bound (key 0 0 1)
  dsimp only [counting] at h1 h2 h3 ⊢
  exact ⟨by omega, by omega, by omega⟩

/-- **C103** A disconnection makes one request at most, closes one connection at most and opens none, whatever is answered. -/
theorem C103_disconnect (E : Env) (clientId maxRetries : Int) (es : List Ev) (force : Bool) (es' : List Ev) :
    let t := (after E clientId maxRetries es).tasks.length
    let g := (after E clientId maxRetries (es ++ [.call (.disconnect force)] ++ es')).g
    g.count t Act.isOpen = 0 ∧ g.count t Act.isAsk ≤ 1 ∧ g.count t Act.isClose ≤ 1 := by
  have key : ∀ wo wa wc : Nat, (after E clientId maxRetries (es ++ [.call (.disconnect force)] ++ es')).Afford (counting wo wa wc 0) (wa + wc) (after E clientId maxRetries es).tasks.length := by
    intro wo wa wc
    have c1 : (Call.co E (.disconnect force)).Pays (counting wo wa wc 0) (fun _ _ => True) (wa + wc) := by
      refine Co.pays_bindE (Q := fun _ _ => True) ?_ _ _ ((pays_disconnect force 0).mono (fun _ _ _ _ _ => trivial) (by simp only [counting]; omega))
      intro n x _
      cases x <;> trivial
    have h := afford_spawn (g0 := (after E clientId maxRetries es).g) (logOk_after E clientId maxRetries es) trivial rfl c1
    have h : ((after E clientId maxRetries es).step E (.call (.disconnect force))).Afford (counting wo wa wc 0) (wa + wc) (after E clientId maxRetries es).tasks.length := h
    have h := afford_run E es' (limited_counting E _ _ _ _ _ _) h
    rw [← after_snoc] at h
    rw [after, sys_run_append]
    exact h
  have h1 := afford_bound (key 1 0 0)
  have h2 := afford_bound (key 0 1 0)
  have h3 := afford_bound (key 0 0 1)
  dsimp only [counting] at h1 h2 h3 ⊢
  exact ⟨by omega, by omega, by omega⟩

/-- The adapter accepts no connection any more. -/
def shutEvs : List Ev := [.opened 1 false, .net 0 (.closeFinish 0), .resume 1, .resume 1, .opened 1 false]

/-- Somebody has subscribed. -/
def listenedEvs : List Ev := connectEvs ++ [.call (.subscribe 1 12500)] ++ reply 0 4 12523 [] ++ [.resume 1]

/-- The adapter refuses every request. -/
def refusedEvs : List Ev := reply 0 5 13 [] ++ [.resume 2] ++ reply 0 6 13 [] ++
  [.resume 2, .net 0 .lost, .net 0 (.closeFinish 0), .resume 2, .resume 2, .opened 2 true, .resume 2] ++ reply 1 0 13 [] ++ [.resume 2]

/-- The bounds are met exactly: after the connection is lost and no other one is to be had, a request asks for two; when every request of it is refused,
it makes three and closes one connection. -/
theorem C103_witness :
    (let g := (after sampleEnv 0 5 ((connectEvs ++ [.net 0 .lost]) ++ [.call .getStatus] ++ shutEvs)).g;
      (after sampleEnv 0 5 (connectEvs ++ [.net 0 .lost])).tasks.length = 1 ∧
      g.count 1 Act.isOpen = 2 ∧ g.count 1 Act.isAsk = 0 ∧ g.count 1 Act.isClose = 1 ∧ g.count 1 Act.isReturn = 0) ∧
    (let g := (after sampleEnv 0 5 (listenedEvs ++ [.call .getStatus] ++ refusedEvs)).g;
      (after sampleEnv 0 5 listenedEvs).tasks.length = 2 ∧
      g.count 2 Act.isOpen = 1 ∧ g.count 2 Act.isAsk = 3 ∧ g.count 2 Act.isClose = 1 ∧ g.count 2 Act.isReturn = 0) := by
  have h1 : (after sampleEnv 0 5 (connectEvs ++ [.net 0 .lost])).tasks.length = 1 := by decide +kernel
  have h2 : (after sampleEnv 0 5 listenedEvs).tasks.length = 2 := by decide +kernel
  have h3 : (let g := (after sampleEnv 0 5 ((connectEvs ++ [.net 0 .lost]) ++ [.call .getStatus] ++ shutEvs)).g
    g.count 1 Act.isOpen = 2 ∧ g.count 1 Act.isAsk = 0 ∧ g.count 1 Act.isClose = 1 ∧ g.count 1 Act.isReturn = 0) := by decide +kernel
  have h4 : (let g := (after sampleEnv 0 5 (listenedEvs ++ [.call .getStatus] ++ refusedEvs)).g
    g.count 2 Act.isOpen = 1 ∧ g.count 2 Act.isAsk = 3 ∧ g.count 2 Act.isClose = 1 ∧ g.count 2 Act.isReturn = 0) := by decide +kernel
  exact ⟨⟨h1, h3⟩, h2, h4⟩

/-- A keepalive is started in some history. -/
theorem C103_background_witness :
    (after sampleEnv 0 5 (listenedEvs ++ [.net 0 (.timerFire 0)])).tasks.length <
      (after sampleEnv 0 5 ((listenedEvs ++ [.net 0 (.timerFire 0)]) ++ [.ping 0])).tasks.length := by
  decide +kernel

end SL
