import Verif.Props.SetterProps
import Verif.Lemmas.Sample
/-!
# C78: keepalive pings
-/
set_option linter.unusedVariables false

namespace SL

open Spec (frame)

/-! ## The timer -/

theorem pings_step (w : World) (e : Event) (he : ∀ i, e ≠ .timerFire i) : (w.step e).p.pings = w.p.pings := by
  have hsend : ∀ (p : Proto) code data, (p.awaitSend code data).1.pings = p.pings := by
    intro p code data
    obtain ⟨futs, written, timers, kaStop, e, -⟩ := awaitSend_spec p code data
    rw [e]; rfl
  have hstart : ∀ (w : World) t r, (w.startAttempt t r).p.pings = w.p.pings := by
    intro w t r
    unfold World.startAttempt
    split
    · rfl
    · split
      · rfl
      · have := hsend w.p r.code r.data
        rcases hs : w.p.awaitSend r.code r.data with ⟨p, x⟩
        rw [hs] at this
        simp only at this ⊢
        split
        · rename_i hq; cases hq; exact this
        · rename_i hq; cases hq
          split <;> exact this
  have hstop : ∀ p : Proto, p.stopKeepalive.pings = p.pings := by
    intro p; rw [stopKeepalive_eq]
  cases e with
  | call => rfl
  | run t =>
    simp only [World.step]
    split
    · split
      · exact hstart _ _ _
      · rfl
    · rfl
  | resume t => simp only [World.step]; repeat' (first | rfl | split)
  | timeout t =>
    simp only [World.step]
    repeat' (first | rfl | (simp only [World.setReq]; rw [cancelFut_eq]) | split)
  | cancel t =>
    simp only [World.step]
    repeat' (first | rfl | (simp only [World.setReq]; rw [cancelFut_eq]) | split)
  | wake t =>
    simp only [World.step]
    split
    · split
      · exact hstart _ _ _
      · rfl
    · rfl
  | data c =>
    simp only [World.step]
    have : ∀ (ms : List Msg) (p : Proto), (p.dispatchAll ms).1.pings = p.pings := by
      intro ms
      induction ms with
      | nil => intro p; rfl
      | cons m ms ih =>
        intro p
        obtain ⟨futs, coll, spawned, recv, fates, e, -⟩ := dispatch_spec p m
        unfold Proto.dispatchAll
        rcases hd : p.dispatch m with ⟨q, _ | er⟩
        · rw [hd] at e; simp only at e; rw [ih q, e]
        · rw [hd] at e; simp only at e; rw [e]
    cases hcl : w.p.closing
    · obtain ⟨ms, fs, t, e, -⟩ := dataReceived_eq w.p c hcl
      rw [e, this]
    · unfold Proto.dataReceived; rw [hcl]; rfl
  | lost =>
    simp only [World.step]
    split
    · simp only [Proto.connectionLost]; exact hstop _
    · rfl
  | cleanup =>
    simp only [World.step]
    split
    · simp only; rw [(cancelAll_spec _).1]
    · rfl
  | peerClose => rfl
  | close force =>
    simp only [World.step, World.closeTail]
    split <;> split <;> first | rfl | (simp only; rw [(cancelAll_spec _).1])
  | closeResume c => simp only [World.step, World.closeTail]; repeat' (first | rfl | split)
  | closeFinish c => simp only [World.step]; repeat' (first | rfl | split)
  | closeCancel c => simp only [World.step]; repeat' (first | rfl | (simp only; rw [(foldl_cancelFut _ _).1]) | split)
  | register c h => rfl
  | unregister c => rfl
  | unregisterAll => rfl
  | enableKeepalive a => rfl
  | disableKeepalive => exact hstop _
  | timerFire i => exact absurd rfl (he i)

/-- **C78**: whenever the live keepalive timer fires, exactly one keepalive task is created, and no timer is live any more (until the next
message is sent, which restarts it: `C20_send_restarts`). -/
theorem C78_timer (es : List Event) (i : Nat) (hi : (World.init.run es).p.timers[i]? = some true) :
    (World.init.run (es ++ [.timerFire i])).p.pings = (World.init.run es).p.pings + 1 ∧
    ∀ j : Nat, (World.init.run (es ++ [.timerFire i])).p.timers[j]? ≠ some true := by
  rw [run_append]
  change ((World.init.run es).step (.timerFire i)).p.pings = _ ∧ ∀ j : Nat, ((World.init.run es).step (.timerFire i)).p.timers[j]? ≠ some true
  have hk := invKa es
  have hs := hk.live i hi
  have ha : (World.init.run es).p.kaAwait.isSome = true := hk.await (by rw [hs]; rfl)
  simp only [World.step, Proto.timerFire, hi, ha, if_true, true_and]
  intro j hj
  by_cases hji : i = j
  · subst hji
    rw [List.getElem?_set_self (hk.bound i hs)] at hj
    cases hj
  · rw [List.getElem?_set_ne hji] at hj
    have := hk.live j hj
    rw [hs] at this
    exact hji (Option.some.inj this)

/-- **C78**: nothing else creates keepalive tasks. -/
theorem C78_only (es : List Event) (e : Event) (h : (World.init.run (es ++ [e])).p.pings ≠ (World.init.run es).p.pings) :
    ∃ i, e = .timerFire i ∧ (World.init.run es).p.timers[i]? = some true := by
  rw [run_append] at h
  change ((World.init.run es).step e).p.pings ≠ _ at h
  by_cases he : ∃ i, e = .timerFire i
  · obtain ⟨i, rfl⟩ := he
    refine ⟨i, rfl, ?_⟩
    simp only [World.step, Proto.timerFire] at h
    split at h
    · rename_i hi; exact hi
    · exact absurd rfl h
  · exact absurd (pings_step _ e (fun i hi => he ⟨i, hi⟩)) h

/-! ## The ping -/

section
variable {E : Env} {clientId maxRetries : Int} {es : List Ev}

/-- How the keepalive task ends, given how its request ended: communication errors are only logged. -/
def pingResult : Except PyErr (Option Bytes) → Except PyErr Res
  | .ok _ => .ok .none
  | .error e => if e.isComm then .ok .none else .error e

/-- A coroutine that has ended. -/
def Co.ended : Except PyErr Res → Co Res
  | .ok a => .ret a
  | .error e => .throw e

theorem ping_co {g : Gw} {c : Nat} (hc : g.cmProto = some c) (t : Nat) :
    settle t pingCo g = settle t (.request c 16 [] 0 fun o => Co.ended (pingResult o)) g := by
  have hK : ∃ K, settle t pingCo g = settle t (.request c 16 [] 0 K) g ∧ ∀ o, K o = Co.ended (pingResult o) := by
    refine ⟨?_, ?_, ?_⟩
    rotate_left
    · simp only [pingCo, pingTask]
      change settle t (Co.bindE (match g.cmProto with | some c => _ | none => _) _) g = _
      rw [hc]
      rfl
    · intro o
      cases o with
      | ok v =>
        by_cases hv : v = some []
        · subst hv; rfl
        · show Co.bindE (Co.bindE (Co.bindE (.ret v) _) _) _ = _
          simp only [Co.bindE]
          show Co.bindE (Co.bindE (if v = some [] then _ else _) _) _ = _
          rw [if_neg hv]
          rfl
      | error e =>
        show Co.bindE (if e.isComm = true then _ else _) _ = _
        simp only [pingResult]
        cases e.isComm <;> rfl
  obtain ⟨K, h1, h2⟩ := hK
  rw [h1, funext h2]

theorem settle_ended (t : Nat) (r : Except PyErr Res) (g : Gw) : settle t (Co.ended r) g = (.done r, g) := by
  cases r <;> rfl

/-- The states of a keepalive task. -/
def PingAt (c T : Nat) (s : Sys) : Prop :=
  T < s.tasks.length ∧
  ((∃ r, s.tasks[T]? = some (.request c r fun o => Co.ended (pingResult o)) ∧ s.g.acts T = [.ask c 16 []]) ∨
   (∃ o, s.tasks[T]? = some (.done (pingResult o)) ∧ s.g.acts T = [.ask c 16 [], .got o]))

theorem acts_note (g : Gw) (t : Nat) (a : Act) : (g.note t a).acts t = g.acts t ++ [a] := by
  simp [Gw.note, Gw.acts]

theorem ping_at_step {c T : Nat} {s : Sys} (h : PingAt c T s) (ev : Ev) : PingAt c T (s.step E ev) := by
  obtain ⟨hT, h⟩ := h
  refine ⟨Nat.lt_of_lt_of_le hT (step_length E s ev), ?_⟩
  rcases h with ⟨r, ht, ha⟩ | ⟨o, ht, ha⟩
  · cases ho : ev.own T with
    | false =>
      have := step_other_task E s ev hT ho
      exact .inl ⟨r, this.1.trans ht, this.2.trans ha⟩
    | true =>
      cases ev with
      | opened t' ok =>
        obtain rfl : t' = T := by simpa [Ev.own] using ho
        simp only [Sys.step, ht]
        exact .inl ⟨r, rfl, ha⟩
      | resume t' =>
        obtain rfl : t' = T := by simpa [Ev.own] using ho
        simp only [Sys.step, ht]
        cases hx : s.g.outcome c r with
        | none => exact .inl ⟨r, ht, ha⟩
        | some o =>
          simp only [settle_ended]
          right
          refine ⟨o, ?_, ?_⟩
          · simp only [Sys.put, List.getElem?_set_self hT]
          · simp only [Sys.put, acts_note, ha, List.cons_append, List.nil_append]
      | cancel t' =>
        obtain rfl : t' = T := by simpa [Ev.own] using ho
        simp only [Sys.step, ht]
        exact .inl ⟨r, rfl, ha⟩
      | _ => cases ho
  · have := done_forever E [ev] ht
    exact .inr ⟨o, this.1, this.2.trans ha⟩

theorem ping_at_run {c T : Nat} : ∀ (es : List Ev) {s : Sys}, PingAt c T s → PingAt c T (s.run E es)
  | [], _, h => h
  | ev :: es, s, h => ping_at_run es (ping_at_step (E := E) h ev)

/-- **C78**: a keepalive task that starts after any history sends one ping (code 16, no payload), on the client manager's connection, and does nothing
else, ever; when its request has ended so has it, and no communication error comes out of it. -/
theorem C78_ping {c c' : Nat} {x : Conn} (hx : (after E clientId maxRetries es).g.conns[c]? = some x) (hp : x.pinged < x.w.p.pings)
    (hc : (after E clientId maxRetries es).g.cmProto = some c') (es2 : List Ev) :
    let s := after E clientId maxRetries (es ++ .ping c :: es2)
    let T := callTask E clientId maxRetries es
    (s.g.acts T = [.ask c' 16 []] ∧ s.result T = none) ∨
    ∃ o, s.g.acts T = [.ask c' 16 [], .got o] ∧ s.result T = some (pingResult o) := by
  intro s T
  have h0 : PingAt c' T ((after E clientId maxRetries es).step E (.ping c)) := by
    have hfresh : ((after E clientId maxRetries es).g.countPing c).acts T = [] := fresh_acts E clientId maxRetries es
    have hc2 : ((after E clientId maxRetries es).g.countPing c).cmProto = some c' := hc
    simp only [Sys.step, hx, if_pos hp, Sys.spawn]
    rw [ping_co hc2]
    generalize hg : (after E clientId maxRetries es).g.countPing c = g at hfresh
    have hTT : (after E clientId maxRetries es).tasks.length = T := rfl
    rw [hTT]
    refine ⟨by simp [hTT], ?_⟩
    have hask : (g.ask T c' 16 [] 0).2.acts T = [.ask c' 16 []] := by
      simp only [Gw.ask, acts_note]
      have : ∀ (g : Gw) c e, (g.net c e).acts T = g.acts T := fun g c e => rfl
      rw [this, this, hfresh]
      rfl
    simp only [settle]
    cases ho : (g.ask T c' 16 [] 0).2.outcome c' (g.ask T c' 16 [] 0).1 with
    | none =>
      refine .inl ⟨(g.ask T c' 16 [] 0).1, ?_, hask⟩
      simp [← hTT]
    | some o =>
      simp only [settle_ended]
      refine .inr ⟨o, ?_, ?_⟩
      · simp [← hTT]
      · rw [acts_note, hask]; rfl
  have h1 := ping_at_run (E := E) es2 h0
  have e : s = ((after E clientId maxRetries es).step E (.ping c)).run E es2 := by
    simp only [s, after, sys_run_append]
    rfl
  rw [← e] at h1
  rcases h1.2 with ⟨r, ht, ha⟩ | ⟨o, ht, ha⟩
  · exact .inl ⟨ha, by simp only [Sys.result, ht]⟩
  · exact .inr ⟨o, ha, by simp only [Sys.result, ht]⟩

/-- **C78**: on an open connection the ping is written at once. -/
theorem C78_sends {c c' : Nat} {x y : Conn} (hx : (after E clientId maxRetries es).g.conns[c]? = some x) (hp : x.pinged < x.w.p.pings)
    (hc : (after E clientId maxRetries es).g.cmProto = some c') (hy : (after E clientId maxRetries es).g.conns[c']? = some y) (ho : y.isOpen) :
    ∃ y', (after E clientId maxRetries (es ++ [.ping c])).g.conns[c']? = some y' ∧
      y'.w.p.written = y.w.p.written ++ [(y.w.p.futs.length, frame (y.w.p.futs.length % 32767) 16 [])] := by
  have e : after E clientId maxRetries (es ++ [.ping c]) = (after E clientId maxRetries es).step E (.ping c) := by
    simp only [after, sys_run_append]
    rfl
  have hw : Worlds (after E clientId maxRetries es).g := reach_worlds _ _ _ _
  have hw2 : Worlds ((after E clientId maxRetries es).g.countPing c) := by
    intro z hz
    simp only [Gw.countPing] at hz
    obtain ⟨i, hi⟩ := List.getElem?_of_mem hz
    rw [List.getElem?_modify] at hi
    cases hq : (after E clientId maxRetries es).g.conns[i]? with
    | none => rw [hq] at hi; cases hi
    | some z0 =>
      rw [hq] at hi
      have h0 := hw z0 (List.mem_of_getElem? hq)
      by_cases hic : c = i
      · simp [hic] at hi; subst hi; exact h0
      · simp [hic] at hi; subst hi; exact h0
  have hc2 : ((after E clientId maxRetries es).g.countPing c).cmProto = some c' := hc
  have hy2 : ∃ y2, ((after E clientId maxRetries es).g.countPing c).conns[c']? = some y2 ∧ y2.w = y.w := by
    simp only [Gw.countPing, List.getElem?_modify, hy]
    by_cases hic : c = c'
    · exact ⟨{ y with pinged := y.pinged + 1 }, by simp [hic], rfl⟩
    · exact ⟨y, by simp [hic], rfl⟩
  obtain ⟨y2, hy2, hyw⟩ := hy2
  rw [e]
  simp only [Sys.step, hx, if_pos hp, Sys.spawn]
  rw [ping_co hc2]
  obtain ⟨h1, x', h2, h3⟩ := settle_request hw2 (after E clientId maxRetries es).tasks.length hy2 (by rw [Conn.isOpen, hyw]; exact ho) (code := 16)
    (data := []) (r := 0) (by omega) (by omega) (by simp) (fun o => Co.ended (pingResult o))
  change settle _ (.request c' ((16 : Nat) : Int) [] 0 _) _ = _ at h1
  refine ⟨x', ?_, ?_⟩
  · have : settle (after E clientId maxRetries es).tasks.length (.request c' 16 [] 0 fun o => Co.ended (pingResult o))
        ((after E clientId maxRetries es).g.countPing c) = _ := h1
    rw [this]
    exact h2
  · rw [h3, hyw]

/-- A subscribed gateway whose keepalive timer has fired. -/
def idleEvs : List Ev := bareConnectEvs ++ .call (.subscribe 7 12500) :: (reply 0 4 12523 [] ++ [.resume 1, .net 0 (.timerFire 0)])

/-- Whether connection 0 is open with a keepalive task waiting, and the client manager uses it. -/
def pingDue (s : Sys) : Bool :=
  match s.g.conns[0]? with
  | some x => decide (x.pinged < x.w.p.pings) && x.w.p.connected && !x.w.p.closing && !x.w.p.tclosing && decide (s.g.cmProto = some 0)
  | none => false

/-- C78: the hypotheses are met, and the ping's answer ends its task. -/
theorem C78_witness :
    pingDue (after sampleEnv 1 3 idleEvs) = true ∧
    (after sampleEnv 1 3 (idleEvs ++ .ping 0 :: (reply 0 5 17 [] ++ [.resume 2]))).g.acts 2 = [.ask 0 16 [], .got (.ok (some []))] := by
  decide +kernel

end

end SL
