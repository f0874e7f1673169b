import Verif.Lemmas.Recall
import Verif.Lemmas.Subs
import Verif.Lemmas.Sample
import Verif.Lemmas.Deeds
/-!
# C80: the connection-closed callback

`closedCalls` is the list of the connection-closed callbacks called so far; `g.connected c` is `is_connected` of the
protocol object of connection `c`; the event `.net c .lost` is asyncio calling its `connection_lost`.
-/
set_option linter.unusedVariables false

namespace SL

section
variable (E : Env) (clientId maxRetries : Int)

/-- No TCP connection is started between the two states. -/
def StartsNone (g g' : Gw) : Prop := ∃ l, g'.log = g.log ++ l ∧ ∀ t h p, (t, Act.opn h p) ∉ l

theorem lost_step (es : List Ev) (c : Nat) :
    (after E clientId maxRetries (es ++ [.net c .lost])).g =
      ((after E clientId maxRetries es).g.lostCallback c .lost).net c .lost := by
  rw [after_snoc]
  rfl

/-- `_closed` is only cancelled by cancelling a call that closes that connection. -/
theorem unspoiled (es : List Ev) (c : Nat) (hq : ∀ i, .net c (.closeCancel i) ∉ es) : (after E clientId maxRetries es).g.spoiled c = false := by
  simp only [Gw.spoiled]
  split
  · rename_i x hx
    obtain ⟨l, hl, ht⟩ := after_traced E clientId maxRetries es hx
    cases hs : x.w.spoiled with
    | false => rfl
    | true =>
      rw [hl] at hs
      obtain ⟨i, hi⟩ := spoiled_cancelled l hs
      rcases ht _ hi with h | h
      · cases h
      · exact absurd h (hq i)
  · rfl

theorem lost_frame (g : Gw) (c : Nat) (e : Event) : (g.lostCallback c e).closedCb = g.closedCb ∧ (g.lostCallback c e).ip = g.ip ∧
    (g.lostCallback c e).log = g.log ∧ (g.lostCallback c e).conns = g.conns := by
  simp only [Gw.lostCallback]
  split
  · split <;> exact ⟨rfl, rfl, rfl, rfl⟩
  · exact ⟨rfl, rfl, rfl, rfl⟩

/-- **C80**: when an open connection is lost, the callback in force is called, once, if there is one (and unless a call that was closing that
connection has been cancelled: see C91); the callback stays in force. -/
theorem C80_called (es : List Ev) (c : Nat) (hc : (after E clientId maxRetries es).g.connected c = true)
    (hq : ∀ i, .net c (.closeCancel i) ∉ es) :
    (after E clientId maxRetries (es ++ [.net c .lost])).g.closedCalls =
      (after E clientId maxRetries es).g.closedCalls ++ (after E clientId maxRetries es).g.closedCb.toList ∧
    (after E clientId maxRetries (es ++ [.net c .lost])).g.closedCb = (after E clientId maxRetries es).g.closedCb := by
  rw [lost_step]
  have h := unspoiled E clientId maxRetries es c hq
  simp only [Gw.lostCallback, hc, h, Gw.net]
  simp

/-- **C80**: no other event calls it. -/
theorem C80_only (es : List Ev) (ev : Ev)
    (hev : ∀ c, ev = .net c .lost → (after E clientId maxRetries es).g.connected c = false) :
    (after E clientId maxRetries (es ++ [ev])).g.closedCalls = (after E clientId maxRetries es).g.closedCalls := by
  rw [after_snoc]
  by_cases hc : ∃ a, ev = .call (.connect a)
  · obtain ⟨a, rfl⟩ := hc
    simp only [Sys.step, Sys.spawn]
    rcases settle_connect E (after E clientId maxRetries es).tasks.length a (after E clientId maxRetries es).g with
      ⟨_, e⟩ | ⟨_, _, e⟩ | ⟨_, _, k, hk, e⟩ <;> rw [e] <;> rfl
  · exact (step_recalls (reach_all E clientId maxRetries es) ev (fun a e => hc ⟨a, e⟩) hev).calls

/-- A connection that is there and not open. -/
def Gw.dead (g : Gw) (c : Nat) : Prop := c < g.conns.length ∧ g.connected c = false

theorem dead_of {g g' : Gw} {c : Nat} (hd : g.dead c) (hl : g'.conns.length = g.conns.length)
    (h : g.connected c = false → g'.connected c = false) : g'.dead c :=
  ⟨by rw [hl]; exact hd.1, h hd.2⟩

theorem dead_quiet {g g' : Gw} (hq : Quiet g g') {c : Nat} (hd : g.dead c) : g'.dead c :=
  dead_of hd hq.len (hq.down c)

theorem dead_same {g g' : Gw} (he : g'.conns = g.conns) {c : Nat} (hd : g.dead c) : g'.dead c := by
  simp only [Gw.dead, Gw.connected, he] at hd ⊢
  exact hd

theorem dead_addConn (g : Gw) {c : Nat} (hd : g.dead c) : g.addConn.dead c := by
  obtain ⟨h1, h2⟩ := hd
  refine ⟨by simp only [Gw.addConn, List.length_append]; omega, ?_⟩
  simp only [Gw.connected, Gw.addConn, List.getElem?_append_left h1] at h2 ⊢
  exact h2

theorem dead_micro {E : Env} {U : Prop} {g g' : Gw} (m : Micro E U g g') {c : Nat} (hd : g.dead c) : g'.dead c := by
  cases m with
  | upd t _ _ hu =>
    cases hu with
    | disableKeepalive i => exact dead_quiet (quiet_net _ _ _) hd
    | unregisterAll i => exact dead_quiet (quiet_net _ _ _) hd
    | enableKeepalive i => exact dead_quiet (quiet_net _ _ _) hd
    | register i code hc => exact dead_quiet (quiet_net _ _ _) hd
    | raw i b => exact dead_quiet (g' := g.writeRaw i b) (quiet_modify g i (fun x => { x with raw := x.raw ++ [b] }) (fun _ h => h)) hd
    | listen cb code =>
      simp only [Gw.addListener]
      split <;> exact dead_same rfl hd
    | _ => exact dead_same rfl hd
  | ask t c code data r => exact dead_quiet (quiet_ask _ _ _ _ _ _) hd
  | cls t c force => exact dead_quiet (quiet_close _ _ _ _) hd
  | conn => exact dead_addConn _ hd
  | ping i => exact dead_quiet (g' := g.countPing i) (quiet_modify g i (fun x => { x with pinged := x.pinged + 1 }) (fun _ h => h)) hd
  | env _ _ he => exact dead_quiet (quiet_env he) hd
  | _ => exact dead_same rfl hd

theorem dead_run {s : Sys} (hs : SysOk E False s) {c : Nat} (es : List Ev) (hd : s.g.dead c) : (s.run E es).g.dead c := by
  induction es generalizing s with
  | nil => exact hd
  | cons ev es ih =>
    refine ih (hs.step ev (fun u => u.elim)) ?_
    exact (step_micro hs ev (fun u => u.elim)).inv (I := fun g => g.dead c) (fun a b ha hb => dead_micro hb ha) hd

/-- **C80**: each connection is lost at most once: after a loss the connection is never open again, whatever happens, so
its callback is not called a second time. -/
theorem C80_once (es es' : List Ev) (c : Nat) (hc : (after E clientId maxRetries es).g.connected c = true) :
    (after E clientId maxRetries (es ++ .net c .lost :: es')).g.connected c = false ∧
    (after E clientId maxRetries (es ++ .net c .lost :: es' ++ [.net c .lost])).g.closedCalls =
      (after E clientId maxRetries (es ++ .net c .lost :: es')).g.closedCalls := by
  have hlen : c < (after E clientId maxRetries es).g.conns.length := by
    simp only [Gw.connected] at hc
    split at hc
    · rename_i x hx
      exact (List.getElem?_eq_some_iff.1 hx).1
    · cases hc
  have h1 : (after E clientId maxRetries (es ++ [.net c .lost])).g.dead c := by
    rw [lost_step]
    have he := (lost_frame (after E clientId maxRetries es).g c .lost).2.2.2
    refine ⟨by simpa [Gw.net, he] using hlen, ?_⟩
    simp only [Gw.connected] at hc ⊢
    simp only [Gw.net, List.getElem?_modify, he]
    cases hx : (after E clientId maxRetries es).g.conns[c]? with
    | none => simp only [hx] at hc; cases hc
    | some x =>
      simp only [hx] at hc
      have hd : (x.w.step .lost).p.connected = false := by
        simp only [World.step, hc, if_true]
        show x.w.p.connectionLost.connected = false
        simp only [Proto.connectionLost, Proto.stopKeepalive]
        split <;> rfl
      simpa using hd
  have e : es ++ .net c .lost :: es' = (es ++ [.net c .lost]) ++ es' := by simp
  have h2 : (after E clientId maxRetries (es ++ .net c .lost :: es')).g.dead c := by
    rw [e]
    rw [after, sys_run_append]
    exact dead_run E ((SysOk.init E False clientId maxRetries).run (es ++ [.net c .lost]) (fun u => u.elim)) es'
      (by simpa only [after] using h1)
  refine ⟨h2.2, C80_only E clientId maxRetries _ _ (fun c' e => ?_)⟩
  cases e
  exact h2.2

/-- **C80**: `async_connect` puts the callback it is given in force (or none), unless the gateway is connected already,
in which case the call changes nothing. -/
theorem C80_set (es : List Ev) (a : ConnectArgs) :
    (after E clientId maxRetries (es ++ [.call (.connect a)])).g.closedCb =
      if (after E clientId maxRetries es).g.isConnected then (after E clientId maxRetries es).g.closedCb else a.cb := by
  rw [after_snoc]
  simp only [Sys.step, Sys.spawn]
  rcases settle_connect E (after E clientId maxRetries es).tasks.length a (after E clientId maxRetries es).g with
    ⟨h, e⟩ | ⟨h, _, e⟩ | ⟨h, _, k, hk, e⟩ <;> rw [e, h] <;> rfl

/-- **C80**: nothing else puts a callback in force.  Any other event leaves the callback alone, or forgets it; and then
some task has started a TCP connection in that event (or has tried to, without an address). -/
theorem C80_forgets (es : List Ev) (ev : Ev) (hev : ∀ a, ev ≠ .call (.connect a)) :
    (after E clientId maxRetries (es ++ [ev])).g.closedCb = (after E clientId maxRetries es).g.closedCb ∨
    ((after E clientId maxRetries (es ++ [ev])).g.closedCb = none ∧
      ((after E clientId maxRetries es).g.noIp = true ∨
        ¬ StartsNone (after E clientId maxRetries es).g (after E clientId maxRetries (es ++ [ev])).g)) := by
  by_cases hl : ∃ c, ev = .net c .lost ∧ (after E clientId maxRetries es).g.connected c = true
  · obtain ⟨c, rfl, hc⟩ := hl
    left
    rw [lost_step]
    exact (lost_frame _ _ _).1
  · have := step_recalls (reach_all E clientId maxRetries es) ev hev (fun c e => by
      cases h : (after E clientId maxRetries es).g.connected c with
      | false => rfl
      | true => exact absurd ⟨c, e, h⟩ hl)
    rw [after_snoc]
    obtain ⟨l, hl, h⟩ := this.cb
    rcases h with h | ⟨h1, h2 | ⟨t, x, p, hm⟩⟩
    · exact .inl h
    · exact .inr ⟨h1, .inl h2⟩
    · refine .inr ⟨h1, .inr ?_⟩
      rintro ⟨l', hl', hn⟩
      rw [hl] at hl'
      obtain rfl := List.append_cancel_left hl'
      exact hn _ _ _ hm

theorem run_recalls (es : List Ev) : ∀ es2 : List Ev, (∀ b, .call (.connect b) ∉ es2) →
    (after E clientId maxRetries (es ++ es2)).g.ip = (after E clientId maxRetries es).g.ip ∧
    ∃ l, (after E clientId maxRetries (es ++ es2)).g.log = (after E clientId maxRetries es).g.log ++ l ∧
      ((after E clientId maxRetries (es ++ es2)).g.closedCb = (after E clientId maxRetries es).g.closedCb ∨
        (after E clientId maxRetries (es ++ es2)).g.closedCb = none ∧
          ((after E clientId maxRetries es).g.noIp = true ∨ ∃ t h p, (t, Act.opn h p) ∈ l)) := by
  intro es2
  induction es2 using snoc_ind with
  | h0 => intro _; exact ⟨by simp, [], by simp, .inl (by simp)⟩
  | hs es2 ev ih =>
    intro h
    obtain ⟨i1, l, i2, i3⟩ := ih (fun b hb => h b (by simp [hb]))
    have hev : ∀ a, ev ≠ .call (.connect a) := fun a e => h a (by simp [e])
    rw [← List.append_assoc]
    generalize es ++ es2 = es' at i1 i2 i3
    by_cases hl : ∃ c, ev = .net c .lost ∧ (after E clientId maxRetries es').g.connected c = true
    · obtain ⟨c, rfl, hc⟩ := hl
      refine ⟨?_, l, ?_, ?_⟩
      · rw [← i1, lost_step]; exact (lost_frame _ _ _).2.1
      · rw [← i2, lost_step]; exact (lost_frame _ _ _).2.2.1
      · have : (after E clientId maxRetries (es' ++ [.net c .lost])).g.closedCb = (after E clientId maxRetries es').g.closedCb := by
          rw [lost_step]; exact (lost_frame _ _ _).1
        rw [this]; exact i3
    · have := step_recalls (reach_all E clientId maxRetries es') ev hev (fun c e => by
        cases h : (after E clientId maxRetries es').g.connected c with
        | false => rfl
        | true => exact absurd ⟨c, e, h⟩ hl)
      rw [after_snoc]
      refine ⟨this.ip.trans i1, ?_⟩
      obtain ⟨l', j2, j3⟩ := this.cb
      refine ⟨l ++ l', by rw [j2, i2, List.append_assoc], ?_⟩
      rw [noIp_congr i1] at j3
      rcases j3 with j3 | ⟨j3, j4⟩
      · rw [j3]
        rcases i3 with i3 | ⟨i3, i4⟩
        · exact .inl i3
        · exact .inr ⟨i3, i4.imp id (fun ⟨t, x, p, hm⟩ => ⟨t, x, p, List.mem_append_left _ hm⟩)⟩
      · exact .inr ⟨j3, j4.imp id (fun ⟨t, x, p, hm⟩ => ⟨t, x, p, List.mem_append_right _ hm⟩)⟩

/-- **C80** (partial): a callback given to `async_connect` is in force from then on, whatever happens, as long as no task
starts another TCP connection; so every loss of an open connection calls exactly it, if no call that was closing it has been cancelled.
Missing: a managed request that reconnects by itself forgets the callback (`C80_refuted`), and a cancelled disconnection drops it (C91). -/
theorem C80_callback_partial (es1 : List Ev) (a : ConnectArgs) (es2 : List Ev)
    (h1 : (after E clientId maxRetries es1).g.isConnected = false)
    (hip : (after E clientId maxRetries (es1 ++ [.call (.connect a)])).g.noIp = false)
    (h2 : ∀ b, .call (.connect b) ∉ es2)
    (hn : StartsNone (after E clientId maxRetries (es1 ++ [.call (.connect a)])).g
      (after E clientId maxRetries (es1 ++ .call (.connect a) :: es2)).g) :
    (after E clientId maxRetries (es1 ++ .call (.connect a) :: es2)).g.closedCb = a.cb ∧
    ∀ c, (after E clientId maxRetries (es1 ++ .call (.connect a) :: es2)).g.connected c = true →
      (∀ i, .net c (.closeCancel i) ∉ es1 ++ .call (.connect a) :: es2) →
      (after E clientId maxRetries (es1 ++ .call (.connect a) :: es2 ++ [.net c .lost])).g.closedCalls =
        (after E clientId maxRetries (es1 ++ .call (.connect a) :: es2)).g.closedCalls ++ a.cb.toList := by
  have h0 : (after E clientId maxRetries (es1 ++ [.call (.connect a)])).g.closedCb = a.cb := by
    rw [C80_set, h1]; rfl
  have key : ∀ es2 : List Ev, (∀ b, .call (.connect b) ∉ es2) →
      StartsNone (after E clientId maxRetries (es1 ++ [.call (.connect a)])).g
        (after E clientId maxRetries (es1 ++ .call (.connect a) :: es2)).g →
      (after E clientId maxRetries (es1 ++ .call (.connect a) :: es2)).g.closedCb = a.cb := by
    intro es2 h2 hn
    have := run_recalls E clientId maxRetries (es1 ++ [.call (.connect a)]) es2 h2
    obtain ⟨hi, l, hl, hc⟩ := this
    rw [List.append_assoc] at hl hc
    simp only [List.singleton_append] at hl hc
    rcases hc with hc | ⟨_, hc | ⟨t, x, p, hm⟩⟩
    · rw [hc, h0]
    · rw [hip] at hc; cases hc
    · obtain ⟨l', hl', hno⟩ := hn
      rw [hl] at hl'
      obtain rfl := List.append_cancel_left hl'
      exact absurd hm (hno _ _ _)
  have hcb := key es2 h2 hn
  refine ⟨hcb, fun c hc hq => ?_⟩
  rw [(C80_called E clientId maxRetries _ c hc hq).1, hcb]

end

/-- Somebody connects a new gateway, with callback 7. -/
def watchedEvs : List Ev := [.call (.connect { ip := some "10.0.0.1", cb := some 7 })] ++ loginEvs 0 0 ++ noConfigEvs 0 0

/-- The hypotheses of `C80_callback_partial` in a concrete case, and its conclusion: the connection is lost, callback 7
is called. -/
theorem C80_witness :
    (after sampleEnv 1 1 watchedEvs).g.connected 0 = true ∧
    ((after sampleEnv 1 1 watchedEvs).g.log.filter (fun x => match x.2 with | .opn _ _ => true | _ => false)).length =
      ((after sampleEnv 1 1 (watchedEvs.take 1)).g.log.filter (fun x => match x.2 with | .opn _ _ => true | _ => false)).length ∧
    (after sampleEnv 1 1 (watchedEvs ++ [.net 0 .lost])).g.closedCalls = [7] := by
  decide +kernel

/-- **C80** does not hold: the adapter refuses a request, the library reconnects by itself (the first connection is
closed: callback 7 is called), and when the second connection is lost nobody is told. -/
theorem C80_refuted :
    (after sampleEnv 1 1 (watchedEvs ++ .call .getScg :: (rejectEvs 1 0 4 ++ loginEvs 1 1 ++ noConfigEvs 1 1))).g.connected 1 = true ∧
    (after sampleEnv 1 1 (watchedEvs ++ .call .getScg :: (rejectEvs 1 0 4 ++ loginEvs 1 1 ++ noConfigEvs 1 1))).g.closedCalls = [7] ∧
    (after sampleEnv 1 1 (watchedEvs ++ .call .getScg :: (rejectEvs 1 0 4 ++ loginEvs 1 1 ++ noConfigEvs 1 1) ++ [.net 1 .lost])).g.closedCalls = [7] := by
  decide +kernel

end SL
