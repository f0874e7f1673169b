import Verif.Lemmas.Reach
import Verif.Props.ProtocolProps
/-!
# The connections of a gateway are protocol objects with a history of their own

So everything proved about `World.init.run es` (Props/ProtocolProps.lean, Props/RequestProps.lean) holds of every
connection of every reachable gateway.
-/
set_option linter.unusedVariables false

namespace SL

/-- Every connection has a history. -/
def Worlds (g : Gw) : Prop := ∀ x ∈ g.conns, ∃ es, x.w = World.init.run es

theorem world_run_append (w : World) (a b : List Event) : w.run (a ++ b) = (w.run a).run b := by
  simp [World.run, List.foldl_append]

theorem worlds_modify {g : Gw} (h : Worlds g) (c : Nat) (f : Conn → Conn)
    (hf : ∀ x : Conn, (∃ es, x.w = World.init.run es) → ∃ es, (f x).w = World.init.run es) :
    ∀ x ∈ g.conns.modify c f, ∃ es, x.w = World.init.run es := by
  intro x hx
  obtain ⟨i, hi⟩ := List.getElem?_of_mem hx
  rw [List.getElem?_modify] at hi
  cases hy : g.conns[i]? with
  | none => simp [hy] at hi
  | some y =>
    have hm := h y (List.mem_of_getElem? hy)
    simp only [hy, Option.map_eq_map, Option.map_some, Option.some.injEq] at hi
    subst hi
    split
    · exact hf y hm
    · exact hm

theorem worlds_net {g : Gw} (h : Worlds g) (c : Nat) (e : Event) : Worlds (g.net c e) :=
  worlds_modify h c _ (fun x ⟨es, hx⟩ => ⟨es ++ [e], by rw [world_run_append, ← hx]; rfl⟩)

theorem worlds_same {g g' : Gw} (h : Worlds g) (hc : g'.conns = g.conns) : Worlds g' := by
  intro x hx
  rw [hc] at hx
  exact h x hx

theorem worlds_ask {g : Gw} (h : Worlds g) (t c : Nat) (code : Int) (data : Bytes) (r : Int) : Worlds (g.ask t c code data r).2 := by
  simp only [Gw.ask]
  exact worlds_same (worlds_net (worlds_net h c _) c _) rfl

theorem worlds_close {g : Gw} (h : Worlds g) (t c : Nat) (force : Bool) : Worlds (g.startClose t c force).2 := by
  simp only [Gw.startClose]
  exact worlds_same (worlds_net (worlds_net h c _) c _) rfl

theorem worlds_env {E : Env} {g g' : Gw} (h : Worlds g) (he : EnvStep E g g') : Worlds g' := by
  cases he with
  | nothing => exact h
  | setMaxRetries n =>
    simp only [Gw.setMaxRetries]
    split
    · exact worlds_same h rfl
    · exact h
  | unsubscribe u =>
    simp only [Gw.unsubscribe]
    split
    · split
      · split
        · split
          · simp only [Gw.dropCode]
            split
            · split
              · split
                · exact worlds_same (worlds_net (g := Gw.delListener (Gw.setSet g _ _) _) (worlds_same h rfl) _ _) rfl
                · exact worlds_net (worlds_same h rfl) _ _
              · exact worlds_same h rfl
            · exact worlds_same h rfl
          · exact worlds_same h rfl
        · exact worlds_same h rfl
      · exact h
    · exact h
  | register => exact worlds_net h _ _
  | unregister => exact worlds_net h _ _
  | net c e =>
    refine worlds_net ?_ _ _
    simp only [Gw.lostCallback]
    split
    · split
      · exact worlds_same h rfl
      · exact h
    · exact h
  | handle c =>
    simp only [Gw.runHandler]
    split
    · split
      · have h1 : Worlds { g with conns := g.conns.modify c (fun x => { x with handled := x.handled + 1 }) } :=
          worlds_modify h c _ (fun x hx => hx)
        split
        · simp only [Gw.commonCallback]
          split
          · split
            · simp only [Gw.commonCallback.notify]
              split <;> exact worlds_same h1 rfl
            · exact worlds_same h1 rfl
          · simp only [Gw.commonCallback.notify]
            split <;> exact worlds_same h1 rfl
        · exact worlds_same h1 rfl
      · exact h
    · exact h
  | tick => exact worlds_same h rfl

theorem worlds_micro {E : Env} {U : Prop} {g g' : Gw} (h : Worlds g) (m : Micro E U g g') : Worlds g' := by
  cases m with
  | upd t _ _ hu =>
    cases hu with
    | disableKeepalive c => exact worlds_net h _ _
    | unregisterAll c => exact worlds_net h _ _
    | enableKeepalive c => exact worlds_net h _ _
    | register c code => exact worlds_net h _ _
    | raw c b => exact worlds_modify h c _ (fun x hx => hx)
    | listen cb code =>
      simp only [Gw.addListener]
      split <;> exact worlds_same h rfl
    | _ => exact worlds_same h rfl
  | ask t c code data r => exact worlds_ask h _ _ _ _ _
  | cls t c force => exact worlds_close h _ _ _
  | conn =>
    intro x hx
    rcases List.mem_append.1 hx with hx | hx
    · exact h x hx
    · simp only [List.mem_singleton] at hx
      subst hx
      exact ⟨[], rfl⟩
  | ping c => exact worlds_modify h c _ (fun x hx => hx)
  | env _ _ he => exact worlds_env h he
  | _ => exact worlds_same h rfl

/-- Every connection of every reachable gateway is a protocol object with a history of its own. -/
theorem reach_worlds (E : Env) (clientId maxRetries : Int) (es : List Ev) : Worlds (after E clientId maxRetries es).g :=
  reach_inv (U := False) (I := Worlds) (by intro x hx; cases hx) (fun g g' _ h m => worlds_micro h m) es (fun u => u.elim)

/-- `max_retries` of every reachable gateway. -/
theorem reach_retries (E : Env) (clientId maxRetries : Int) (h1 : 1 ≤ maxRetries) (h5 : maxRetries ≤ 5) (es : List Ev) :
    1 ≤ (after E clientId maxRetries es).g.maxRetries ∧ (after E clientId maxRetries es).g.maxRetries ≤ 5 := by
  refine reach_inv (U := False) (I := fun g => 1 ≤ g.maxRetries ∧ g.maxRetries ≤ 5) ⟨h1, h5⟩ (fun g g' _ h m => ?_) es (fun u => u.elim)
  cases m with
  | upd t _ _ hu =>
    cases hu with
    | listen cb code =>
      simp only [Gw.addListener]
      split <;> exact h
    | _ => exact h
  | env _ _ he =>
    cases he with
    | setMaxRetries n =>
      simp only [Gw.setMaxRetries]
      split
      · rename_i hn
        simp only
        omega
      · exact h
    | unsubscribe u =>
      simp only [Gw.unsubscribe, Gw.dropCode]
      repeat' split
      all_goals exact h
    | net c e =>
      simp only [Gw.lostCallback]
      repeat' split
      all_goals exact h
    | handle c =>
      simp only [Gw.runHandler, Gw.commonCallback, Gw.commonCallback.notify]
      repeat' split
      all_goals exact h
    | _ => exact h
  | _ => exact h

/-! ## A request on an open connection is written at once -/

open Spec (frame)

theorem conns_ask (g : Gw) (t c : Nat) (code : Int) (data : Bytes) (r : Int) {x : Conn} (hx : g.conns[c]? = some x) :
    (g.ask t c code data r).2.conns[c]? =
      some { x with w := (x.w.step (.call code data r)).step (.run x.w.reqs.length) } ∧ (g.ask t c code data r).1 = x.w.reqs.length := by
  simp only [Gw.ask, Gw.note, Gw.net, hx, List.getElem?_modify, Option.map_eq_map, Option.map_some, if_true, and_self]

/-- What the first piece of a request call does on an open connection. -/
theorem run_open {w : World} (hw : ∃ es, w = World.init.run es) (h1 : w.p.connected = true) (h2 : w.p.closing = false)
    (h3 : w.p.tclosing = false) {code : Nat} {data : Bytes} {r : Int} (hr : 0 ≤ r) (hc : code < 65536) (hd : data.length < 2 ^ 32) :
    let w' := (w.step (.call code data r)).step (.run w.reqs.length)
    w'.p.written = w.p.written ++ [(w.p.futs.length, frame (w.p.futs.length % 32767) code data)] ∧ w'.outcome w.reqs.length = none := by
  obtain ⟨es, rfl⟩ := hw
  generalize hw : World.init.run es = w at *
  intro w'
  have hwr : (w.p.awaitSend code data).1.written = w.p.written ++ [(w.p.futs.length, frame (w.p.futs.length % 32767) code data)] := by
    have := C12_written_at_once es code data (by rw [hw]; exact h2) (by rw [hw]; exact h3) hc hd
    rw [hw] at this
    exact this
  obtain ⟨futs, written, timers, kaStop, e, hf, hwc, -⟩ := awaitSend_spec w.p code data
  have hok : (w.p.awaitSend code data).2 = .ok w.p.futs.length := by
    have hmk : ∃ bytes, makeMessage w.p.nextId code data = .ok bytes := by
      rcases hwc with ⟨-, h | h | ⟨er, h⟩⟩ | ⟨bs, -, -, hm, -⟩
      · rw [h2] at h; cases h
      · rw [h3] at h; cases h
      · exfalso
        rw [e] at hwr
        have hn : w.p.nextId = w.p.futs.length % 32767 := by
          have := (invIds es).nextId
          rw [hw] at this
          exact this
        rw [C01_make_message, if_pos ⟨by omega, by omega, by omega, by omega, hd⟩] at h
        cases h
      · exact ⟨bs, hm⟩
    obtain ⟨bytes, hm⟩ := hmk
    have hc2 : ¬ (w.p.create code data).closing = true := by
      change ¬ w.p.closing = true
      rw [h2]
      simp
    have ht2 : ¬ (w.p.create code data).tclosing = true := by
      change ¬ w.p.tclosing = true
      rw [h3]
      simp
    simp only [Proto.awaitSend, if_neg hc2, Proto.sendMessage, if_neg ht2, hm]
    rfl
  have hlen : w.reqs.length < (w.reqs ++ [({ code := (code : Int), data := data, maxRetries := r } : Req)]).length := by simp
  have hw' : w' = ({ w with reqs := w.reqs ++ [{ code := (code : Int), data := data, maxRetries := r }], p := (w.p.awaitSend code data).1 } : World).setReq
      w.reqs.length { code := (code : Int), data := data, maxRetries := r, mine := [w.p.futs.length], phase := .waiting w.p.futs.length false false } := by
    have hp : ¬ (w.p.awaitSend code data).1.futs[w.p.futs.length]? = some .cancelled := by
      rw [e, hf, h2]
      simp
    have hn : ¬ r < ((0 : Nat) : Int) := by omega
    rcases ha : w.p.awaitSend code data with ⟨p, x⟩
    rw [ha] at hok hp
    simp only at hok hp
    subst hok
    simp only [w', World.step, List.getElem?_concat_length, if_true, World.startAttempt, if_neg hn, h1, Bool.not_true, Bool.false_eq_true, if_false,
      ha, if_neg hp, List.nil_append]
  rw [hw']
  refine ⟨hwr, ?_⟩
  simp only [World.outcome, World.setReq]
  rw [List.getElem?_set_self hlen]

/-- A task that makes a request on an open connection has it written at once, and waits. -/
theorem settle_request {g : Gw} (hw : Worlds g) (t : Nat) {c : Nat} {x : Conn} (hx : g.conns[c]? = some x) (ho : x.isOpen) {code : Nat}
    {data : Bytes} {r : Int} (hr : 0 ≤ r) (hc : code < 65536) (hd : data.length < 2 ^ 32) (k : Except PyErr (Option Bytes) → Co Res) :
    settle t (.request c code data r k) g = (.request c x.w.reqs.length k, (g.ask t c code data r).2) ∧
    ∃ x', (g.ask t c code data r).2.conns[c]? = some x' ∧
      x'.w.p.written = x.w.p.written ++ [(x.w.p.futs.length, frame (x.w.p.futs.length % 32767) code data)] := by
  have h := conns_ask g t c code data r hx
  have hr := run_open (hw x (List.mem_of_getElem? hx)) ho.1 ho.2.1 ho.2.2 hr hc hd
  refine ⟨?_, _, h.1, hr.1⟩
  have ho : (g.ask t c code data r).2.outcome c (g.ask t c code data r).1 = none := by
    simp only [Gw.outcome, h.1, h.2, Option.bind_some]
    exact hr.2
  simp only [settle, ho]
  rw [h.2]

/-- On a connected gateway a managed request is made at once. -/
theorem settle_connected {g : Gw} {c : Nat} (hp : g.protocol = some c) (hc : g.isConnected = true) {α : Type} (method : Nat → Int → Co α)
    (k : Except PyErr α → Co Res) (t : Nat) : ∃ h : Except PyErr α → Co α,
    settle t ((connectedRequest method).bindE k) g = settle t (((method c g.maxRetries).bindE h).bindE k) g := by
  refine ⟨?_, ?_⟩
  rotate_left
  · simp only [connectedRequest, attemptRequest, asyncConnect]
    change settle t (Co.bindE (Co.tryExcept (Co.bindE (if g.isConnected then _ else _) _) _) _) g = _
    rw [if_pos hc]
    change settle t (Co.bindE (Co.tryExcept (match g.protocol with | some c => method c g.maxRetries | none => _) _) _) g = _
    rw [hp]
    simp only [Co.tryExcept]
    rfl

/-! ## Setters over every history -/

section
variable {E : Env} {clientId maxRetries : Int} {es : List Ev} {a : Call} {f : Val → Except PyErr (Int × Except PyErr Bytes)}

theorem after_call (E : Env) (clientId maxRetries : Int) (es : List Ev) (a : Call) :
    after E clientId maxRetries (es ++ [.call a]) = (after E clientId maxRetries es).step E (.call a) := by
  simp only [after, sys_run_append]
  rfl

/-- Invalid settings are refused at once. -/
theorem setter_refuses (hf : setterPlan E a = some f) {e : PyErr} (hp : f (after E clientId maxRetries es).g.data = .error e) :
    Refuses E clientId maxRetries es a e := by
  rw [Refuses, after_call]
  simp only [Sys.step, Sys.spawn]
  rw [settle_look, setter_look E hf, ← settle_look, hp]
  rfl

/-- A task that has ended does nothing any more. -/
theorem done_forever (E : Env) {t : Nat} {r : Except PyErr Res} : ∀ (es : List Ev) {s : Sys}, s.tasks[t]? = some (.done r) →
    (s.run E es).tasks[t]? = some (.done r) ∧ (s.run E es).g.acts t = s.g.acts t
  | [], _, h => ⟨h, rfl⟩
  | ev :: es, s, h => by
    have ht : t < s.tasks.length := (List.getElem?_eq_some_iff.1 h).1
    have key : (s.step E ev).tasks[t]? = some (.done r) ∧ (s.step E ev).g.acts t = s.g.acts t := by
      cases ho : ev.own t with
      | false =>
        have := step_other_task E s ev ht ho
        exact ⟨this.1.trans h, this.2⟩
      | true =>
        cases ev with
        | opened t' ok =>
          obtain rfl : t' = t := by simpa [Ev.own] using ho
          simp only [Sys.step, h, and_self]
        | resume t' =>
          obtain rfl : t' = t := by simpa [Ev.own] using ho
          simp only [Sys.step, h, and_self]
        | cancel t' =>
          obtain rfl : t' = t := by simpa [Ev.own] using ho
          simp only [Sys.step, h, and_self]
        | _ => cases ho
    have := done_forever E es key.1
    exact ⟨this.1, this.2.trans key.2⟩

theorem after_call_cons (E : Env) (clientId maxRetries : Int) (es : List Ev) (a : Call) (es2 : List Ev) :
    after E clientId maxRetries (es ++ .call a :: es2) = (after E clientId maxRetries (es ++ [.call a])).run E es2 := by
  simp only [after, ← sys_run_append]
  simp

theorem fresh_acts (E : Env) (clientId maxRetries : Int) (es : List Ev) :
    (after E clientId maxRetries es).g.acts (callTask E clientId maxRetries es) = [] :=
  ((SysOk.init E False clientId maxRetries).run es (fun u => u.elim)).log.fresh

/-- A refused call never does anything. -/
theorem refused_forever {e : PyErr} (h : Refuses E clientId maxRetries es a e) (es2 : List Ev) :
    actsOf E clientId maxRetries es a es2 = [] ∧ resultOf E clientId maxRetries es a es2 = some (.error e) := by
  rw [Refuses] at h
  have hd : (after E clientId maxRetries (es ++ [.call a])).tasks[callTask E clientId maxRetries es]? = some (.done (.error e)) := by
    rw [h]
    simp [callTask]
  have := done_forever E es2 hd
  rw [← after_call_cons] at this
  refine ⟨?_, ?_⟩
  · rw [actsOf, this.2, h]
    exact fresh_acts E clientId maxRetries es
  · simp only [resultOf, Sys.result, this.1]

/-- What a setter does, over every history. -/
theorem setter_run (hf : setterPlan E a = some f) {code : Int} {payload : Except PyErr Bytes}
    (hp : f (after E clientId maxRetries es).g.data = .ok (code, payload)) (es2 : List Ev) :
    Sent [] code payload 2 (actsOf E clientId maxRetries es a es2) ∧
    ∀ r, resultOf E clientId maxRetries es a es2 = some (.ok r) →
      r = .none ∧ ∃ data, payload = .ok data ∧ EndsWith (actsOf E clientId maxRetries es a es2) code data (some []) := by
  have h := call_run (E := E) (clientId := clientId) (maxRetries := maxRetries) (U := False) (X := noX) (I := Sent [] code payload 2)
    (hc_sent (fun _ h => h))
    (Q := fun h o => ∀ r, o = .ok r → r = .none ∧ ∃ data, payload = .ok data ∧ EndsWith h code data (some [])) es a es2
    (fun u => u.elim) (fun _ _ _ _ _ _ _ => trivial) trivial ((Sent.zero rfl code payload).mono (by omega)) ?_
  · exact ⟨h.1, fun r hr => h.2 _ hr r rfl⟩
  · rintro g rfl s
    refine Co.wp_mono ?_ _ _ _ (wp_setter (E := E) hf (fun code' payload' h' e hs => ?_) s)
    · intro h o g' hq
      exact (hq.2.2 code payload hp).2
    · rw [hp] at e
      cases e
      exact hs

theorem ackRequest_ok (code : Int) (data : Bytes) (c : Nat) (r : Int) :
    ∃ K, ackRequest code (.ok data) c r = .request c code data r K := ⟨_, rfl⟩

/-- Valid settings are sent. -/
theorem setter_sends (hf : setterPlan E a = some f) {code : Nat} {payload : Bytes}
    (hp : f (after E clientId maxRetries es).g.data = .ok ((code : Int), .ok payload)) (hc : code < 65536) (hl : payload.length < 2 ^ 32) :
    SendsExactly E clientId maxRetries es a code payload := by
  refine ⟨fun es2 => ?_, fun es2 r hr => ?_, fun h1 h5 c x hpr hx ho => ?_⟩
  · obtain ⟨k, data, hk, hd, e, hcl⟩ := (setter_run hf hp es2).1
    refine ⟨k, hk, ?_, fun h => hcl (by omega)⟩
    rw [e]
    cases k with
    | zero => rfl
    | succ k =>
      cases hd (by omega)
      rfl
  · obtain ⟨h, data, hd, he⟩ := (setter_run hf hp es2).2 r hr
    cases hd
    exact ⟨h, he⟩
  · have hconn : (after E clientId maxRetries es).g.isConnected = true := by
      simp only [Gw.isConnected, hpr, Gw.connected, hx]
      exact ho.1
    have hs : ∃ h : Except PyErr Unit → Co Unit, ∃ k : Except PyErr Unit → Co Res,
        settle (callTask E clientId maxRetries es) (setterCo (.ok ((code : Int), .ok payload))) (after E clientId maxRetries es).g =
        settle (callTask E clientId maxRetries es) (((ackRequest code (.ok payload) c (after E clientId maxRetries es).g.maxRetries).bindE h).bindE k)
          (after E clientId maxRetries es).g := by
      obtain ⟨h, hs⟩ := settle_connected hpr hconn (ackRequest code (.ok payload)) _ (callTask E clientId maxRetries es)
      exact ⟨h, _, hs⟩
    obtain ⟨h, k, hs⟩ := hs
    have hr := (reach_retries E clientId maxRetries h1 h5 es).1
    obtain ⟨K, hK⟩ := ackRequest_ok code payload c (after E clientId maxRetries es).g.maxRetries
    rw [hK] at hs
    simp only [Co.bindE] at hs
    have hreq := settle_request (reach_worlds E clientId maxRetries es) (callTask E clientId maxRetries es) hx ho (code := code) (data := payload)
      (r := (after E clientId maxRetries es).g.maxRetries) (by omega) hc hl
    obtain ⟨x', hx', hw⟩ := (hreq (fun _ => .ret .none)).2
    refine ⟨x', ?_, hw⟩
    rw [after_call]
    simp only [Sys.step, Sys.spawn]
    rw [settle_look, setter_look E hf, ← settle_look, hp]
    have : (settle (callTask E clientId maxRetries es) (setterCo (.ok ((code : Int), .ok payload))) (after E clientId maxRetries es).g).2 =
        ((after E clientId maxRetries es).g.ask (callTask E clientId maxRetries es) c code payload (after E clientId maxRetries es).g.maxRetries).2 := by
      have h2 := hs.trans (hreq _).1
      exact congrArg Prod.snd h2
    rw [callTask] at this
    rw [this]
    exact hx'

/-- A setter whose values cannot be packed sends nothing. -/
theorem setter_nothing (hf : setterPlan E a = some f) (es2 : List Ev) (hn : userAsks (actsOf E clientId maxRetries es a es2) ≠ []) :
    ∃ code data, f (after E clientId maxRetries es).g.data = .ok (code, .ok data) ∧ ∀ x ∈ userAsks (actsOf E clientId maxRetries es a es2), x = (code, data) := by
  cases hp : f (after E clientId maxRetries es).g.data with
  | error e => rw [(refused_forever (setter_refuses hf hp) es2).1] at hn; exact absurd rfl hn
  | ok p =>
    obtain ⟨code, payload⟩ := p
    obtain ⟨k, data, hk, hd, e, hcl⟩ := (setter_run hf hp es2).1
    cases k with
    | zero => rw [e] at hn; exact absurd rfl hn
    | succ k =>
      cases hd (by omega)
      refine ⟨code, data, rfl, fun x hx => ?_⟩
      rw [e] at hx
      exact (List.mem_replicate.1 hx).2

end

end SL
