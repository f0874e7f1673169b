import Verif.Lemmas.Handlers
import Verif.Lemmas.Sample
/-!
# C100: the user's own message handlers
-/
set_option linter.unusedVariables false

namespace SL
open Spec

section
variable (E : Env) (clientId maxRetries : Int)

/-- **C100** The calls of the user's handlers are exactly those of the handler tasks that have run, each once, and for each connection in the order in which
the messages came. -/
theorem C100_calls (es : List Ev) :
    (after E clientId maxRetries es).g.userCalls.Perm ((after E clientId maxRetries es).g.conns.flatMap Conn.userCalls) ∧
    ∀ (c : Nat) (x : Conn), (after E clientId maxRetries es).g.conns[c]? = some x → x.userCalls.Sublist (after E clientId maxRetries es).g.userCalls :=
  ⟨(reach_handlers E clientId maxRetries es).calls, (reach_handlers E clientId maxRetries es).order⟩

/-- **C100** A handler of the user is only called with the payload of a message that was received, on a connection on which it had been registered for the
code of that message. -/
theorem C100_origin (es : List Ev) (h : Nat) (msg : Bytes) (hm : (h, msg) ∈ (after E clientId maxRetries es).g.userCalls) :
    ∃ (c code : Nat) (x : Conn) (id : Int), (after E clientId maxRetries es).g.conns[c]? = some x ∧ (⟨id, (code : Int), msg⟩ : Msg) ∈ x.w.p.recv ∧
      RegisteredAt E clientId maxRetries es c code h := by
  have hi := reach_handlers E clientId maxRetries es
  have := hi.calls.mem_iff.1 hm
  obtain ⟨x, hx, hu⟩ := List.mem_flatMap.1 this
  obtain ⟨c, hc⟩ := List.mem_iff_getElem?.1 hx
  obtain ⟨⟨k, m⟩, hk, he⟩ := List.mem_filterMap.1 hu
  simp only [userCall] at he
  split at he
  · rename_i hodd
    simp only [Option.some.injEq, Prod.mk.injEq] at he
    obtain ⟨rfl, rfl⟩ := he
    obtain ⟨id, code, hK, hr⟩ := (hi.sourced c x hc).spawned k m (List.mem_of_mem_take hk)
    obtain ⟨code', rfl, hR⟩ := hK hodd
    exact ⟨c, code', x, id, hc, hr, hR⟩
  · cases he

end

section
variable {E : Env} {clientId maxRetries : Int} {es : List Ev}

theorem conn_net {g : Gw} {c : Nat} {x : Conn} (hx : g.conns[c]? = some x) (e : Event) : (g.net c e).conns[c]? = some { x with w := x.w.step e } := by
  simp only [Gw.net, List.getElem?_modify_eq, hx]
  rfl

/-- Running the next handler task. -/
theorem handle_next (E : Env) {s : Sys} {c : Nat} {x : Conn} (hx : s.g.conns[c]? = some x) {k : Nat × Bytes} {rest : List (Nat × Bytes)}
    (hb : x.backlog = k :: rest) : (s.step E (.handle c)).g.userCalls = s.g.userCalls ++ (userCall k).toList ∧
      ∃ x', (s.step E (.handle c)).g.conns[c]? = some x' ∧ x'.w = x.w ∧ x'.backlog = rest := by
  obtain ⟨h1, h2⟩ := runHandler_eq E s.g c
  have hl : x.handled < x.w.p.spawned.length := by
    have := congrArg List.length hb
    simp [Conn.backlog] at this
    omega
  have hk : x.w.p.spawned[x.handled]? = some k := by
    have := congrArg List.head? hb
    simpa [Conn.backlog, List.head?_drop] using this
  refine ⟨?_, { x with handled := x.handled + 1 }, ?_, rfl, ?_⟩
  · show (s.g.runHandler E c).userCalls = _
    rw [h1, hx]
    simp only [Option.bind_some, hk]
  · show (s.g.runHandler E c).conns[c]? = _
    rw [h2, List.getElem?_modify_eq, hx]
    exact congrArg some (if_pos hl)
  · have := congrArg List.tail hb
    simpa [Conn.backlog, List.tail_drop] using this

theorem handle_all (E : Env) : ∀ (l : List (Nat × Bytes)) {s : Sys} {c : Nat} {x : Conn}, s.g.conns[c]? = some x → x.backlog = l →
    (s.run E (List.replicate l.length (.handle c))).g.userCalls = s.g.userCalls ++ l.filterMap userCall
  | [], s, c, x, hx, hb => by simp [Sys.run]
  | k :: l, s, c, x, hx, hb => by
    obtain ⟨h1, x', hx', -, hb'⟩ := handle_next E hx hb
    have := handle_all E l hx' hb'
    simp only [List.length_cons, List.replicate_succ]
    show ((s.step E (.handle c)).run E _).g.userCalls = _
    rw [this, h1, List.filterMap_cons, List.append_assoc]
    cases userCall k <;> rfl

/-- What a message for nobody's request becomes. -/
theorem unsolicited_next {w : World} (hw : ∃ es, w = World.init.run es) {id code : Nat} {payload : Bytes} (hopen : w.p.closing = false) (hbuf : w.p.buff = [])
    (hid : ∀ f : Nat, w.p.futs[f]? = some .pending → f % 32767 ≠ id) (h1 : id < 65536) (h2 : code < 65536) (h3 : payload.length < 2 ^ 32) :
    (w.step (.data (frame id code payload))).p.spawned = w.p.spawned ++ (match aget (code : Int) w.p.cbs with | some h => [(h, payload)] | none => []) := by
  obtain ⟨wes, rfl⟩ := hw
  have := (C15_unsolicited wes id code payload hopen hbuf hid h1 h2 h3).2
  rw [← lastHandler_spec] at this
  rw [show (World.init.run wes).step (.data (frame id code payload)) = World.init.run (wes ++ [.data (frame id code payload)]) by
    simp [World.run, List.foldl_append], this]
  cases aget (code : Int) (World.init.run wes).p.cbs <;> rfl

/-- **C100** Whoever has registered a handler last for a code on the gateway's connection gets the next message with that code, once, with its payload:
when the handler tasks created until then have run, those before it in their order. -/
theorem C100_delivered {c id code h : Nat} {x : Conn} {payload : Bytes} (hp : (after E clientId maxRetries es).g.protocol = some c)
    (hx : (after E clientId maxRetries es).g.conns[c]? = some x) (hopen : x.w.p.closing = false) (hbuf : x.w.p.buff = [])
    (hid : ∀ f : Nat, x.w.p.futs[f]? = some .pending → f % 32767 ≠ id) (h1 : id < 65536) (h2 : code < 65536) (h3 : payload.length < 2 ^ 32) :
    let s' := after E clientId maxRetries (es ++ [.registerHandler code h, .net c (.data (frame id code payload))])
    s'.g.userCalls = (after E clientId maxRetries es).g.userCalls ∧ s'.g.data = (after E clientId maxRetries es).g.data ∧
    (s'.run E (List.replicate (x.backlog.length + 1) (.handle c))).g.userCalls =
      (after E clientId maxRetries es).g.userCalls ++ x.backlog.filterMap userCall ++ [(h, payload)] := by
  intro s'
  have hs' : s' = ((after E clientId maxRetries es).step E (.registerHandler code h)).step E (.net c (.data (frame id code payload))) := by
    simp only [s', after, sys_run_append]
    rfl
  have e1 : ((after E clientId maxRetries es).step E (.registerHandler code h)) =
      { after E clientId maxRetries es with g := (after E clientId maxRetries es).g.net c (.register code (userHandler h)) } := by
    simp only [Sys.step, hp]
  have hw : ∃ wes, x.w.step (.register code (userHandler h)) = World.init.run wes := by
    obtain ⟨wes, e⟩ := reach_worlds E clientId maxRetries es x (List.mem_of_getElem? hx)
    exact ⟨wes ++ [.register code (userHandler h)], by rw [e]; simp [World.run, List.foldl_append]⟩
  have hx1 := conn_net hx (.register code (userHandler h))
  have hx2 := conn_net hx1 (.data (frame id code payload))
  have hsp := unsolicited_next hw (id := id) (code := code) (payload := payload) (by exact hopen) (by exact hbuf) (by exact hid) h1 h2 h3
  have hcb : aget (code : Int) (x.w.step (.register code (userHandler h))).p.cbs = some (userHandler h) := by
    simp only [World.step, Proto.register, aget_aset, if_pos]
  rw [hcb] at hsp
  have hx' : s'.g.conns[c]? = some { x with w := (x.w.step (.register code (userHandler h))).step (.data (frame id code payload)) } := by
    rw [hs', e1]; exact hx2
  have hu' : s'.g.userCalls = (after E clientId maxRetries es).g.userCalls := by rw [hs', e1]; rfl
  refine ⟨hu', by rw [hs', e1]; rfl, ?_⟩
  have hle := (reach_handlers E clientId maxRetries es).le c x hx
  have hb : ({ x with w := (x.w.step (.register code (userHandler h))).step (.data (frame id code payload)) } : Conn).backlog =
      x.backlog ++ [(userHandler h, payload)] := by
    simp only [Conn.backlog, hsp]
    show List.drop x.handled (x.w.p.spawned ++ _) = _
    rw [List.drop_append_of_le_length hle]
  have := handle_all E _ hx' hb
  rw [List.length_append, List.length_singleton] at this
  rw [this, hu', List.filterMap_append, List.append_assoc]
  simp [userCall, userHandler]
  omega

/-- **C100** ... and nobody else gets it: the data are not updated from it, and no listener subscribed to the code is called, even if the code was subscribed
to. -/
theorem C100_replaces {c id code h : Nat} {x : Conn} {payload : Bytes} (hp : (after E clientId maxRetries es).g.protocol = some c)
    (hx : (after E clientId maxRetries es).g.conns[c]? = some x) (hopen : x.w.p.closing = false) (hbuf : x.w.p.buff = []) (hb : x.backlog = [])
    (hid : ∀ f : Nat, x.w.p.futs[f]? = some .pending → f % 32767 ≠ id) (h1 : id < 65536) (h2 : code < 65536) (h3 : payload.length < 2 ^ 32) :
    let s' := after E clientId maxRetries (es ++ [.registerHandler code h, .net c (.data (frame id code payload)), .handle c])
    s'.g.userCalls = (after E clientId maxRetries es).g.userCalls ++ [(h, payload)] ∧ s'.g.data = (after E clientId maxRetries es).g.data ∧
      s'.g.notes = (after E clientId maxRetries es).g.notes := by
  intro s'
  have hs' : s' = (((after E clientId maxRetries es).step E (.registerHandler code h)).step E (.net c (.data (frame id code payload)))).step E (.handle c) := by
    simp only [s', after, sys_run_append]
    rfl
  have e1 : ((after E clientId maxRetries es).step E (.registerHandler code h)) =
      { after E clientId maxRetries es with g := (after E clientId maxRetries es).g.net c (.register code (userHandler h)) } := by
    simp only [Sys.step, hp]
  have hw : ∃ wes, x.w.step (.register code (userHandler h)) = World.init.run wes := by
    obtain ⟨wes, e⟩ := reach_worlds E clientId maxRetries es x (List.mem_of_getElem? hx)
    exact ⟨wes ++ [.register code (userHandler h)], by rw [e]; simp [World.run, List.foldl_append]⟩
  have hsp := unsolicited_next hw (id := id) (code := code) (payload := payload) (by exact hopen) (by exact hbuf) (by exact hid) h1 h2 h3
  have hcb : aget (code : Int) (x.w.step (.register code (userHandler h))).p.cbs = some (userHandler h) := by
    simp only [World.step, Proto.register, aget_aset, if_pos]
  rw [hcb] at hsp
  have hx2 := conn_net (conn_net hx (.register code (userHandler h))) (.data (frame id code payload))
  have hle := (reach_handlers E clientId maxRetries es).le c x hx
  have hlen : x.w.p.spawned.length = x.handled := by
    have := congrArg List.length hb
    simp [Conn.backlog] at this
    omega
  have hnext : ((x.w.step (.register code (userHandler h))).step (.data (frame id code payload))).p.spawned[x.handled]? = some (userHandler h, payload) := by
    rw [hsp]
    show (x.w.p.spawned ++ [(userHandler h, payload)])[x.handled]? = _
    rw [← hlen, List.getElem?_concat_length]
  have hodd : userHandler h % 2 ≠ 0 := by simp only [userHandler]; omega
  have hdiv : userHandler h / 2 = h := by simp only [userHandler]; omega
  rw [hs', e1]
  show ((((after E clientId maxRetries es).g.net c (.register code (userHandler h))).net c (.data (frame id code payload))).runHandler E c).userCalls = _ ∧
    ((((after E clientId maxRetries es).g.net c (.register code (userHandler h))).net c (.data (frame id code payload))).runHandler E c).data = _ ∧
    ((((after E clientId maxRetries es).g.net c (.register code (userHandler h))).net c (.data (frame id code payload))).runHandler E c).notes = _
  simp only [Gw.runHandler, hx2, hnext, if_neg hodd, hdiv]
  exact ⟨rfl, rfl, rfl⟩

/-- **C100** After it has been removed, nobody gets a message with that code. -/
theorem C100_removed {c id code : Nat} {x : Conn} {payload : Bytes} (hp : (after E clientId maxRetries es).g.protocol = some c)
    (hx : (after E clientId maxRetries es).g.conns[c]? = some x) (hopen : x.w.p.closing = false) (hbuf : x.w.p.buff = [])
    (hid : ∀ f : Nat, x.w.p.futs[f]? = some .pending → f % 32767 ≠ id) (h1 : id < 65536) (h2 : code < 65536) (h3 : payload.length < 2 ^ 32) :
    ∃ x', (after E clientId maxRetries (es ++ [.removeHandler code, .net c (.data (frame id code payload))])).g.conns[c]? = some x' ∧
      x'.backlog = x.backlog ∧ x'.handled = x.handled := by
  have hs' : after E clientId maxRetries (es ++ [.removeHandler code, .net c (.data (frame id code payload))]) =
      ((after E clientId maxRetries es).step E (.removeHandler code)).step E (.net c (.data (frame id code payload))) := by
    simp only [after, sys_run_append]
    rfl
  have e1 : ((after E clientId maxRetries es).step E (.removeHandler code)) =
      { after E clientId maxRetries es with g := (after E clientId maxRetries es).g.net c (.unregister code) } := by
    simp only [Sys.step, hp]
  have hw : ∃ wes, x.w.step (.unregister code) = World.init.run wes := by
    obtain ⟨wes, e⟩ := reach_worlds E clientId maxRetries es x (List.mem_of_getElem? hx)
    exact ⟨wes ++ [.unregister code], by rw [e]; simp [World.run, List.foldl_append]⟩
  have hx2 := conn_net (conn_net hx (.unregister code)) (.data (frame id code payload))
  have hsp := unsolicited_next hw (id := id) (code := code) (payload := payload) (by exact hopen) (by exact hbuf) (by exact hid) h1 h2 h3
  have hcb : aget (code : Int) (x.w.step (.unregister code)).p.cbs = none := by
    simp only [World.step, Proto.unregister, aget_adel, if_pos]
  rw [hcb, List.append_nil] at hsp
  refine ⟨{ x with w := (x.w.step (.unregister code)).step (.data (frame id code payload)) }, by rw [hs', e1]; exact hx2, ?_, rfl⟩
  simp only [Conn.backlog, hsp]
  rfl

end

/-- Without a connection nothing is registered (the call raises). -/
theorem C100_unconnected (E : Env) (s : Sys) (h : s.g.protocol = none) (code k : Nat) : s.step E (.registerHandler code k) = s := by
  simp only [Sys.step, h]

/-- A history that meets the hypotheses of `C100_delivered` and `C100_removed`, and one where a handler has been called: connected, handler 9 registered for
code 12500, overridden by handler 3, and a message with that code. -/
theorem C100_witness : ∃ x, (after sampleEnv 0 5 connectEvs).g.protocol = some 0 ∧ (after sampleEnv 0 5 connectEvs).g.conns[0]? = some x ∧
    x.w.p.closing = false ∧ x.w.p.buff = [] ∧ (∀ f : Nat, x.w.p.futs[f]? = some .pending → f % 32767 ≠ 60000) ∧
    (after sampleEnv 0 5 (connectEvs ++ [.registerHandler 12500 9, .registerHandler 12500 3, .net 0 (.data (frame 60000 12500 [1, 2])), .handle 0])).g.userCalls =
      [(3, [1, 2])] := by
  have h1 : (after sampleEnv 0 5 connectEvs).g.protocol = some 0 := by decide +kernel
  have h2 : ((after sampleEnv 0 5 connectEvs).g.conns[0]?).map (fun x => (x.w.p.closing, x.w.p.buff.length)) = some (false, 0) := by decide +kernel
  have h3 : (after sampleEnv 0 5 (connectEvs ++ [.registerHandler 12500 9, .registerHandler 12500 3, .net 0 (.data (frame 60000 12500 [1, 2])),
      .handle 0])).g.userCalls = [(3, [1, 2])] := by decide +kernel
  obtain ⟨x, hx, hy⟩ := Option.map_eq_some_iff.1 h2
  simp only [Prod.mk.injEq] at hy
  exact ⟨x, h1, hx, hy.1, List.length_eq_zero_iff.1 hy.2, fun f _ => by omega, h3⟩

end SL
