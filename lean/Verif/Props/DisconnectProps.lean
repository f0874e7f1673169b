import Verif.Lemmas.Over
import Verif.Lemmas.Sample
import Verif.Lemmas.Calls
import Verif.Lemmas.Wired
import Verif.Lemmas.Subs
/-!
# C88: a disconnection that has returned is over
-/
set_option linter.unusedVariables false

namespace SL

open Co (state modify closeConn)

section
variable (E : Env) (clientId maxRetries : Int)

/-- **C88** When a call has returned or raised (anything but `CancelledError`), every connection it closed (with `async_disconnect`, or on its
own before reconnecting) is down: the loss of the connection was reported, and the gateway does not show it as connected. -/
theorem C88_over (es : List Ev) {t c : Nat} {force : Bool} {r : Except PyErr Res} (hr : (after E clientId maxRetries es).result t = some r)
    (hn : r ≠ .error .cancelled) (hc : (t, Act.cls c force) ∈ (after E clientId maxRetries es).g.log) :
    ∃ x, (after E clientId maxRetries es).g.conns[c]? = some x ∧ x.w.p.connected = false := by
  have hm : Act.cls c force ∈ (after E clientId maxRetries es).g.acts t := by
    simp only [Gw.acts, List.mem_map, List.mem_filter]
    exact ⟨_, ⟨hc, by simp⟩, rfl⟩
  rcases (after_shut E clientId maxRetries es).tasks t with h | ⟨c', f, h0, -, -, -, ⟨i, k, hk⟩ | hk⟩
  · exact (h c force hm).2
  · simp only [Sys.result, hk] at hr
    cases hr
  · simp only [Sys.result, hk] at hr
    cases hr
    exact absurd rfl hn

/-- **C88** A call that closes a connection does nothing more (in particular, does not open the next one) before that connection is down. -/
theorem C88_before_next (es : List Ev) {t c : Nat} {force : Bool} {h0 h1 : List Act} {a : Act}
    (h : (after E clientId maxRetries es).g.acts t = h0 ++ .cls c force :: a :: h1) :
    ∃ x, (after E clientId maxRetries es).g.conns[c]? = some x ∧ x.w.p.connected = false := by
  rcases (after_shut E clientId maxRetries es).tasks t with hd | ⟨c', f, hx, e, hd, -, -⟩
  · exact (hd c force (by rw [h]; simp)).2
  · rw [h] at e
    have hp : h0 ++ [.cls c force] <+: hx := by
      have h2 : h0 ++ [.cls c force] <+: hx ++ [.cls c' f] := ⟨a :: h1, by rw [← e]; simp⟩
      rcases List.prefix_concat_iff.1 h2 with h3 | h3
      · have := congrArg List.length e
        have h4 := congrArg List.length h3
        simp only [List.length_append, List.length_cons, List.length_nil] at this h4
        omega
      · exact h3
    exact (hd c force (hp.subset (by simp))).2

theorem wp_disconnectLast {U : Prop} {X : List Act → Val → Prop} [XC E X] {I H : List Act → Prop} {t : Nat} {L N : Prop} (hc : HC I H) (force : Bool)
    {h : List Act} {g : Gw} (s : St U X t L N h g) (hh : H h) :
    (asyncDisconnect force).wp (mon E U X I) t (fun h' o g' => o = .ok () → ∃ c h0, h' = h0 ++ [.cls c force] ∧ H h') h g := by
  simp only [asyncDisconnect, wp_state]
  refine Co.wp_bind' _ _ _ _ (Co.wp_mono (Q := fun h' _ g' => St U X t L N h' g' ∧ H h') ?_ _ _ _ ?_)
  · intro h r g hq
    cases r with
    | error e => intro ho; cases ho
    | ok a =>
      simp only [Co.seqPost, wp_state]
      split
      · rename_i c hpc
        have h1 := hc.conn _ (.cls c force) hq.2 trivial
        exact wp_close hpc (hc.I _ h1) (fun g' o hr _ => ⟨c, h, rfl, h1⟩)
      · intro ho; cases ho
  · simp only [whenCo]
    split
    · exact wp_unsubscribeGateway hc s hh
    · exact ⟨s, hh⟩

/-- **C88** `async_disconnect` that returns has, as its last action, closed one connection with the given flag; that connection is down, the
gateway shows no connection unless another one was made in the meantime, and apart from unregistering as a client the call sent nothing. -/
theorem C88_returns (es : List Ev) (force : Bool) (es2 : List Ev) {r : Res}
    (hr : resultOf E clientId maxRetries es (.disconnect force) es2 = some (.ok r)) :
    r = .none ∧ ∃ c h0 x, actsOf E clientId maxRetries es (.disconnect force) es2 = h0 ++ [.cls c force] ∧
      userAsks (actsOf E clientId maxRetries es (.disconnect force) es2) = [] ∧
      (after E clientId maxRetries (es ++ .call (.disconnect force) :: es2)).g.conns[c]? = some x ∧ x.w.p.connected = false ∧
      ((after E clientId maxRetries (es ++ .call (.disconnect force) :: es2)).g.protocol = some c →
        (after E clientId maxRetries (es ++ .call (.disconnect force) :: es2)).g.isConnected = false) := by
  have h := call_run (E := E) (clientId := clientId) (maxRetries := maxRetries) (U := False) (X := noX) (I := fun h => userAsks h = [])
    (hc_asks (P := fun l => l = []) (fun _ h => h)) (Q := fun h o => ∀ r, o = .ok r → r = .none ∧ ∃ c h0, h = h0 ++ [.cls c force] ∧ userAsks h = [])
    es (.disconnect force) es2 (fun u => u.elim) (fun _ _ _ _ _ _ _ => trivial) trivial rfl ?_
  · obtain ⟨hn, c, h0, e, hu⟩ := h.2 _ hr r rfl
    have hm : (callTask E clientId maxRetries es, Act.cls c force) ∈
        (after E clientId maxRetries (es ++ .call (.disconnect force) :: es2)).g.log := by
      have : Act.cls c force ∈ actsOf E clientId maxRetries es (.disconnect force) es2 := by
        show _ ∈ Gw.acts _ _
        rw [callTask, e]; simp
      simp only [actsOf, Gw.acts, List.mem_map, List.mem_filter, beq_iff_eq] at this
      obtain ⟨⟨t', a'⟩, ⟨h1, h2⟩, h3⟩ := this
      simp only at h2 h3
      rw [← h2, ← h3]; exact h1
    obtain ⟨x, hx, hd⟩ := C88_over E clientId maxRetries _ hr (by simp) hm
    refine ⟨hn, c, h0, x, e, hu, hx, hd, fun hp => ?_⟩
    simp only [Gw.isConnected, hp, Gw.connected, hx, hd]
  · rintro g rfl s
    refine Co.wp_bind' _ _ _ _ (Co.wp_mono ?_ _ _ _ (wp_disconnectLast (E := E) (hc_asks (P := fun l => l = []) (fun _ h => h)) force s rfl))
    intro h' o g' hq
    cases o with
    | error e => intro r hr; cases hr
    | ok b =>
      intro r hr
      obtain ⟨c, h0, e, hu⟩ := hq rfl
      cases hr
      exact ⟨rfl, c, h0, e, hu⟩

theorem after_grows (es es2 : List Ev) : Grows (after E clientId maxRetries es).g (after E clientId maxRetries (es ++ es2)).g := by
  refine snoc_ind (P := fun l => Grows (after E clientId maxRetries es).g (after E clientId maxRetries (es ++ l)).g) ?_ ?_ es2
  · rw [List.append_nil]; exact .refl _
  · intro l ev ih
    show Grows _ (after E clientId maxRetries (es ++ (l ++ [ev]))).g
    rw [← List.append_assoc, after_snoc]
    exact ih.trans (star_grows (step_micro ((SysOk.init E False clientId maxRetries).run _ (fun u => u.elim)) ev (fun u => u.elim)))

/-- **C88** Nothing is written any more on a connection that is down, and it stays down. -/
theorem C88_silent (es es2 : List Ev) {c : Nat} {x : Conn} (hx : (after E clientId maxRetries es).g.conns[c]? = some x)
    (hd : x.w.p.connected = false) :
    ∃ x', (after E clientId maxRetries (es ++ es2)).g.conns[c]? = some x' ∧ x'.w.p.connected = false ∧ x'.w.p.written = x.w.p.written := by
  obtain ⟨y, es, hy, e, -⟩ := (after_grows E clientId maxRetries es es2).keep c x hx
  have hl := run_later x.w es
  refine ⟨y, hy, by rw [e]; exact hl.disconnected hd, ?_⟩
  rw [e]
  exact hl.quiet (.inr (((after_shut E clientId maxRetries _).conns c x hx).down hd))

theorem step_disconnect (s : Sys) (force : Bool) {c : Nat} (hp : s.g.protocol = some c) (hn : s.g.isClientNow = false) :
    (s.step E (.call (.disconnect force))).g = (s.g.startClose s.tasks.length c force).2 := by
  simp only [Sys.step, Sys.spawn, Call.co, asyncDisconnect, state]
  simp only [bind, Co.bind, Co.bindE, settle, hn, whenCo, hp, closeConn, if_neg Bool.false_ne_true]
  split
  · cases Gw.closeResult (s.g.startClose s.tasks.length c force).2 c (s.g.startClose s.tasks.length c force).1 <;> rfl
  · rfl

/-- Beginning to close writes nothing. -/
theorem close_silent (w : World) (force : Bool) : (w.step (.close force)).p.written = w.p.written ∧ (w.step (.close force)).p.closing = true := by
  have key : ∀ p : Proto, (if force then p.cancelAll else p).written = p.written ∧ (if force then p.cancelAll else p).closing = p.closing := by
    intro p
    cases force with
    | false => exact ⟨rfl, rfl⟩
    | true =>
      have := (cancelAll_spec p).1
      exact ⟨by rw [if_pos rfl, this], by rw [if_pos rfl, this]⟩
  simp only [World.step]
  split
  · simp only [World.closeTail]
    exact ⟨(key _).1, (key _).2⟩
  · exact ⟨(key _).1, (key _).2⟩

/-- **C88** Disconnecting a gateway that is not registered as a client begins to close its connection at once: nothing more is written on it,
whatever happens then. -/
theorem C88_at_once (es es2 : List Ev) (force : Bool) {c : Nat} (hp : (after E clientId maxRetries es).g.protocol = some c)
    (hn : (after E clientId maxRetries es).g.isClientNow = false) :
    ∃ x x' : Conn, (after E clientId maxRetries es).g.conns[c]? = some x ∧
      (after E clientId maxRetries (es ++ .call (.disconnect force) :: es2)).g.conns[c]? = some x' ∧ x'.w.p.written = x.w.p.written := by
  have hs := (SysOk.init E False clientId maxRetries).run es (fun u => u.elim)
  have hlt := hs.inv.proto c hp
  obtain ⟨x, hx⟩ : ∃ x, (after E clientId maxRetries es).g.conns[c]? = some x := ⟨_, List.getElem?_eq_getElem hlt⟩
  have e := step_disconnect E (after E clientId maxRetries es) force hp hn
  rw [← after_call] at e
  obtain ⟨i, hi⟩ : ∃ i, (after E clientId maxRetries (es ++ [.call (.disconnect force)])).g.conns[c]? =
      some { x with w := (x.w.step (.close force)).step (.closeFinish i) } := by
    rw [e]
    simp only [Gw.startClose, Gw.note, Gw.net, List.getElem?_modify, hx]
    exact ⟨x.w.closers.length, by simp⟩
  obtain ⟨y, es', hy, e', -⟩ := (after_grows E clientId maxRetries (es ++ [.call (.disconnect force)]) es2).keep c _ hi
  rw [List.append_assoc] at hy
  refine ⟨x, y, hx, hy, ?_⟩
  rw [e']
  obtain ⟨h1, h2⟩ := close_silent x.w force
  have hl := step_later (x.w.step (.close force)) (.closeFinish i)
  rw [(run_later _ es').quiet (.inl (hl.closing h2)), hl.quiet (.inl h2), h1]

/-- **C88** A gateway that was never connected cannot be disconnected: AttributeError. -/
theorem C88_never (es : List Ev) (force : Bool) (hp : (after E clientId maxRetries es).g.protocol = none)
    (hn : (after E clientId maxRetries es).g.isClientNow = false) :
    Refuses E clientId maxRetries es (.disconnect force) .attributeError := by
  rw [Refuses, after_call]
  simp only [Sys.step, Sys.spawn, Call.co, asyncDisconnect, state]
  simp only [bind, Co.bind, Co.bindE, settle, hn, whenCo, hp, if_neg Bool.false_ne_true]

end

/-- Somebody connects and disconnects; the adapter hangs up. -/
def goodbyeEvs : List Ev := [.net 0 .lost, .net 0 (.closeFinish 0), .resume 1]

/-- The hypotheses of C88 are met: a connected gateway is disconnected; the call is still waiting while the connection is up, and returns when
it is down. -/
theorem C88_witness :
    (after sampleEnv 1 1 connectEvs).g.protocol = some 0 ∧ (after sampleEnv 1 1 connectEvs).g.isClientNow = false ∧
    (after sampleEnv 1 1 connectEvs).g.isConnected = true ∧
    resultOf sampleEnv 1 1 connectEvs (.disconnect false) [.resume 1] = none ∧
    resultOf sampleEnv 1 1 connectEvs (.disconnect false) goodbyeEvs = some (.ok .none) ∧
    actsOf sampleEnv 1 1 connectEvs (.disconnect false) goodbyeEvs = [.cls 0 false] := by
  decide +kernel

end SL
