import Verif.Spec.Single
import Verif.Lemmas.Shy
import Verif.Props.ClosedProps
import Verif.Props.ConnectProps
import Verif.Lemmas.Sample
/-!
# C106: one connection at a time
-/
set_option linter.unusedVariables false
namespace SL

/-- Every task that is connecting has asked for a connection, and the gateway is not connected. -/
structure Sys.Links (s : Sys) (owns : Nat → Own) : Prop where
  shy : s.Shy owns
  asked : ∀ t, s.Linking owns t → ∃ h p, (t, Act.opn h p) ∈ s.g.log
  down : ∀ t, s.Linking owns t → s.g.isConnected = false

theorem Sys.Linking.connects {s : Sys} {owns : Nat → Own} {t : Nat} (h : s.Linking owns t) (ha : ∃ h p, (t, Act.opn h p) ∈ s.g.log) : s.Connects t := by
  obtain ⟨x, hx, hd, -⟩ := h
  refine ⟨(List.getElem?_eq_some_iff.1 hx).1, ?_, ?_⟩
  · rw [Sys.result, hx]
    cases x with
    | done r => exact absurd rfl (hd r)
    | _ => rfl
  · obtain ⟨a, p, hm⟩ := ha
    refine ⟨a, p, ?_⟩
    rw [Gw.acts, List.mem_map]
    exact ⟨(t, .opn a p), by simp [hm], rfl⟩

/-- Induction from the end. -/
theorem snoc_induction {α : Type} {P : List α → Prop} (nil : P []) (snoc : ∀ l a, P l → P (l ++ [a])) (l : List α) : P l := by
  rw [← l.reverse_reverse]
  induction l.reverse with
  | nil => exact nil
  | cons a l ih => rw [List.reverse_cons]; exact snoc _ a ih

section
variable (E : Env) (clientId maxRetries : Int)

theorem len_run {s : Sys} (hs : SysOk E False s) {c : Nat} (es : List Ev) (hd : c < s.g.conns.length) : c < (s.run E es).g.conns.length := by
  induction es generalizing s with
  | nil => exact hd
  | cons ev es ih =>
    refine ih (hs.step ev (fun u => u.elim)) ?_
    exact (step_micro hs ev (fun u => u.elim)).inv (I := fun g => c < g.conns.length) (fun a b ha hb => Nat.lt_of_lt_of_le ha (micro_len hb)) hd

theorem ConnectsAlone.start {es es2 : List Ev} (h : ConnectsAlone E clientId maxRetries (es ++ es2)) : ConnectsAlone E clientId maxRetries es := by
  rintro a b rfl
  exact h a (b ++ es2) (by simp)

theorem dead_step (es : List Ev) (ev : Ev) {c : Nat} (hd : (after E clientId maxRetries es).g.dead c) : (after E clientId maxRetries (es ++ [ev])).g.dead c := by
  rw [after, sys_run_append]
  exact dead_run E ((SysOk.init E False clientId maxRetries).run es (fun u => u.elim)) [ev] hd

/-- A gateway that is not connected and keeps its connection stays so. -/
theorem down_step (es : List Ev) (ev : Ev) (h : (after E clientId maxRetries es).g.isConnected = false)
    (hp : (after E clientId maxRetries (es ++ [ev])).g.protocol = (after E clientId maxRetries es).g.protocol) :
    (after E clientId maxRetries (es ++ [ev])).g.isConnected = false := by
  obtain ⟨owns, hs⟩ := reach_shy E clientId maxRetries es
  simp only [Gw.isConnected] at h ⊢
  rw [hp]
  cases hc : (after E clientId maxRetries es).g.protocol with
  | none => rfl
  | some c =>
    rw [hc] at h
    exact (dead_step E clientId maxRetries es ev ⟨(hs.ok.use c (.inl hc)).1, h⟩).2

theorem links_step (es : List Ev) (ev : Ev) (hal : ConnectsAlone E clientId maxRetries es) {owns : Nat → Own} (h : (after E clientId maxRetries es).Links owns) :
    (∃ owns', (after E clientId maxRetries (es ++ [ev])).Links owns') ∧
    ((after E clientId maxRetries (es ++ [ev])).g.protocol = (after E clientId maxRetries es).g.protocol ∨
      (after E clientId maxRetries es).g.isConnected = false) := by
  have hst := step_shy E h.shy ev
  rw [← after_snoc] at hst
  obtain ⟨owns', hs', l, hl, hB, hA⟩ := hst.ok
  obtain ⟨l2, hl2, hn⟩ := hst.opn
  have : l2 = l := List.append_cancel_left (hl2.symm.trans hl)
  subst this
  refine ⟨⟨owns', hs', ?_, ?_⟩, ?_⟩
  · intro t ht
    rw [hl]
    rcases hB t ht with h1 | ⟨a, p, h1⟩
    · obtain ⟨a, p, h2⟩ := h.asked t h1
      exact ⟨a, p, List.mem_append_left _ h2⟩
    · exact ⟨a, p, List.mem_append_right _ h1⟩
  · intro t ht
    rcases hB t ht with h1 | ⟨a, p, h1⟩
    · rcases hA with hp | ⟨t0, h0, h0'⟩
      · exact down_step E clientId maxRetries es ev (h.down t h1) hp
      · have e : t0 = t := hal es [] (by simp) t0 t (h0.connects (h.asked t0 h0)) (h1.connects (h.asked t h1))
        subst e
        obtain ⟨a, p, hm⟩ := h0' ht
        exact hn ⟨t0, a, p, hm⟩
    · exact hn ⟨t, a, p, h1⟩
  · rcases hA with hp | ⟨t0, h0, -⟩
    · exact .inl hp
    · exact .inr (h.down t0 h0)

theorem links_after (es : List Ev) (hal : ConnectsAlone E clientId maxRetries es) : ∃ owns, (after E clientId maxRetries es).Links owns := by
  induction es using snoc_induction with
  | nil => exact ⟨_, shy_init clientId maxRetries, fun t ⟨x, hx, _⟩ => (by cases hx), fun t ⟨x, hx, _⟩ => (by cases hx)⟩
  | snoc es ev ih =>
    obtain ⟨owns, h⟩ := ih (hal.start E clientId maxRetries)
    exact (links_step E clientId maxRetries es ev (hal.start E clientId maxRetries) h).1

/-- **C106** (the part that holds, step by step).  If at no moment two calls are under way that have both asked for a TCP connection, then the
gateway takes another connection into use only when it is not connected. -/
theorem C106_replaced_partial (es : List Ev) (ev : Ev) (hal : ConnectsAlone E clientId maxRetries es)
    (h : (after E clientId maxRetries (es ++ [ev])).g.protocol ≠ (after E clientId maxRetries es).g.protocol) :
    (after E clientId maxRetries es).g.isConnected = false := by
  obtain ⟨owns, hL⟩ := links_after E clientId maxRetries es hal
  exact (links_step E clientId maxRetries es ev hal hL).2.resolve_left h

/-- **C106** (the part that holds).  If at no moment two calls are under way that have both asked for a TCP connection, then no connection that was
ever the gateway's is abandoned while it is up: whichever of them is up is the gateway's now.  So there is at most one. -/
theorem C106_partial (es es2 : List Ev) (hal : ConnectsAlone E clientId maxRetries (es ++ es2)) (c : Nat)
    (hc : (after E clientId maxRetries es).g.protocol = some c) (hup : (after E clientId maxRetries (es ++ es2)).g.connected c = true) :
    (after E clientId maxRetries (es ++ es2)).g.protocol = some c := by
  induction es2 using snoc_induction with
  | nil => simpa using hc
  | snoc es2 ev ih =>
    rw [← List.append_assoc] at hal hup ⊢
    have hlt : c < (after E clientId maxRetries (es ++ es2)).g.conns.length := by
      obtain ⟨owns, hs⟩ := reach_shy E clientId maxRetries es
      have h1 := (hs.ok.use c (.inl hc)).1
      rw [after, sys_run_append]
      exact len_run E ((SysOk.init E False clientId maxRetries).run es (fun u => u.elim)) es2 h1
    have hup' : (after E clientId maxRetries (es ++ es2)).g.connected c = true := by
      cases hx : (after E clientId maxRetries (es ++ es2)).g.connected c with
      | true => rfl
      | false => rw [(dead_step E clientId maxRetries _ ev ⟨hlt, hx⟩).2] at hup; cases hup
    have hc' := ih (hal.start E clientId maxRetries) hup'
    by_cases hp : (after E clientId maxRetries (es ++ es2 ++ [ev])).g.protocol = (after E clientId maxRetries (es ++ es2)).g.protocol
    · rw [hp, hc']
    · have := C106_replaced_partial E clientId maxRetries _ ev (hal.start E clientId maxRetries) hp
      simp only [Gw.isConnected, hc'] at this
      rw [hup'] at this
      cases this

end

/-- Two calls of `async_connect` at the same time. -/
def twinEvs : List Ev :=
  [.call (.connect { ip := some "10.0.0.1" }), .call (.connect { ip := some "10.0.0.1" })] ++ loginEvs 0 0 ++ configEvs 0 0 ++ loginEvs 1 1 ++ configEvs 1 1

/-- ... and then a disconnection. -/
def twinClosedEvs : List Ev := twinEvs ++ [.call (.disconnect true), .net 1 .lost, .net 1 (.closeFinish 0), .resume 2]

/-- **C106** does not hold.  Two calls of connect at the same time both return True; both TCP connections are open, and the gateway keeps the
second.  The first is never closed: after a disconnection that returned, the gateway is not connected, and the first connection is still open. -/
theorem C106_refuted :
    let s := after sampleEnv 1 1 twinEvs;
    (s.result 0 = some (.ok (.bool true)) ∧ s.result 1 = some (.ok (.bool true)) ∧ openAt s.g 0 = true ∧ openAt s.g 1 = true ∧ s.g.protocol = some 1) ∧
    let s := after sampleEnv 1 1 twinClosedEvs;
    s.result 2 = some (.ok .none) ∧ s.g.isConnected = false ∧ openAt s.g 0 = true := by
  decide +kernel

/-- The connection is lost, and two requests are made. -/
def twinLostEvs : List Ev :=
  connectEvs ++ [.net 0 .lost, .call .getStatus, .call .getStatus] ++ loginEvs 1 1 ++ configEvs 1 1 ++ loginEvs 2 2 ++ configEvs 2 2

/-- **C106** does not hold without any call of connect either: two requests made on a lost connection reconnect both, the second while the gateway is
connected again by the first, whose connection stays open. -/
theorem C106_reconnect_refuted :
    let s := after sampleEnv 1 1 twinLostEvs;
    openAt s.g 1 = true ∧ openAt s.g 2 = true ∧ s.g.protocol = some 2 := by
  decide +kernel

/-- A computable form of `Sys.Connects`. -/
def connectsB (s : Sys) (t : Nat) : Bool :=
  (s.result t == none) && (s.g.acts t).any fun a => match a with | .opn _ _ => true | _ => false

theorem connectsB_of {s : Sys} {t : Nat} (h : s.Connects t) : connectsB s t = true := by
  obtain ⟨-, hr, a, p, hm⟩ := h
  simp only [connectsB, hr, beq_self_eq_true, Bool.true_and, List.any_eq_true]
  exact ⟨_, hm, rfl⟩

/-- A computable form of `ConnectsAlone`, from a state on. -/
def aloneB (E : Env) (s : Sys) : List Ev → Bool
  | [] => ((List.range s.tasks.length).filter (connectsB s)).length ≤ 1
  | ev :: es => decide (((List.range s.tasks.length).filter (connectsB s)).length ≤ 1) && aloneB E (s.step E ev) es

theorem one_of_filter {s : Sys} (h : ((List.range s.tasks.length).filter (connectsB s)).length ≤ 1) {t t' : Nat} (ht : s.Connects t) (ht' : s.Connects t') :
    t = t' := by
  have m1 : t ∈ (List.range s.tasks.length).filter (connectsB s) := List.mem_filter.2 ⟨List.mem_range.2 ht.1, connectsB_of ht⟩
  have m2 : t' ∈ (List.range s.tasks.length).filter (connectsB s) := List.mem_filter.2 ⟨List.mem_range.2 ht'.1, connectsB_of ht'⟩
  generalize (List.range s.tasks.length).filter (connectsB s) = l at h m1 m2
  match l, h, m1, m2 with
  | [x], _, m1, m2 => rw [List.mem_singleton.1 m1, List.mem_singleton.1 m2]
  | _ :: _ :: _, h, _, _ => simp at h

theorem aloneB_sound (E : Env) {s : Sys} {es : List Ev} (h : aloneB E s es = true) (es1 es2 : List Ev) (he : es = es1 ++ es2) {t t' : Nat}
    (ht : (s.run E es1).Connects t) (ht' : (s.run E es1).Connects t') : t = t' := by
  induction es1 generalizing s es with
  | nil =>
    refine one_of_filter ?_ ht ht'
    cases es with
    | nil => simp only [aloneB, decide_eq_true_eq] at h; exact h
    | cons ev es => simp only [aloneB, Bool.and_eq_true, decide_eq_true_eq] at h; exact h.1
  | cons ev es1 ih =>
    subst he
    simp only [List.cons_append, aloneB, Bool.and_eq_true] at h
    exact ih h.2 rfl ht ht'

/-- Somebody connects; the connection is lost; of two calls made then, one reconnects, and the other is made when it has done so. -/
def singleEvs : List Ev :=
  connectEvs ++ [.net 0 .lost, .call .getStatus] ++ loginEvs 1 1 ++ configEvs 1 1 ++ [.call .getStatus]

/-- The premise of `C106_partial` is met by a history with a reconnection: the first connection is the gateway's, then the second is, alone. -/
theorem C106_partial_witness :
    ConnectsAlone sampleEnv 1 1 singleEvs ∧ (after sampleEnv 1 1 connectEvs).g.protocol = some 0 ∧
    (after sampleEnv 1 1 singleEvs).g.protocol = some 1 ∧ (after sampleEnv 1 1 singleEvs).g.connected 1 = true ∧
    (after sampleEnv 1 1 singleEvs).g.connected 0 = false := by
  have h : aloneB sampleEnv (Sys.init 1 1) singleEvs = true := by decide +kernel
  refine ⟨fun es1 es2 he t t' ht ht' => aloneB_sound sampleEnv h es1 es2 he ht ht', ?_⟩
  decide +kernel

end SL
