import Verif.Props.Stream
/-! # C12–C16, C18–C20: requests, replies, unsolicited messages, closing, keepalive -/
namespace SL
open Spec

/-! ## C12: message ids -/

/-- **C12** After any history, the bytes written for the `n`-th request of the connection are the frame
with id `n mod 32767` and the code and payload that request was made with; they are written in the order
of the requests, each at most once. -/
theorem C12_wire (es : List Event) :
    (∀ n bs, (n, bs) ∈ (World.init.run es).p.written → ∃ (code : Nat) (data : Bytes),
      (World.init.run es).p.calls[n]? = some ((code : Int), data) ∧ bs = frame (n % 32767) code data) ∧
    (World.init.run es).p.written.Pairwise (fun a b => a.1 < b.1) := by
  have h := invWritten es
  refine ⟨?_, h.order⟩
  intro n bs hm
  obtain ⟨code, data, h1, h2⟩ := h.bytes n bs hm
  generalize n % 32767 = id at h2 ⊢
  obtain ⟨-, -, h3, -, -, h4⟩ := makeMessage_ok h2
  obtain ⟨c, rfl⟩ := Int.eq_ofNat_of_zero_le h3
  exact ⟨c, data, h1, h4⟩

/-- **C12** Ids lie in the client half, and requests fewer than 32767 apart have different ids. -/
theorem C12_ids (es : List Event) (n m : Nat) (hn : n < (World.init.run es).p.futs.length)
    (hm : m < (World.init.run es).p.futs.length) :
    ∃ i j : Nat, (World.init.run es).p.ids[n]? = some i ∧ (World.init.run es).p.ids[m]? = some j ∧
      i ≤ 32766 ∧ (n < m → m < n + 32767 → i ≠ j) := by
  have h := invIds es
  refine ⟨n % 32767, m % 32767, h.ids n hn, h.ids m hm, by omega, by intros; omega⟩

/-- **C12** What a request made on an open connection does: it is written at once, as the frame carrying
its own id. -/
theorem C12_written_at_once (es : List Event) (code : Nat) (data : Bytes)
    (h1 : (World.init.run es).p.closing = false) (h2 : (World.init.run es).p.tclosing = false)
    (hc : code < 65536) (hd : data.length < 2 ^ 32) :
    let p := (World.init.run es).p
    ((p.awaitSend code data).1).written =
      p.written ++ [(p.futs.length, frame (p.futs.length % 32767) code data)] := by
  intro p
  obtain ⟨futs, written, timers, kaStop, e, -, hw, -⟩ := awaitSend_spec p code data
  have hn : p.nextId = p.futs.length % 32767 := (invIds es).nextId
  have hmk : makeMessage p.nextId code data = .ok (frame (p.futs.length % 32767) code data) := by
    rw [C01_make_message, if_pos ⟨by omega, by omega, by omega, by omega, hd⟩, hn, Int.toNat_natCast,
      Int.toNat_natCast]
  rw [e]
  rcases hw with ⟨-, h | h | ⟨er, h⟩⟩ | ⟨bs, -, -, hm, hw⟩
  · rw [h1] at h; simp at h
  · rw [h2] at h; simp at h
  · rw [hmk] at h; simp at h
  · rw [hmk] at hm; simp only [Except.ok.injEq] at hm; subst hm; exact hw

/-! ## C13: replies reach the request they answer -/

/-- **C13** An answer carries the id its request was sent with and was received after the request was
issued (`issuedAt` counts the messages received before it). -/
theorem C13_reply_matches (es : List Event) (f : Nat) (m : Msg)
    (h : (World.init.run es).p.futs[f]? = some (.result m)) :
    m.id = ((f % 32767 : Nat) : Int) ∧ ∃ k i, (World.init.run es).p.issuedAt[f]? = some i ∧ i ≤ k ∧
      (World.init.run es).p.recv[k]? = some m := by
  have hr := invRecv es
  obtain ⟨k, hk⟩ := hr.result f m h
  obtain ⟨m', i, a, b, c, d, d'⟩ := hr.answered k f hk
  rw [h] at b; simp only [Option.some.injEq, FutState.result.injEq] at b; subst b
  exact ⟨c, k, i, d, d', a⟩

/-- **C13** An answer never changes afterwards; neither does a cancellation. -/
theorem C13_final (es es' : List Event) (f : Nat) (s : FutState) (hs : s ≠ .pending)
    (h : (World.init.run es).p.futs[f]? = some s) :
    (World.init.run (es ++ es')).p.futs[f]? = some s := by
  rw [run_append]
  have hl := run_later (World.init.run es) es'
  cases s with
  | pending => exact absurd rfl hs
  | result m => exact hl.result f m h
  | cancelled => exact hl.cancelled f h

/-- **C13** Conversely the reply gets through: on an open connection with nothing buffered, a message
with the id of a pending request that is among the last 32767 answers exactly that request. -/
theorem C13_reply_arrives (es : List Event) (f code : Nat) (data : Bytes)
    (hopen : (World.init.run es).p.closing = false) (hbuf : (World.init.run es).p.buff = [])
    (hf : (World.init.run es).p.futs[f]? = some .pending)
    (hrecent : (World.init.run es).p.futs.length ≤ f + 32767)
    (hc : code < 65536) (hd : data.length < 2 ^ 32) :
    (World.init.run (es ++ [.data (frame (f % 32767) code data)])).p.futs =
      (World.init.run es).p.futs.set f (.result ⟨((f % 32767 : Nat) : Int), code, data⟩) := by
  rw [run_append]
  obtain ⟨ms, fs, t, e, pp, d, i⟩ := dataReceived_eq _ (frame (f % 32767) code data) hopen
  obtain ⟨x1, x2⟩ := decomposition_unique pp (packed_wire [(f % 32767, code, data)] (by
    simp only [List.mem_singleton, forall_eq]; exact ⟨by simp only; omega, hc, hd⟩)) i incomplete_nil
    (by rw [← d, hbuf]; simp [wire])
  subst x1 x2
  simp only [World.run, List.foldl_cons, List.foldl_nil, World.step]
  have e' := congrArg (fun x => x.1.futs) e
  simp only [World.run] at e'
  rw [e']
  simp only [List.map_cons, List.map_nil, asMsg, Proto.dispatchAll, Proto.dispatch]
  have ht := (invIds es).tracked f hf hrecent
  simp only [World.run] at ht hf
  simp only [ht, hf]

/-! ## C14: each message is used once -/

/-- **C14** After any history: every message received has exactly one fate; the handler tasks started are
exactly those of the `handled` messages, in order, each with that message's payload; a message `answered`
its request and no request is answered by two messages. -/
theorem C14_used_once (es : List Event) :
    let p := (World.init.run es).p
    p.fates.length = p.recv.length ∧
    p.spawned = (p.fates.zip p.recv).filterMap (fun
      | (.handled h, m) => some (h, m.data)
      | _ => none) ∧
    (∀ (f : Nat) (m : Msg), p.futs[f]? = some (.result m) ↔
      ∃ k : Nat, p.fates[k]? = some (.answered f) ∧ p.recv[k]? = some m) ∧
    (∀ k k' f : Nat, p.fates[k]? = some (.answered f) → p.fates[k']? = some (.answered f) → k = k') := by
  intro p
  have hr := invRecv es
  refine ⟨hr.len, ?_, ?_, hr.unique⟩
  · rw [show p.spawned = _ from hr.spawned]; rfl
  · intro f m
    constructor
    · intro h
      obtain ⟨k, hk⟩ := hr.result f m h
      obtain ⟨m', i, a, b, -⟩ := hr.answered k f hk
      rw [h] at b; simp only [Option.some.injEq, FutState.result.injEq] at b; subst b
      exact ⟨k, hk, a⟩
    · rintro ⟨k, hk, ha⟩
      obtain ⟨m', i, a, b, -⟩ := hr.answered k f hk
      rw [ha] at a; simp only [Option.some.injEq] at a; subst a
      exact b

/-- The two effects a message can have, seen from outside. -/
structure Effect where
  answered : Option Nat
  started : Option Nat
deriving DecidableEq, Repr

/-- `q` is `p` after message `m` had effect `x`. -/
def HasEffect (p q : Proto) (m : Msg) (x : Effect) : Prop :=
  (match x.answered with
    | some f => p.futs[f]? = some .pending ∧ q.futs = p.futs.set f (.result m)
    | none => q.futs = p.futs) ∧
  (match x.started with
    | some h => q.spawned = p.spawned ++ [(h, m.data)]
    | none => q.spawned = p.spawned)

/-- **C14** One message does exactly one of three things: it answers one pending request, or it starts
one task of the handler registered for its code, or nothing. -/
theorem C14_one_effect (es : List Event) (m : Msg) (_hopen : (World.init.run es).p.closing = false) :
    let p := (World.init.run es).p
    (∃ f, HasEffect p (p.dispatch m).1 m ⟨some f, none⟩) ∨
    (∃ h, aget m.code p.cbs = some h ∧ HasEffect p (p.dispatch m).1 m ⟨none, some h⟩) ∨
    HasEffect p (p.dispatch m).1 m ⟨none, none⟩ := by
  intro p
  have hi := invIds es
  obtain ⟨futs, coll, spawned, recv, fates, e, hc⟩ := dispatch_spec p m
  rw [e]
  rcases hc with ⟨f, ha, hp, h1, h2, h3, h4, h5, -⟩ | ⟨-, h2, h3, -, h4⟩ | ⟨f, -, -, -, -, -, -, -, -, h1⟩
  · exact .inl ⟨f, ⟨hp, h2⟩, h3⟩
  · rcases h4 with ⟨h, h5, h6, -⟩ | ⟨h5, h6, -⟩
    · exact .inr (.inl ⟨h, h5, h2, h6⟩)
    · exact .inr (.inr ⟨h2, h6⟩)
  · rw [dispatch_none hi m] at h1; simp at h1

/-! ## C15: the handler registered last -/

/-- The handler in force for `code` after a history, read off the history alone (latest event first). -/
def lastHandlerRev (code : Int) : List Event → Option Nat
  | [] => none
  | .register c h :: es => if c = code then some h else lastHandlerRev code es
  | .unregister c :: es => if c = code then none else lastHandlerRev code es
  | .unregisterAll :: _ => none
  | _ :: es => lastHandlerRev code es

/-- The handler in force for `code` after history `es`. -/
def lastHandler (code : Int) (es : List Event) : Option Nat := lastHandlerRev code es.reverse

theorem cancelFut_cbs (p : Proto) (f : Nat) : (p.cancelFut f).cbs = p.cbs := by rw [cancelFut_eq]

theorem startAttempt_cbs (w : World) (t : Nat) (r : Req) : (w.startAttempt t r).p.cbs = w.p.cbs := by
  obtain ⟨futs, written, timers, kaStop, e, -⟩ := awaitSend_spec w.p r.code r.data
  unfold World.startAttempt
  split
  · rfl
  · split
    · rfl
    · split
      · rename_i h; rw [h] at e; simp only at e; simp only [World.setReq]; rw [e]; rfl
      · rename_i h; rw [h] at e; simp only at e; simp only
        split <;> (simp only [World.setReq]; rw [e]; rfl)

theorem dispatchAll_cbs (ms : List Msg) : ∀ (p : Proto), (p.dispatchAll ms).1.cbs = p.cbs := by
  induction ms with
  | nil => intro p; rfl
  | cons m ms ih =>
    intro p
    obtain ⟨futs, coll, spawned, recv, fates, e, -⟩ := dispatch_spec p m
    unfold Proto.dispatchAll
    rcases hd : p.dispatch m with ⟨q, _ | er⟩
    · rw [hd] at e; simp only at e; rw [ih q, e]
    · rw [hd] at e; simp only at e; rw [e]

theorem step_cbs (w : World) (e : Event) : (w.step e).p.cbs =
    match e with
    | .register c h => aset c h w.p.cbs
    | .unregister c => adel c w.p.cbs
    | .unregisterAll => []
    | _ => w.p.cbs := by
  cases e with
  | call => rfl
  | run t =>
    simp only [World.step]
    split
    · split
      · exact startAttempt_cbs _ _ _
      · rfl
    · rfl
  | resume t => simp only [World.step]; repeat' (first | rfl | split)
  | timeout t => simp only [World.step]; repeat' (first | rfl | exact cancelFut_cbs _ _ | split)
  | cancel t => simp only [World.step]; repeat' (first | rfl | exact cancelFut_cbs _ _ | split)
  | wake t =>
    simp only [World.step]
    split
    · split
      · exact startAttempt_cbs _ _ _
      · rfl
    · rfl
  | data c =>
    simp only [World.step]
    cases hc : w.p.closing
    · obtain ⟨ms, fs, t, e, -⟩ := dataReceived_eq w.p c hc
      rw [e]; exact dispatchAll_cbs ms _
    · unfold Proto.dataReceived; rw [hc]; rfl
  | lost =>
    simp only [World.step]
    split
    · simp only [Proto.connectionLost]; rw [stopKeepalive_eq]
    · rfl
  | cleanup =>
    simp only [World.step]
    split
    · simp only; rw [(cancelAll_spec _).1]
    · rfl
  | peerClose => rfl
  | close force =>
    simp only [World.step, World.closeTail]
    split <;> split <;> first | rfl | (simp only; rw [(cancelAll_spec _).1])
  | closeResume c => simp only [World.step, World.closeTail]; repeat' (first | rfl | split)
  | closeFinish c => simp only [World.step]; repeat' (first | rfl | split)
  | closeCancel c => simp only [World.step]; repeat' (first | rfl | (simp only; rw [(foldl_cancelFut _ _).1]) | split)
  | register c h => rfl
  | unregister c => rfl
  | unregisterAll => rfl
  | enableKeepalive a => rfl
  | disableKeepalive => simp only [World.step, Proto.disableKeepalive]; rw [stopKeepalive_eq]
  | timerFire i => simp only [World.step, Proto.timerFire]; split <;> rfl

theorem lastHandler_spec (code : Int) (es : List Event) :
    aget code (World.init.run es).p.cbs = lastHandler code es := by
  unfold lastHandler
  have key : ∀ rs : List Event, aget code (World.init.run rs.reverse).p.cbs = lastHandlerRev code rs := by
    intro rs
    induction rs with
    | nil => rfl
    | cons e rs ih =>
      rw [List.reverse_cons, run_append]
      simp only [World.run, List.foldl_cons, List.foldl_nil]
      rw [step_cbs]
      simp only [World.run] at ih
      cases e <;> simp only [lastHandlerRev] <;> first | exact ih | skip
      · rw [aget_aset, ih]
      · rw [aget_adel, ih]
      · rfl
  have := key es.reverse
  rwa [List.reverse_reverse] at this

/-- **C15** A message whose id belongs to no pending request is given, with its payload, to the handler
most recently registered for its code and not removed since — read off the history `es` by `lastHandler` —
and to nobody if there is none; no request is answered. -/
theorem C15_unsolicited (es : List Event) (id code : Nat) (data : Bytes)
    (hopen : (World.init.run es).p.closing = false) (hbuf : (World.init.run es).p.buff = [])
    (hid : ∀ f : Nat, (World.init.run es).p.futs[f]? = some .pending → f % 32767 ≠ id)
    (h1 : id < 65536) (h2 : code < 65536) (h3 : data.length < 2 ^ 32) :
    let w := World.init.run es
    let w' := World.init.run (es ++ [.data (frame id code data)])
    w'.p.futs = w.p.futs ∧
    w'.p.spawned = w.p.spawned ++
      (match lastHandler code es with
        | some h => [(h, data)]
        | none => []) := by
  intro w w'
  have hw' : w' = w.step (.data (frame id code data)) := run_append _ _ _
  obtain ⟨ms, fs, t, e, pp, d, i⟩ := dataReceived_eq w.p (frame id code data) hopen
  obtain ⟨x1, x2⟩ := decomposition_unique pp (packed_wire [(id, code, data)] (by
    simp only [List.mem_singleton, forall_eq]; exact ⟨h1, h2, h3⟩)) i incomplete_nil
    (by rw [← d, hbuf]; simp [wire])
  subst x1 x2
  have hi : InvIds w.p := invIds es
  have hp : w'.p = (({ w.p with buff := [] } : Proto).dispatch ⟨id, code, data⟩).1 := by
    rw [hw']
    simp only [World.step, e]
    simp only [List.map_cons, List.map_nil, asMsg, Proto.dispatchAll]
    have := dispatch_none (hi.buff []) ⟨id, code, data⟩
    rcases hd : ({ w.p with buff := [] } : Proto).dispatch ⟨id, code, data⟩ with ⟨q, _ | er⟩
    · rfl
    · rw [hd] at this
  have hb : ({ w.p with buff := [] } : Proto) = w.p := by
    have : w.p.buff = [] := hbuf
    rw [← this]
  rw [hb] at hp
  rw [hp, ← lastHandler_spec code es]
  show _ ∧ _ = _ ++ match aget _ w.p.cbs with | some h => [(h, data)] | none => []
  obtain ⟨futs, coll, spawned, recv, fates, e, hc⟩ := dispatch_spec w.p ⟨id, code, data⟩
  rw [e]
  rcases hc with ⟨f, ha, hpf, -⟩ | ⟨-, hf, -, -, hs⟩ | ⟨f, -, -, -, -, -, -, -, -, h1⟩
  · exfalso
    have := (hi.coll _ _ (mem_of_aget ha)).2.1
    exact hid f hpf (by simp only at this; omega)
  · refine ⟨hf, ?_⟩
    rcases hs with ⟨h, hh, hs, -⟩ | ⟨hh, hs, -⟩
    · simp only at hh; rw [hh]; exact hs
    · simp only at hh; rw [hh]; simpa using hs
  · rw [dispatch_none hi] at h1; simp at h1

/-! ## C16: late replies -/

/-- **C16** The reply to a request that is already over (answered, timed out or cancelled) and not followed
by 32767 further requests changes no request at all. -/
theorem C16_late_reply (es : List Event) (f code : Nat) (data : Bytes) (s : FutState) (hs : s ≠ .pending)
    (hf : (World.init.run es).p.futs[f]? = some s)
    (hrecent : (World.init.run es).p.futs.length ≤ f + 32767) :
    ((World.init.run es).p.dispatch ⟨((f % 32767 : Nat) : Int), code, data⟩).1.futs =
      (World.init.run es).p.futs := by
  have hi := invIds es
  obtain ⟨futs, coll, spawned, recv, fates, e, hc⟩ :=
    dispatch_spec (World.init.run es).p ⟨((f % 32767 : Nat) : Int), code, data⟩
  rw [e]
  rcases hc with ⟨g, ha, hpf, -⟩ | ⟨-, hf, -, -, hs⟩ | ⟨g, -, -, -, -, -, -, -, -, h1⟩
  · exfalso
    obtain ⟨c1, c2, c3, c4⟩ := hi.coll _ _ (mem_of_aget ha)
    simp only at c2
    have : f < (World.init.run es).p.futs.length := lt_of_getElem? hf
    have hfg : f = g := by omega
    subst hfg
    rw [hf] at hpf; simp only [Option.some.injEq] at hpf; exact hs hpf
  · exact hf
  · rw [dispatch_none hi] at h1; simp at h1

/-- **C16** The same for the wire: the late reply arrives as bytes, in any chunking. -/
theorem C16_late_reply_wire (es : List Event) (f code : Nat) (data : Bytes) (s : FutState) (hs : s ≠ .pending)
    (hf : (World.init.run es).p.futs[f]? = some s)
    (hrecent : (World.init.run es).p.futs.length ≤ f + 32767)
    (hbuf : (World.init.run es).p.buff = []) (hc : code < 65536) (hd : data.length < 2 ^ 32)
    (cs : List Bytes) (hcs : cs.flatten = frame (f % 32767) code data) :
    (World.init.run (es ++ cs.map .data)).p.futs = (World.init.run es).p.futs := by
  rw [run_append, run_data cs _ (invIds es) (invBuff es), hcs]
  simp only
  cases hcl : (World.init.run es).p.closing
  · obtain ⟨ms, fs, t, e, pp, d, i⟩ := dataReceived_eq _ (frame (f % 32767) code data) hcl
    obtain ⟨x1, x2⟩ := decomposition_unique pp (packed_wire [(f % 32767, code, data)] (by
      simp only [List.mem_singleton, forall_eq]; exact ⟨by simp only; omega, hc, hd⟩)) i incomplete_nil
      (by rw [← d, hbuf]; simp [wire])
    subst x1 x2
    rw [e, dispatchAll_buff]
    simp only [List.map_cons, List.map_nil, asMsg, Proto.dispatchAll]
    have h1 := C16_late_reply es f code data s hs hf hrecent
    have h2 := dispatch_none (invIds es) ⟨((f % 32767 : Nat) : Int), code, data⟩
    rcases hdd : (World.init.run es).p.dispatch ⟨((f % 32767 : Nat) : Int), code, data⟩ with ⟨q, _ | er⟩
    · rw [hdd] at h1; exact h1
    · rw [hdd] at h2; simp at h2
  · unfold Proto.dataReceived; rw [hcl]; rfl

/-! ## C18: nothing is sent once closing -/

/-- **C18** Once a close has begun, or the transport is closing, nothing is written any more, whatever
happens. -/
theorem C18_quiet (es es' : List Event)
    (h : (World.init.run es).p.closing = true ∨ (World.init.run es).p.tclosing = true) :
    (World.init.run (es ++ es')).p.written = (World.init.run es).p.written := by
  rw [run_append]; exact (run_later _ es').quiet h

/-- **C18** A close request starts closing, and closing lasts. -/
theorem C18_close_closes (es es' : List Event) (force : Bool) :
    (World.init.run (es ++ .close force :: es')).p.closing = true := by
  rw [run_append]
  show (((World.init.run es).step (.close force)).run es').p.closing = true
  apply (run_later _ es').closing
  simp only [World.step, World.closeTail]
  split <;> split <;> first | rfl | (simp only; rw [(cancelAll_spec _).1])

/-- **C18** A request made once a close has begun comes back cancelled. -/
theorem C18_new_cancelled (es : List Event) (code : Int) (data : Bytes)
    (h : (World.init.run es).p.closing = true) :
    let p := (World.init.run es).p
    (p.awaitSend code data).2 = .ok p.futs.length ∧
    (p.awaitSend code data).1.futs[p.futs.length]? = some .cancelled ∧
    (p.awaitSend code data).1.written = p.written := by
  intro p
  have h : p.closing = true := h
  obtain ⟨futs, written, timers, kaStop, e, hf, hw, -⟩ := awaitSend_spec p code data
  refine ⟨?_, ?_, ?_⟩
  · unfold Proto.awaitSend
    have : (p.create code data).closing = true := h
    simp only [this, if_true]
  · rw [e]; simp [hf, h]
  · rw [e]
    rcases hw with ⟨hw, -⟩ | ⟨b, hb, -⟩
    · exact hw
    · rw [h] at hb; simp at hb

/-! ## C19: forced close and connection loss release every waiter -/

theorem cancelAll_releases {p : Proto} (h : InvIds p) (f : Nat) (hf : p.cancelAll.futs[f]? = some .pending) :
    f + 32767 < p.cancelAll.futs.length := by
  obtain ⟨e, hl, hg⟩ := cancelAll_spec p
  rcases Nat.lt_or_ge (f + 32767) p.cancelAll.futs.length with h2 | h2
  · exact h2
  · have := h.cancelAll.tracked f hf h2
    rw [e] at this; simp [aget] at this

/-- **C19** After a forced close no request is pending, except requests so old that their id has been
given to a later request (at least 32767 requests later). -/
theorem C19_forced_close (es : List Event) (f : Nat)
    (h : (World.init.run (es ++ [.close true])).p.futs[f]? = some .pending) :
    f + 32767 < (World.init.run (es ++ [.close true])).p.futs.length := by
  rw [run_append] at h ⊢
  have hp : ((World.init.run es).run [.close true]).p.futs =
      ({ (World.init.run es).p with closing := true } : Proto).cancelAll.futs := by
    simp only [World.run, List.foldl_cons, List.foldl_nil, World.step, World.closeTail]
    split <;> rfl
  rw [hp] at h ⊢
  exact cancelAll_releases (p := { (World.init.run es).p with closing := true })
    ((invIds es).congr rfl rfl rfl rfl rfl rfl) f h

/-- **C19** The same after the connection was lost and the clean-up task it creates has run. -/
theorem C19_connection_lost (es es' : List Event) (f : Nat)
    (hc : (World.init.run es).p.connected = true) (hno : .cleanup ∉ es')
    (h : (World.init.run (es ++ .lost :: es' ++ [.cleanup])).p.futs[f]? = some .pending) :
    f + 32767 < (World.init.run (es ++ .lost :: es' ++ [.cleanup])).p.futs.length := by
  have hcl : ∀ (es' : List Event) (w : World), .cleanup ∉ es' → 0 < w.cleanups → 0 < (w.run es').cleanups := by
    intro es'
    induction es' with
    | nil => intro w _ h; exact h
    | cons e es' ih =>
      intro w hno hpos
      refine ih (w.step e) (fun hm => hno (List.mem_cons_of_mem _ hm)) ?_
      cases e with
      | cleanup => exact absurd List.mem_cons_self hno
      | lost => simp only [World.step]; split <;> (try simp only) <;> omega
      | call => exact hpos
      | close force => simp only [World.step, World.closeTail]; split <;> exact hpos
      | data | peerClose | register | unregister | unregisterAll | enableKeepalive | disableKeepalive | timerFire =>
        exact hpos
      | run | wake =>
        simp only [World.step, World.startAttempt, World.setReq]
        repeat' (first | exact hpos | split)
      | resume | timeout | cancel | closeResume | closeFinish | closeCancel =>
        simp only [World.step, World.setReq, World.closeTail]
        repeat' (first | exact hpos | split)
  have hpos : 0 < (World.init.run (es ++ .lost :: es')).cleanups := by
    rw [run_append]
    refine hcl es' ((World.init.run es).step .lost) hno ?_
    simp only [World.step, hc, if_true]; omega
  rw [run_append] at h ⊢
  have hp : ((World.init.run (es ++ .lost :: es')).run [.cleanup]).p =
      (World.init.run (es ++ .lost :: es')).p.cancelAll := by
    generalize World.init.run (es ++ .lost :: es') = w at *
    simp only [World.run, List.foldl_cons, List.foldl_nil, World.step, hpos, if_true]
  rw [hp] at h ⊢
  exact cancelAll_releases (invIds _) f h

/-! ## C20: keepalive -/

/-- **C20** At any time at most one keepalive timer is live, and then keepalive is enabled. -/
theorem C20_at_most_one (es : List Event) (i j : Nat)
    (hi : (World.init.run es).p.timers[i]? = some true) (hj : (World.init.run es).p.timers[j]? = some true) :
    i = j ∧ (World.init.run es).p.kaAwait.isSome := by
  have h := invKa es
  have h1 := h.live i hi
  have h2 := h.live j hj
  rw [h1] at h2
  refine ⟨by simpa using h2, h.await (by rw [h1]; rfl)⟩

/-- **C20** Right after disabling keepalive no timer is live. -/
theorem C20_disable (es : List Event) (i : Nat) :
    (World.init.run (es ++ [.disableKeepalive])).p.timers[i]? ≠ some true := by
  intro h
  have := (C20_at_most_one _ i i h h).2
  rw [run_append] at this
  simp only [World.run, List.foldl_cons, List.foldl_nil, World.step, Proto.disableKeepalive] at this
  rw [stopKeepalive_eq] at this
  simp at this

/-- **C20** Sending a message while keepalive is enabled (and no close has begun) restarts the timer: the
new one is live, all older ones are not. -/
theorem C20_send_restarts (es : List Event) (code : Nat) (data : Bytes)
    (hk : (World.init.run es).p.kaAwait.isSome) (hopen : (World.init.run es).p.closing = false)
    (hc : code < 65536) (hd : data.length < 2 ^ 32) (i : Nat) :
    let p := (World.init.run es).p
    (p.awaitSend code data).1.timers[i]? = some true ↔ i = p.timers.length := by
  intro p
  have hk : p.kaAwait.isSome := hk
  have hka : InvKa (p.awaitSend code data).1 := (invKa es).atom (.send p code data)
  obtain ⟨futs, written, timers, kaStop, e, -, -, ht⟩ := awaitSend_spec p code data
  have hnk : timers = p.setKeepalive.timers ∧ kaStop = p.setKeepalive.kaStop := by
    rcases ht with ⟨-, -, h | h | ⟨er, h⟩⟩ | ⟨h1, h2, -⟩
    · rw [h] at hk; simp at hk
    · have : p.closing = false := hopen
      rw [this] at h; simp at h
    · exfalso
      have h2 := (awaitSend_error p code data er h).2.1
      have hn : p.nextId = p.futs.length % 32767 := (invIds es).nextId
      rw [C01_make_message, if_pos ⟨by omega, by omega, by omega, by omega, hd⟩] at h2
      simp at h2
    · exact ⟨h1, h2⟩
  have hlen : ∀ q : Proto, q.setKeepalive.kaStop = some q.timers.length ∧
      q.setKeepalive.timers[q.timers.length]? = some true := by
    intro q
    unfold Proto.setKeepalive
    cases q.kaStop <;> simp
  constructor
  · intro h
    have := hka.live i h
    rw [e] at this
    simp only [hnk.2, (hlen p).1, Option.some.injEq] at this
    exact this.symm
  · intro h
    subst h
    rw [e]
    simp only [hnk.1]
    exact (hlen p).2

theorem timers_dead_step (w : World) (e : Event) (he : ∀ a, e ≠ .enableKeepalive a)
    (hc : w.p.connected = false) (hd : ∀ i : Nat, w.p.timers[i]? ≠ some true) (hk : InvKa w.p) :
    ∀ i : Nat, (w.step e).p.timers[i]? ≠ some true := by
  have hstart : ∀ t r, (w.startAttempt t r).p.timers = w.p.timers := by
    intro t r
    unfold World.startAttempt
    split
    · rfl
    · rw [hc]; rfl
  have hsame : (w.step e).p.timers = w.p.timers ∨ (∃ i, e = .timerFire i) ∨ e = .disableKeepalive := by
    cases e with
    | call => exact .inl rfl
    | run t =>
      left; simp only [World.step]
      split
      · split
        · exact hstart _ _
        · rfl
      · rfl
    | resume t => left; simp only [World.step]; repeat' (first | rfl | split)
    | timeout t =>
      left; simp only [World.step]
      repeat' (first | rfl | (simp only [World.setReq]; rw [cancelFut_eq]) | split)
    | cancel t =>
      left; simp only [World.step]
      repeat' (first | rfl | (simp only [World.setReq]; rw [cancelFut_eq]) | split)
    | wake t =>
      left; simp only [World.step]
      split
      · split
        · exact hstart _ _
        · rfl
      · rfl
    | data c =>
      left; simp only [World.step]
      have : ∀ (ms : List Msg) (p : Proto), (p.dispatchAll ms).1.timers = p.timers := by
        intro ms
        induction ms with
        | nil => intro p; rfl
        | cons m ms ih =>
          intro p
          obtain ⟨futs, coll, spawned, recv, fates, e, -⟩ := dispatch_spec p m
          unfold Proto.dispatchAll
          rcases hd : p.dispatch m with ⟨q, _ | er⟩
          · rw [hd] at e; simp only at e; rw [ih q, e]
          · rw [hd] at e; simp only at e; rw [e]
      cases hcl : w.p.closing
      · obtain ⟨ms, fs, t, e, -⟩ := dataReceived_eq w.p c hcl
        rw [e, this]
      · unfold Proto.dataReceived; rw [hcl]; rfl
    | lost => left; simp only [World.step, hc]; rfl
    | cleanup =>
      left; simp only [World.step]
      split
      · simp only; rw [(cancelAll_spec _).1]
      · rfl
    | peerClose => exact .inl rfl
    | close force =>
      left; simp only [World.step, World.closeTail]
      split <;> split <;> first | rfl | (simp only; rw [(cancelAll_spec _).1])
    | closeResume c => left; simp only [World.step, World.closeTail]; repeat' (first | rfl | split)
    | closeFinish c => left; simp only [World.step]; repeat' (first | rfl | split)
    | closeCancel c => left; simp only [World.step]; repeat' (first | rfl | (simp only; rw [(foldl_cancelFut _ _).1]) | split)
    | register c h => exact .inl rfl
    | unregister c => exact .inl rfl
    | unregisterAll => exact .inl rfl
    | enableKeepalive a => exact absurd rfl (he a)
    | disableKeepalive => exact .inr (.inr rfl)
    | timerFire i => exact .inr (.inl ⟨i, rfl⟩)
  intro i
  rcases hsame with h | ⟨j, h⟩ | h
  · rw [h]; exact hd i
  · subst h
    simp only [World.step, Proto.timerFire]
    split
    · rename_i ht; exact absurd ht (hd j)
    · exact hd i
  · subst h
    have := (hk.atom (.disable w.p)).live i
    intro hi
    have h2 := this hi
    simp only [Proto.disableKeepalive] at h2
    have := (stopKeepalive_dead (p := w.p) hk).2
    have hd' : ({ w.p with kaAwait := none } : Proto).stopKeepalive.kaStop = w.p.stopKeepalive.kaStop := by
      unfold Proto.stopKeepalive; simp only; split <;> rfl
    rw [hd', this] at h2; simp at h2

/-- **C20** Once the connection is lost no timer is live, and it stays so unless keepalive is enabled
again. -/
theorem C20_lost (es es' : List Event) (hc : (World.init.run es).p.connected = true)
    (hno : ∀ a, .enableKeepalive a ∉ es') (i : Nat) :
    (World.init.run (es ++ .lost :: es')).p.timers[i]? ≠ some true := by
  rw [run_append]
  show (((World.init.run es).step .lost).run es').p.timers[i]? ≠ some true
  have h1 : InvKa ((World.init.run es).step .lost).p :=
    (step_steps _ .lost).preserves (fun _ _ a h => h.atom a) (invKa es)
  have h2 : ((World.init.run es).step .lost).p.connected = false := by
    simp only [World.step, hc, if_true, Proto.connectionLost]; rw [stopKeepalive_eq]
  have h3 : ∀ i : Nat, ((World.init.run es).step .lost).p.timers[i]? ≠ some true := by
    simp only [World.step, hc, if_true]
    exact (stopKeepalive_dead (p := { (World.init.run es).p with connected := false })
      ((invKa es).congr rfl rfl rfl)).1
  generalize (World.init.run es).step .lost = w at *
  clear hc
  induction es' generalizing w with
  | nil => exact h3 i
  | cons e es' ih =>
    refine ih (fun a hm => hno a (List.mem_cons_of_mem _ hm)) (w.step e) ?_ ?_ ?_
    · exact (step_steps w e).preserves (fun _ _ a h => h.atom a) h1
    · exact (step_later w e).disconnected h2
    · exact timers_dead_step w e (fun a he => hno a (by rw [he]; exact List.mem_cons_self)) h2 h3 h1

/-! ## The hypotheses are met -/

/-- Two requests, the first times out, the second is answered; an unsolicited message with a handler. -/
def demo : List Event :=
  [.enableKeepalive 9, .register 12500 7, .call 8120 [] 0, .run 0, .call 8112 [1] 0, .run 1, .timeout 0,
    .resume 0, .data (frame 1 8113 [5]), .resume 1, .data (frame 40000 12500 [6])]

example : (World.init.run demo).p.futs = [.cancelled, .result ⟨1, 8113, [5]⟩] ∧
    (World.init.run demo).p.spawned = [(7, [6])] ∧
    (World.init.run demo).p.fates = [.answered 1, .handled 7] ∧
    (World.init.run demo).p.timers = [false, false, true] ∧
    (World.init.run demo).p.buff = [] ∧ (World.init.run demo).p.closing = false ∧
    (World.init.run demo).p.connected = true ∧ lastHandler 12500 demo = some 7 ∧
    ((World.init.run demo).p.written.map (·.1)) = [0, 1] := by decide

example : (World.init.run (demo ++ [.call 8120 [] 0, .run 2])).p.futs[2]? = some .pending ∧
    (World.init.run (demo ++ [.call 8120 [] 0, .run 2, .close true])).p.futs[2]? = some .cancelled ∧
    (World.init.run (demo ++ [.call 8120 [] 0, .run 2, .lost, .cleanup])).p.futs[2]? = some .cancelled := by
  decide

end SL
