import Verif.Lemmas.ProtoInv
/-! # C09, C10, C11: the receiving side of the connection -/
namespace SL
open Spec

/-! ## Lemmas -/

theorem incomplete_nil : Incomplete [] := by
  intro id code d f rest hm he
  have := (C01_message_roundtrip _ _ _ _ hm).2
  have := congrArg List.length he
  simp only [List.length_append, List.length_nil] at this; omega

theorem invBuff (es : List Event) : Incomplete (World.init.run es).p.buff := by
  refine run_inv (P := fun p => Incomplete p.buff) incomplete_nil ?_ es
  intro p q a h
  cases a with
  | send code data =>
    obtain ⟨futs, written, timers, kaStop, e, -, -, -⟩ := awaitSend_spec p code data
    rw [e]; exact h
  | cancelFut f => rw [cancelFut_eq]; exact h
  | setBuff b hb => exact hb
  | dispatch m =>
    obtain ⟨futs, coll, spawned, recv, fates, e, -⟩ := dispatch_spec p m
    rw [e]; exact h
  | cancelAll => rw [(cancelAll_spec p).1]; exact h
  | lost => simp only [Proto.connectionLost]; rw [stopKeepalive_eq]; exact h
  | tclose => exact h
  | closing => exact h
  | setCbs c => exact h
  | enable a => exact h
  | disable => simp only [Proto.disableKeepalive]; rw [stopKeepalive_eq]; exact h
  | fire i => simp only [Proto.timerFire]; split <;> exact h

/-- Handling a message commutes with changing the buffer. -/
theorem dispatch_buff (p : Proto) (m : Msg) (b : Bytes) :
    ({ p with buff := b } : Proto).dispatch m = ({ (p.dispatch m).1 with buff := b }, (p.dispatch m).2) := by
  unfold Proto.dispatch Proto.toCallback
  dsimp only
  cases aget m.id p.coll with
  | none => dsimp only; cases aget m.code p.cbs <;> rfl
  | some f =>
    dsimp only
    cases p.futs[f]? with
    | none => rfl
    | some s =>
      cases s with
      | pending => rfl
      | result m' => rfl
      | cancelled => dsimp only; cases aget m.code p.cbs <;> rfl

theorem dispatchAll_buff (ms : List Msg) : ∀ (p : Proto) (b : Bytes),
    ({ p with buff := b } : Proto).dispatchAll ms =
      ({ (p.dispatchAll ms).1 with buff := b }, (p.dispatchAll ms).2) := by
  induction ms with
  | nil => intro p b; rfl
  | cons m ms ih =>
    intro p b
    unfold Proto.dispatchAll
    rw [dispatch_buff]
    rcases h : p.dispatch m with ⟨q, _ | e⟩
    · exact ih q b
    · rfl

/-- No message raises on a protocol object in a good state. -/
theorem dispatch_none {p : Proto} (h : InvIds p) (m : Msg) : (p.dispatch m).2 = none := by
  obtain ⟨futs, coll, spawned, recv, fates, e, hc⟩ := dispatch_spec p m
  rcases hc with ⟨f, -, -, -, -, -, -, -, h1⟩ | ⟨-, -, -, h1, -⟩ | ⟨f, ha, hp, hp', -⟩
  · exact h1
  · exact h1
  · exfalso
    obtain ⟨c1, c2, c3, c4⟩ := h.coll m.id f (mem_of_aget ha)
    cases hs : p.futs[f]? with
    | none => rw [List.getElem?_eq_none_iff] at hs; omega
    | some s =>
      cases s with
      | pending => exact hp hs
      | cancelled => exact hp' hs
      | result m' => exact c4 m' hs

theorem dispatchAll_none (ms : List Msg) : ∀ {p : Proto}, InvIds p → (p.dispatchAll ms).2 = none := by
  induction ms with
  | nil => intro p _; rfl
  | cons m ms ih =>
    intro p h
    unfold Proto.dispatchAll
    have h1 := dispatch_none h m
    have h2 := h.dispatch m
    rcases hd : p.dispatch m with ⟨q, _ | e⟩
    · rw [hd] at h2; exact ih h2
    · rw [hd] at h1; simp at h1

theorem dispatchAll_append (ms ms' : List Msg) : ∀ {p : Proto}, InvIds p →
    p.dispatchAll (ms ++ ms') = (p.dispatchAll ms).1.dispatchAll ms' := by
  induction ms with
  | nil => intro p _; rfl
  | cons m ms ih =>
    intro p h
    simp only [List.cons_append, Proto.dispatchAll]
    have h1 := dispatch_none h m
    have h2 := h.dispatch m
    rcases hd : p.dispatch m with ⟨q, _ | e⟩
    · rw [hd] at h2; exact ih h2
    · rw [hd] at h1; simp at h1

theorem dispatch_recv {p : Proto} (h : InvIds p) (m : Msg) : (p.dispatch m).1.recv = p.recv ++ [m] := by
  obtain ⟨futs, coll, spawned, recv, fates, e, hc⟩ := dispatch_spec p m
  rw [e]
  rcases hc with ⟨f, -, -, -, -, -, h1, -⟩ | ⟨-, -, h1, -⟩ | ⟨f, -, -, -, -, -, -, -, -, h1⟩
  · exact h1
  · exact h1
  · rw [dispatch_none h m] at h1; simp at h1

theorem dispatchAll_recv (ms : List Msg) : ∀ {p : Proto}, InvIds p →
    (p.dispatchAll ms).1.recv = p.recv ++ ms := by
  induction ms with
  | nil => intro p _; simp [Proto.dispatchAll]
  | cons m ms ih =>
    intro p h
    unfold Proto.dispatchAll
    have h1 := dispatch_none h m
    have h2 := h.dispatch m
    have h3 := dispatch_recv h m
    rcases hd : p.dispatch m with ⟨q, _ | e⟩
    · rw [hd] at h2 h3; simp only at h3; rw [ih h2, h3]; simp
    · rw [hd] at h1; simp at h1

theorem dispatchAll_closing (ms : List Msg) : ∀ {p : Proto}, InvIds p →
    (p.dispatchAll ms).1.closing = p.closing := by
  induction ms with
  | nil => intro p _; simp [Proto.dispatchAll]
  | cons m ms ih =>
    intro p h
    unfold Proto.dispatchAll
    have h1 := dispatch_none h m
    have h2 := h.dispatch m
    have h3 := dispatch_closing p m
    rcases hd : p.dispatch m with ⟨q, _ | e⟩
    · rw [hd] at h2 h3; simp only at h3; rw [ih h2, h3]
    · rw [hd] at h1; simp at h1

theorem InvIds.buff {p : Proto} (h : InvIds p) (b : Bytes) : InvIds { p with buff := b } :=
  h.congr rfl rfl rfl rfl rfl rfl

theorem dataReceived_append {p : Proto} (h : InvIds p) (c1 c2 : Bytes) :
    ((p.dataReceived c1).1.dataReceived c2).1 = (p.dataReceived (c1 ++ c2)).1 := by
  cases hc : p.closing
  · obtain ⟨ms1, fs1, t1, e1, p1, d1, i1⟩ := dataReceived_eq p c1 hc
    have hb := h.buff t1
    have hc1 : (p.dataReceived c1).1.closing = false := by
      rw [e1, dispatchAll_closing ms1 hb]; exact hc
    obtain ⟨ms2, fs2, t2, e2, p2, d2, i2⟩ := dataReceived_eq (p.dataReceived c1).1 c2 hc1
    obtain ⟨ms, fs, t, e, pp, d, i⟩ := dataReceived_eq p (c1 ++ c2) hc
    have hbuf : (p.dataReceived c1).1.buff = t1 := by
      rw [e1, dispatchAll_buff]
    rw [hbuf] at d2
    obtain ⟨x1, x2⟩ := decomposition_unique pp (p1.append p2) i i2 (by
      rw [← d, List.flatten_append, List.append_assoc, ← d2, ← List.append_assoc, d1, List.append_assoc])
    subst x1 x2
    rw [e, e2, e1]
    rw [dispatchAll_buff ms1, dispatchAll_buff (ms1 ++ ms2), dispatchAll_append ms1 ms2 h,
      dispatchAll_buff ms2]
    simp only
    rw [dispatchAll_buff ms2]
  · have : ∀ c, (p.dataReceived c).1 = p := by
      intro c; unfold Proto.dataReceived; rw [hc]; rfl
    rw [this, this, this]

theorem dataReceived_nil {p : Proto} (hb : Incomplete p.buff) : (p.dataReceived []).1 = p := by
  cases hc : p.closing
  · obtain ⟨ms, fs, t, e, pp, d, i⟩ := dataReceived_eq p [] hc
    obtain ⟨x1, x2⟩ := decomposition_unique pp .nil i hb (by rw [← d]; simp)
    subst x1 x2
    rw [e]; rfl
  · unfold Proto.dataReceived; rw [hc]; rfl

/-- Feeding chunks one by one is feeding their concatenation. -/
theorem run_data (cs : List Bytes) : ∀ (w : World), InvIds w.p → Incomplete w.p.buff →
    w.run (cs.map .data) = { w with p := (w.p.dataReceived cs.flatten).1 } := by
  induction cs with
  | nil => intro w _ hb; simp only [List.map_nil, World.run, List.foldl_nil, List.flatten_nil]; rw [dataReceived_nil hb]
  | cons c cs ih =>
    intro w hi hb
    simp only [List.map_cons, World.run, List.foldl_cons, World.step]
    have h1 : InvIds (w.p.dataReceived c).1 :=
      (dataReceived_steps w.p c).preserves (fun _ _ a h => h.atom a) hi
    have hb' : Incomplete (w.p.dataReceived c).1.buff := by
      cases hc : w.p.closing
      · obtain ⟨ms, fs, t, e, pp, d, i⟩ := dataReceived_eq w.p c hc
        rw [e, dispatchAll_buff]; exact i
      · unfold Proto.dataReceived; rw [hc]; exact hb
    have := ih { w with p := (w.p.dataReceived c).1 } h1 hb'
    simp only [World.run] at this
    rw [this]
    simp only [List.flatten_cons]
    rw [dataReceived_append hi]

theorem run_append (w : World) (es es' : List Event) : w.run (es ++ es') = (w.run es).run es' :=
  List.foldl_append

/-! ## The properties -/

/-- **C09** After any history `es`, any two ways `cs`, `cs'` of cutting the same bytes into chunks leave
the whole connection — buffered bytes, messages received, requests answered, handler tasks started,
everything — in the same state. -/
theorem C09_chunking (es : List Event) (cs cs' : List Bytes) (h : cs.flatten = cs'.flatten) :
    (World.init.run es).run (cs.map .data) = (World.init.run es).run (cs'.map .data) := by
  rw [run_data cs _ (invIds es) (invBuff es), run_data cs' _ (invIds es) (invBuff es), h]

/-- A message that fits the wire format. -/
abbrev Sendable (m : Nat × Nat × Bytes) : Prop := m.1 < 65536 ∧ m.2.1 < 65536 ∧ m.2.2.length < 2 ^ 32

/-- The bytes of a message. -/
def wire (m : Nat × Nat × Bytes) : Bytes := frame m.1 m.2.1 m.2.2

/-- The message as the library sees it. -/
def asMsg (m : Nat × Nat × Bytes) : Msg := ⟨m.1, m.2.1, m.2.2⟩

theorem packed_wire (ms : List (Nat × Nat × Bytes)) (h : ∀ m ∈ ms, Sendable m) :
    Packed (ms.map asMsg) (ms.map wire) := by
  induction ms with
  | nil => exact .nil
  | cons m ms ih =>
    refine .cons ?_ (ih fun x hx => h x (List.mem_cons_of_mem _ hx))
    obtain ⟨h1, h2, h3⟩ := h m List.mem_cons_self
    simp only [asMsg, wire]
    rw [C01_make_message, if_pos ⟨by omega, by omega, by omega, by omega, h3⟩]
    simp

theorem incomplete_of_prefix {tail rest : Bytes} {m : Nat × Nat × Bytes} (hs : Sendable m)
    (h : tail ++ rest = wire m) (hr : rest ≠ []) : Incomplete tail := by
  intro id code d f r hm he
  subst he
  have hp := packed_wire [m] (by simpa using hs)
  cases hp with
  | cons hm' _ =>
    have := frame_prefix_unique (r := r ++ rest) (r' := []) hm hm' (by simp only [wire] at h ⊢; simp [← h])
    have h2 := this.2.1
    simp only [List.append_eq_nil_iff] at h2
    exact hr h2.2

/-- **C10** Let nothing be buffered and no close have begun.  Whatever sequence `ms` of messages the
adapter sends, followed by a proper prefix `tail` of some further message, and however the bytes are cut
into chunks: exactly the messages `ms` are received, in order, and exactly `tail` stays buffered.  (As
this holds for every prefix of a stream, each message is handed over as soon as its last byte arrives.) -/
theorem C10_reassembly (es : List Event) (ms : List (Nat × Nat × Bytes)) (next : Nat × Nat × Bytes)
    (tail rest : Bytes) (cs : List Bytes)
    (hopen : (World.init.run es).p.closing = false) (hbuf : (World.init.run es).p.buff = [])
    (hms : ∀ m ∈ ms, Sendable m) (hnext : Sendable next) (htail : tail ++ rest = wire next) (hrest : rest ≠ [])
    (hcs : cs.flatten = (ms.map wire).flatten ++ tail) :
    let w := (World.init.run es).run (cs.map .data)
    w.p.recv = (World.init.run es).p.recv ++ ms.map asMsg ∧ w.p.buff = tail := by
  have hi := invIds es
  rw [run_data cs _ hi (invBuff es)]
  obtain ⟨ms', fs, t, e, pp, d, i⟩ := dataReceived_eq (World.init.run es).p cs.flatten hopen
  rw [hbuf, hcs, List.nil_append] at d
  obtain ⟨x1, x2⟩ := decomposition_unique pp (packed_wire ms hms) i (incomplete_of_prefix hnext htail hrest) d.symm
  subst x1 x2
  simp only [e]
  exact ⟨dispatchAll_recv _ (hi.buff t), by rw [dispatchAll_buff]⟩

/-- **C11** After any history whatsoever, no bytes whatsoever make the receiver raise. -/
theorem C11_never_raises (es : List Event) (chunk : Bytes) :
    ((World.init.run es).p.dataReceived chunk).2 = none := by
  have hi := invIds es
  cases hc : (World.init.run es).p.closing
  · obtain ⟨ms, fs, t, e, -⟩ := dataReceived_eq _ chunk hc
    rw [e]; exact dispatchAll_none ms (hi.buff t)
  · unfold Proto.dataReceived; rw [hc]; rfl

/-! ## The hypotheses are met -/

example : let es : List Event := [.call 8120 [] 1, .run 0]
    (World.init.run es).p.closing = false ∧ (World.init.run es).p.buff = [] ∧
      Sendable (0, 8121, [1, 2, 3]) := by decide

example :
    let w := (World.init.run [.call 8120 [] 1, .run 0]).run
      ([[0, 0, 0xb9], [0x1f, 2, 0, 0, 0, 7], [8, 1]].map .data)
    w.p.recv = [⟨0, 8121, [7, 8]⟩] ∧ w.p.buff = [1] ∧ w.p.futs = [.result ⟨0, 8121, [7, 8]⟩] := by
  decide

end SL
