import Verif.Lemmas.Grows
/-!
# What the common callback is called with

The common callback of a code is only called with the payload of a message of that code.
-/
set_option linter.unusedVariables false

namespace SL

/-- Common callbacks are filed under their codes, and every call of one is for a received message of its code. -/
structure Filed (p : Proto) : Prop where
  cbs : ∀ (code : Int) (h : Nat), aget code p.cbs = some h → h % 2 = 0 → code = ((h / 2 : Nat) : Int)
  spawned : ∀ (h : Nat) (msg : Bytes), (h, msg) ∈ p.spawned → h % 2 = 0 → ∃ id, (⟨id, ((h / 2 : Nat) : Int), msg⟩ : Msg) ∈ p.recv

theorem Filed.init : Filed World.init.p := ⟨fun _ _ h => (by cases h), fun _ _ h => (by cases h)⟩

theorem Filed.congr {p q : Proto} (h : Filed p) (h1 : q.cbs = p.cbs) (h2 : q.spawned = p.spawned) (h3 : q.recv = p.recv) : Filed q :=
  ⟨by rw [h1]; exact h.cbs, by rw [h2, h3]; exact h.spawned⟩

theorem Filed.send {p : Proto} (h : Filed p) (code : Int) (data : Bytes) : Filed (p.awaitSend code data).1 := by
  obtain ⟨futs, written, timers, kaStop, e, -, -, -⟩ := awaitSend_spec p code data
  rw [e]; exact h.congr rfl rfl rfl

theorem Filed.cancelFut {p : Proto} (h : Filed p) (f : Nat) : Filed (p.cancelFut f) := by
  rw [cancelFut_eq]; exact h.congr rfl rfl rfl

theorem Filed.dispatch {p : Proto} (h : Filed p) (m : Msg) : Filed (p.dispatch m).1 := by
  obtain ⟨futs, coll, spawned, recv, fates, e, hc⟩ := dispatch_spec p m
  rw [e]
  rcases hc with ⟨f, -, -, -, -, h1, h2, -⟩ | ⟨-, -, h2, -, h3⟩ | ⟨f, -, -, -, -, -, h1, h2, -⟩
  · subst h1; subst h2
    exact ⟨h.cbs, fun k msg hm he => by
      obtain ⟨id, hid⟩ := h.spawned k msg hm he
      exact ⟨id, List.mem_append_left _ hid⟩⟩
  · subst h2
    rcases h3 with ⟨k', hk, h1, -⟩ | ⟨-, h1, -⟩
    · subst h1
      refine ⟨h.cbs, fun k msg hm he => ?_⟩
      rcases List.mem_append.1 hm with hm | hm
      · obtain ⟨id, hid⟩ := h.spawned k msg hm he
        exact ⟨id, List.mem_append_left _ hid⟩
      · simp only [List.mem_singleton, Prod.mk.injEq] at hm
        obtain ⟨rfl, rfl⟩ := hm
        refine ⟨m.id, List.mem_append_right _ ?_⟩
        rw [← h.cbs _ _ hk he]
        simp
    · subst h1
      exact ⟨h.cbs, fun k msg hm he => by
        obtain ⟨id, hid⟩ := h.spawned k msg hm he
        exact ⟨id, List.mem_append_left _ hid⟩⟩
  · subst h1; subst h2
    exact ⟨h.cbs, h.spawned⟩

theorem Filed.dispatchAll (ms : List Msg) : ∀ {p : Proto}, Filed p → Filed (p.dispatchAll ms).1 := by
  induction ms with
  | nil => intro p h; exact h
  | cons m ms ih =>
    intro p h
    have h1 := h.dispatch m
    unfold Proto.dispatchAll
    split
    · rename_i p' e
      rw [e] at h1
      exact ih h1
    · rename_i p' er e
      rw [e] at h1
      exact h1

theorem Filed.data {p : Proto} (h : Filed p) (c : Bytes) : Filed (p.dataReceived c).1 := by
  cases hc : p.closing
  · obtain ⟨ms, fs, tail, e, -, -, hi⟩ := dataReceived_eq p c hc
    rw [e]
    exact Filed.dispatchAll ms (h.congr rfl rfl rfl)
  · unfold Proto.dataReceived
    rw [hc]; exact h

theorem Filed.start {w : World} (h : Filed w.p) (t : Nat) (r : Req) : Filed (w.startAttempt t r).p := by
  have ha := h.send r.code r.data
  unfold World.startAttempt
  split
  · exact h
  · split
    · exact h
    · split
      · rename_i e; rw [e] at ha; exact ha
      · rename_i e; rw [e] at ha
        simp only
        split <;> exact ha

theorem Filed.cancelAll {p : Proto} (h : Filed p) : Filed p.cancelAll := by
  rw [(cancelAll_spec p).1]; exact h.congr rfl rfl rfl

theorem Filed.step {w : World} (h : Filed w.p) (e : Event) (he : e.tidy) : Filed (w.step e).p := by
  cases e with
  | call => exact h
  | run t =>
    simp only [World.step]
    split
    · split
      · exact h.start _ _
      · exact h
    · exact h
  | resume t =>
    simp only [World.step]
    repeat' (first | exact h | split)
  | timeout t =>
    simp only [World.step]
    repeat' (first | exact h | exact h.cancelFut _ | split)
  | cancel t =>
    simp only [World.step]
    repeat' (first | exact h | exact h.cancelFut _ | split)
  | wake t =>
    simp only [World.step]
    split
    · split
      · exact h.start _ _
      · exact h
    · exact h
  | data c => exact h.data c
  | lost =>
    simp only [World.step]
    split
    · simp only [Proto.connectionLost]; rw [stopKeepalive_eq]; exact h.congr rfl rfl rfl
    · exact h
  | cleanup =>
    simp only [World.step]
    split
    · exact h.cancelAll
    · exact h
  | peerClose => exact h.congr rfl rfl rfl
  | close force =>
    have h1 : Filed { w.p with closing := true } := h.congr rfl rfl rfl
    simp only [World.step, World.closeTail]
    split
    · split
      · exact h1.cancelAll.congr rfl rfl rfl
      · exact h1.congr rfl rfl rfl
    · split
      · exact h1.cancelAll
      · exact h1
  | closeResume c =>
    simp only [World.step, World.closeTail]
    repeat' (first | exact h | exact h.congr rfl rfl rfl | split)
  | closeFinish c =>
    simp only [World.step]
    repeat' (first | exact h | split)
  | closeCancel c =>
    simp only [World.step]
    split
    · simp only; rw [(foldl_cancelFut _ _).1]; exact h.congr rfl rfl rfl
    · exact h
    · exact h
  | register c k =>
    refine ⟨fun code k' hk hh => ?_, h.spawned⟩
    simp only [World.step, Proto.register, aget_aset] at hk
    split at hk
    · rename_i e
      simp only [Option.some.injEq] at hk
      subst hk; subst e
      exact he hh
    · exact h.cbs _ _ hk hh
  | unregister c =>
    refine ⟨fun code k' hk hh => ?_, h.spawned⟩
    simp only [World.step, Proto.unregister, aget_adel] at hk
    split at hk
    · cases hk
    · exact h.cbs _ _ hk hh
  | unregisterAll => exact ⟨fun _ _ hk => (by cases hk), h.spawned⟩
  | enableKeepalive a => exact h.congr rfl rfl rfl
  | disableKeepalive => simp only [World.step, Proto.disableKeepalive]; rw [stopKeepalive_eq]; exact h.congr rfl rfl rfl
  | timerFire i => simp only [World.step, Proto.timerFire]; split <;> exact h.congr rfl rfl rfl

theorem Filed.run : ∀ (es : List Event) {w : World}, Filed w.p → (∀ e ∈ es, e.tidy) → Filed (w.run es).p
  | [], _, h, _ => h
  | e :: es, w, h, ht => Filed.run es (h.step e (ht e (by simp))) (fun e he => ht e (by simp [he]))

/-- What has been received on a connection stays received. -/
theorem run_recv (w : World) (es : List Event) {m : Msg} (h : m ∈ w.p.recv) : m ∈ (w.run es).p.recv := by
  induction es generalizing w with
  | nil => exact h
  | cons e es ih => exact ih (w.step e) ((step_later w e).recv.subset h)

end SL
