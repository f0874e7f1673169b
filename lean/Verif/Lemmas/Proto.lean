import Verif.Model.World
import Verif.Lemmas.Framing
/-! # Invariants of a protocol object -/
namespace SL

/-! ## What the operations do to the fields -/

theorem cancelFut_eq (p : Proto) (f : Nat) :
    p.cancelFut f = { p with futs := (p.cancelFut f).futs } := by
  unfold Proto.cancelFut; split <;> rfl

theorem cancelFut_futs (p : Proto) (f g : Nat) :
    (p.cancelFut f).futs[g]? =
      if g = f ∧ p.futs[g]? = some .pending then some .cancelled else p.futs[g]? := by
  unfold Proto.cancelFut
  split
  · rename_i h
    simp only [List.getElem?_set]
    by_cases hg : f = g
    · subst hg
      have : f < p.futs.length := by
        rcases Nat.lt_or_ge f p.futs.length with h2 | h2
        · exact h2
        · rw [List.getElem?_eq_none h2] at h; simp at h
      rw [if_pos rfl, if_pos this, if_pos ⟨rfl, h⟩]
    · rw [if_neg hg, if_neg (by intro h2; exact hg h2.1.symm)]
  · rename_i h
    rw [if_neg]
    rintro ⟨rfl, h2⟩
    exact h h2

theorem cancelFut_length (p : Proto) (f : Nat) : (p.cancelFut f).futs.length = p.futs.length := by
  unfold Proto.cancelFut; split <;> simp

/-- The futures after cancelling a list of futures. -/
theorem foldl_cancelFut (fs : List Nat) : ∀ (p : Proto),
    (fs.foldl Proto.cancelFut p) = { p with futs := (fs.foldl Proto.cancelFut p).futs } ∧
    (fs.foldl Proto.cancelFut p).futs.length = p.futs.length ∧
    ∀ g, (fs.foldl Proto.cancelFut p).futs[g]? =
      if g ∈ fs ∧ p.futs[g]? = some .pending then some .cancelled else p.futs[g]? := by
  induction fs with
  | nil => intro p; simp
  | cons f fs ih =>
    intro p
    obtain ⟨h1, h2, h3⟩ := ih (p.cancelFut f)
    simp only [List.foldl_cons]
    refine ⟨?_, ?_, ?_⟩
    · rw [h1]
      generalize (List.foldl Proto.cancelFut (p.cancelFut f) fs).futs = x
      rw [cancelFut_eq]
    · rw [h2, cancelFut_length]
    · intro g
      rw [h3 g, cancelFut_futs]
      clear h1 h2 h3 ih
      simp only [List.mem_cons]
      generalize p.futs[g]? = x
      by_cases hp : x = some .pending
      · subst hp
        by_cases hg : g = f <;> simp [hg]
      · simp [hp]

theorem cancelAll_spec (p : Proto) :
    p.cancelAll = { p with futs := p.cancelAll.futs, coll := [] } ∧
    p.cancelAll.futs.length = p.futs.length ∧
    ∀ g, p.cancelAll.futs[g]? =
      if g ∈ p.coll.map (·.2) ∧ p.futs[g]? = some .pending then some .cancelled else p.futs[g]? := by
  obtain ⟨h1, h2, h3⟩ := foldl_cancelFut (p.coll.map (·.2)) p
  refine ⟨?_, h2, h3⟩
  unfold Proto.cancelAll
  rw [h1]

theorem setKeepalive_eq (p : Proto) :
    p.setKeepalive = { p with timers := p.setKeepalive.timers, kaStop := p.setKeepalive.kaStop } := rfl

theorem stopKeepalive_eq (p : Proto) :
    p.stopKeepalive = { p with timers := p.stopKeepalive.timers, kaStop := p.stopKeepalive.kaStop } := by
  unfold Proto.stopKeepalive; split <;> rfl

/-- Everything `await_send_message` does. -/
theorem awaitSend_spec (p : Proto) (code : Int) (data : Bytes) :
    ∃ futs written timers kaStop,
      (p.awaitSend code data).1 =
        { p.create code data with futs := futs, written := written, timers := timers, kaStop := kaStop } ∧
      futs = p.futs ++ [if p.closing then .cancelled else .pending] ∧
      ((written = p.written ∧ (p.closing = true ∨ p.tclosing = true ∨
            ∃ e, makeMessage p.nextId code data = .error e)) ∨
        ∃ bytes, p.closing = false ∧ p.tclosing = false ∧ makeMessage p.nextId code data = .ok bytes ∧
          written = p.written ++ [(p.futs.length, bytes)]) ∧
      ((timers = p.timers ∧ kaStop = p.kaStop ∧
          (p.kaAwait = none ∨ p.closing = true ∨ ∃ e, (p.awaitSend code data).2 = .error e)) ∨
        (timers = p.setKeepalive.timers ∧ kaStop = p.setKeepalive.kaStop ∧ p.kaAwait.isSome)) := by
  unfold Proto.awaitSend
  simp only
  by_cases hc : p.closing
  · have hc' : (p.create code data).closing = true := hc
    rw [if_pos hc']
    refine ⟨_, p.written, p.timers, p.kaStop, ?_, rfl, .inl ⟨rfl, .inl hc⟩, .inl ⟨rfl, rfl, .inr (.inl hc)⟩⟩
    simp only [Proto.cancelFut, Proto.create, hc]
    simp
  · have hc' : ¬ (p.create code data).closing = true := hc
    rw [if_neg hc']
    simp only [Bool.not_eq_true] at hc
    unfold Proto.sendMessage
    by_cases ht : p.tclosing
    · have ht' : (p.create code data).tclosing = true := ht
      rw [if_pos ht']
      simp only [bind, Except.bind, pure, Except.pure]
      by_cases hk : p.kaAwait.isSome
      · have hk' : (p.create code data).kaAwait.isSome = true := hk
        rw [if_pos hk']
        refine ⟨_, p.written, _, _, ?_, rfl, .inl ⟨rfl, .inr (.inl ht)⟩, .inr ⟨rfl, rfl, hk⟩⟩
        simp [Proto.create, hc, Proto.setKeepalive]
      · have hk' : ¬ (p.create code data).kaAwait.isSome = true := hk
        rw [if_neg hk']
        refine ⟨_, p.written, p.timers, p.kaStop, ?_, rfl, .inl ⟨rfl, .inr (.inl ht)⟩,
          .inl ⟨rfl, rfl, .inl (by simpa using hk)⟩⟩
        simp [Proto.create, hc]
    · have ht' : ¬ (p.create code data).tclosing = true := ht
      rw [if_neg ht']
      simp only [Bool.not_eq_true] at ht
      cases hm : makeMessage (p.nextId : Int) code data with
      | error e =>
        simp only [bind, Except.bind]
        refine ⟨_, p.written, p.timers, p.kaStop, ?_, rfl, .inl ⟨rfl, .inr (.inr ⟨e, rfl⟩)⟩,
          .inl ⟨rfl, rfl, .inr (.inr ⟨e, rfl⟩)⟩⟩
        simp [Proto.create, hc]
      | ok bytes =>
        simp only [bind, Except.bind, pure, Except.pure]
        have hw : ({ p.create code data with written := (p.create code data).written ++ [(p.futs.length, bytes)] } : Proto).kaAwait = p.kaAwait := rfl
        by_cases hk : p.kaAwait.isSome
        · rw [if_pos (by rw [hw]; exact hk)]
          refine ⟨_, _, _, _, ?_, rfl, .inr ⟨bytes, hc, ht, rfl, rfl⟩, .inr ⟨rfl, rfl, hk⟩⟩
          simp [Proto.create, hc, Proto.setKeepalive]
        · rw [if_neg (by rw [hw]; exact hk)]
          refine ⟨_, _, p.timers, p.kaStop, ?_, rfl, .inr ⟨bytes, hc, ht, rfl, rfl⟩,
            .inl ⟨rfl, rfl, .inl (by simpa using hk)⟩⟩
          simp [Proto.create, hc]

theorem awaitSend_ok (p : Proto) (code : Int) (data : Bytes) (f : Nat)
    (h : (p.awaitSend code data).2 = .ok f) : f = p.futs.length := by
  unfold Proto.awaitSend at h
  simp only at h
  split at h
  · simpa using h.symm
  · split at h <;> simp at h
    exact h.symm

theorem awaitSend_error (p : Proto) (code : Int) (data : Bytes) (e : PyErr)
    (h : (p.awaitSend code data).2 = .error e) :
    e = .structError ∧ makeMessage p.nextId code data = .error .structError ∧
      p.closing = false ∧ p.tclosing = false := by
  unfold Proto.awaitSend at h
  simp only at h
  split at h
  · simp at h
  · rename_i hc
    have hc' : p.closing = false := by simpa [Proto.create] using hc
    split at h
    · simp at h
    · rename_i e' hs
      simp only [Except.error.injEq] at h
      subst h
      unfold Proto.sendMessage at hs
      have hk : (p.create code data).tclosing = p.tclosing := rfl
      rw [hk] at hs
      cases ht : p.tclosing
      · rw [ht] at hs
        have hmm : makeMessage p.nextId code data = .error .structError := by
          rw [C01_make_message]
          split
          · rename_i hr
            rw [C01_make_message, if_pos hr] at hs
            simp [bind, Except.bind] at hs
            split at hs <;> simp [pure, Except.pure] at hs
          · rfl
        rw [hmm] at hs
        simp [bind, Except.bind] at hs
        exact ⟨hs.symm, hmm, hc', rfl⟩
      · rw [ht] at hs
        simp [bind, Except.bind, pure, Except.pure] at hs

/-- Everything the handling of one message does. -/
theorem dispatch_spec (p : Proto) (m : Msg) :
    ∃ futs coll spawned recv fates,
      (p.dispatch m).1 =
        { p with futs := futs, coll := coll, spawned := spawned, recv := recv, fates := fates } ∧
      ((∃ f, aget m.id p.coll = some f ∧ p.futs[f]? = some .pending ∧ coll = adel m.id p.coll ∧
          futs = p.futs.set f (.result m) ∧ spawned = p.spawned ∧ recv = p.recv ++ [m] ∧
          fates = p.fates ++ [.answered f] ∧ (p.dispatch m).2 = none) ∨
        (((aget m.id p.coll = none ∧ coll = p.coll) ∨
            (∃ f, aget m.id p.coll = some f ∧ p.futs[f]? = some .cancelled ∧ coll = adel m.id p.coll)) ∧
          futs = p.futs ∧ recv = p.recv ++ [m] ∧ (p.dispatch m).2 = none ∧
          ((∃ h, aget m.code p.cbs = some h ∧ spawned = p.spawned ++ [(h, m.data)] ∧
              fates = p.fates ++ [.handled h]) ∨
            (aget m.code p.cbs = none ∧ spawned = p.spawned ∧ fates = p.fates ++ [.dropped]))) ∨
        (∃ f, aget m.id p.coll = some f ∧ p.futs[f]? ≠ some .pending ∧ p.futs[f]? ≠ some .cancelled ∧
          coll = adel m.id p.coll ∧ futs = p.futs ∧ spawned = p.spawned ∧ recv = p.recv ∧
          fates = p.fates ∧ (p.dispatch m).2 = some .slError)) := by
  unfold Proto.dispatch Proto.toCallback
  cases ha : aget m.id p.coll with
  | none =>
    cases hc : aget m.code p.cbs with
    | none => exact ⟨_, _, _, _, _, rfl, .inr (.inl ⟨.inl ⟨rfl, rfl⟩, rfl, rfl, rfl, .inr ⟨rfl, rfl, rfl⟩⟩)⟩
    | some h =>
      exact ⟨_, _, _, _, _, rfl, .inr (.inl ⟨.inl ⟨rfl, rfl⟩, rfl, rfl, rfl, .inl ⟨h, rfl, rfl, rfl⟩⟩)⟩
  | some f =>
    dsimp -failIfUnchanged only
    cases hf : p.futs[f]? with
    | none =>
      exact ⟨_, _, _, _, _, rfl, .inr (.inr ⟨f, rfl, by simp [hf], by simp [hf], rfl, rfl, rfl, rfl, rfl, rfl⟩)⟩
    | some s =>
      cases s with
      | pending =>
        exact ⟨_, _, _, _, _, rfl, .inl ⟨f, rfl, hf, rfl, rfl, rfl, rfl, rfl, rfl⟩⟩
      | result m' =>
        exact ⟨_, _, _, _, _, rfl, .inr (.inr ⟨f, rfl, by simp [hf], by simp [hf], rfl, rfl, rfl, rfl, rfl, rfl⟩)⟩
      | cancelled =>
            cases hc : aget m.code p.cbs with
        | none =>
          exact ⟨_, _, _, _, _, rfl, .inr (.inl ⟨.inr ⟨f, rfl, hf, rfl⟩, rfl, rfl, rfl, .inr ⟨rfl, rfl, rfl⟩⟩)⟩
        | some h =>
          exact ⟨_, _, _, _, _, rfl, .inr (.inl ⟨.inr ⟨f, rfl, hf, rfl⟩, rfl, rfl, rfl, .inl ⟨h, rfl, rfl, rfl⟩⟩)⟩

/-! ## The atomic changes of a protocol object -/

/-- One change of a protocol object. -/
inductive PAtom : Proto → Proto → Prop
  | send (p code data) : PAtom p (Proto.awaitSend p code data).1
  | cancelFut (p f) : PAtom p (Proto.cancelFut p f)
  | setBuff (p b) : Incomplete b → PAtom p { p with buff := b }
  | dispatch (p m) : p.closing = false → PAtom p (Proto.dispatch p m).1
  | cancelAll (p) : PAtom p p.cancelAll
  | lost (p) : PAtom p p.connectionLost
  | tclose (p : Proto) : PAtom p { p with tclosing := true }
  | closing (p : Proto) : PAtom p { p with closing := true }
  | setCbs (p : Proto) (c) : PAtom p { p with cbs := c }
  | enable (p a) : PAtom p (Proto.enableKeepalive p a)
  | disable (p) : PAtom p p.disableKeepalive
  | fire (p i) : PAtom p (Proto.timerFire p i)

/-- Any number of changes. -/
inductive PSteps : Proto → Proto → Prop
  | refl (p) : PSteps p p
  | tail {p q r} : PSteps p q → PAtom q r → PSteps p r

theorem PSteps.one {p q : Proto} (h : PAtom p q) : PSteps p q := .tail (.refl p) h

theorem PSteps.trans {p q r : Proto} (h : PSteps p q) (h' : PSteps q r) : PSteps p r := by
  induction h' with
  | refl => exact h
  | tail _ a ih => exact .tail ih a

theorem dispatch_closing (p : Proto) (m : Msg) : (p.dispatch m).1.closing = p.closing := by
  obtain ⟨futs, coll, spawned, recv, fates, h, -⟩ := dispatch_spec p m
  rw [h]

theorem dispatchAll_steps (ms : List Msg) : ∀ (p : Proto), p.closing = false →
    PSteps p (p.dispatchAll ms).1 := by
  induction ms with
  | nil => intro p _; exact .refl p
  | cons m ms ih =>
    intro p hc
    unfold Proto.dispatchAll
    have ha := PAtom.dispatch p m hc
    have hcc := dispatch_closing p m
    split
    · rename_i p' h
      rw [h] at ha hcc
      exact (PSteps.one ha).trans (ih p' (by rw [hcc]; exact hc))
    · rename_i p' e h
      rw [h] at ha
      exact PSteps.one ha

theorem dataReceived_eq (p : Proto) (c : Bytes) (hc : p.closing = false) :
    ∃ ms fs tail, p.dataReceived c = ({ p with buff := tail } : Proto).dispatchAll ms ∧ Packed ms fs ∧
      p.buff ++ c = fs.flatten ++ tail ∧ Incomplete tail := by
  obtain ⟨ms, fs, tail, h, hp, hd, hi⟩ := completeMessages_spec p.buff c
  refine ⟨ms, fs, tail, ?_, hp, hd, hi⟩
  unfold Proto.dataReceived
  rw [hc, h]; rfl

theorem dataReceived_steps (p : Proto) (c : Bytes) : PSteps p (p.dataReceived c).1 := by
  cases hc : p.closing
  · obtain ⟨ms, fs, tail, h, -, -, hi⟩ := dataReceived_eq p c hc
    rw [h]
    exact (PSteps.one (.setBuff p tail hi)).trans (dispatchAll_steps ms _ hc)
  · unfold Proto.dataReceived
    rw [hc]; exact .refl p

theorem startAttempt_steps (w : World) (t : Nat) (r : Req) : PSteps w.p (w.startAttempt t r).p := by
  have ha := PAtom.send w.p r.code r.data
  unfold World.startAttempt
  split
  · exact .refl _
  · split
    · exact .refl _
    · split
      · rename_i h; rw [h] at ha; exact .one ha
      · rename_i h; rw [h] at ha
        simp only
        split <;> exact .one ha

theorem cancelFuts_steps (l : List Nat) : ∀ p : Proto, PSteps p (l.foldl Proto.cancelFut p) := by
  induction l with
  | nil => exact fun p => .refl p
  | cons f l ih => exact fun p => (PSteps.one (.cancelFut p f)).trans (ih _)

theorem step_steps (w : World) (e : Event) : PSteps w.p (w.step e).p := by
  cases e with
  | call => exact .refl _
  | run t =>
    simp only [World.step]
    split
    · split
      · exact startAttempt_steps _ _ _
      · exact .refl _
    · exact .refl _
  | resume t =>
    simp only [World.step]
    repeat' (first | exact .refl _ | split)
  | timeout t =>
    simp only [World.step]
    repeat' (first | exact .refl _ | exact .one (.cancelFut _ _) | split)
  | cancel t =>
    simp only [World.step]
    repeat' (first | exact .refl _ | exact .one (.cancelFut _ _) | split)
  | wake t =>
    simp only [World.step]
    split
    · split
      · exact startAttempt_steps _ _ _
      · exact .refl _
    · exact .refl _
  | data c => exact dataReceived_steps _ _
  | lost =>
    simp only [World.step]
    split
    · exact .one (.lost _)
    · exact .refl _
  | cleanup =>
    simp only [World.step]
    split
    · exact .one (.cancelAll _)
    · exact .refl _
  | peerClose => exact .one (.tclose _)
  | close force =>
    have h1 : PSteps w.p { w.p with closing := true } := .one (.closing _)
    have h2 : PSteps { w.p with closing := true } ({ w.p with closing := true } : Proto).cancelAll := .one (.cancelAll _)
    simp only [World.step, World.closeTail]
    split
    · refine PSteps.trans ?_ (.one (.tclose _))
      split
      · exact h1.trans h2
      · exact h1
    · split
      · exact h1.trans h2
      · exact h1
  | closeResume c =>
    simp only [World.step, World.closeTail]
    repeat' (first | exact .refl _ | exact .one (.tclose _) | split)
  | closeFinish c =>
    simp only [World.step]
    repeat' (first | exact .refl _ | split)
  | closeCancel c =>
    simp only [World.step]
    split
    · exact cancelFuts_steps _ _
    · exact .refl _
    · exact .refl _
  | register c h => exact .one (.setCbs _ _)
  | unregister c => exact .one (.setCbs _ _)
  | unregisterAll => exact .one (.setCbs _ _)
  | enableKeepalive a => exact .one (.enable _ _)
  | disableKeepalive => exact .one (.disable _)
  | timerFire i => exact .one (.fire _ _)

theorem run_steps (es : List Event) : ∀ (w : World), PSteps w.p (w.run es).p := by
  induction es with
  | nil => intro w; exact .refl _
  | cons e es ih => intro w; exact (step_steps w e).trans (ih _)

theorem PSteps.preserves {P : Proto → Prop} (h : ∀ p q, PAtom p q → P p → P q) {p q : Proto}
    (hs : PSteps p q) (hp : P p) : P q := by
  induction hs with
  | refl => exact hp
  | tail _ a ih => exact h _ _ a ih

/-- A property preserved by every change of the protocol holds after every history. -/
theorem run_inv {P : Proto → Prop} (h0 : P {}) (h : ∀ p q, PAtom p q → P p → P q) (es : List Event) :
    P (World.init.run es).p :=
  (run_steps es World.init).preserves h h0

end SL
