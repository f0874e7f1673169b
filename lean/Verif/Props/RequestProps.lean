import Verif.Lemmas.Requests
/-! # C17, C21–C26: closing and request calls -/
namespace SL
open Spec

/-! ## C17: replies during a graceful close -/

/-- **C17 is false.** Once a close has begun — graceful or not — whatever bytes arrive change nothing, so
no reply can answer any request. -/
theorem C17_refuted_replies_ignored (es es' : List Event) (force : Bool) (chunk : Bytes) :
    World.init.run (es ++ .close force :: es' ++ [.data chunk]) =
      World.init.run (es ++ .close force :: es') := by
  rw [run_append]
  have hc := C18_close_closes es es' force
  generalize World.init.run (es ++ .close force :: es') = w at *
  simp only [World.run, List.foldl_cons, List.foldl_nil, World.step, Proto.dataReceived, hc, if_true]

/-- **C17**, the concrete failure: a request is outstanding, a graceful close begins, the right reply
arrives, and the request is still unanswered; without the close the same reply answers it. -/
theorem C17_refuted_example :
    let reply := frame 0 8121 [1]
    (World.init.run [.call 8120 [] 0, .run 0, .close false, .data reply]).p.futs = [.pending] ∧
    (World.init.run [.call 8120 [] 0, .run 0, .data reply]).p.futs = [.result ⟨0, 8121, [1]⟩] := by
  decide

/-- **C17**, what does hold: a graceful close itself cancels nothing and keeps waiting (the transport
is left open) as long as some outstanding request is pending and none was cancelled.  Missing: replies
arriving meanwhile are not delivered. -/
theorem C17_close_waits_partial (es : List Event) (f : Nat)
    (hreg : f ∈ (World.init.run es).p.coll.map (·.2)) :
    let w := World.init.run es
    let w' := World.init.run (es ++ [.close false])
    w'.p.futs = w.p.futs ∧ w'.p.tclosing = w.p.tclosing ∧
    (w.p.futs[f]? = some .pending → (∀ g ∈ w.p.coll.map (·.2), w.p.futs[g]? ≠ some .cancelled) →
      w'.step (.closeResume w.closers.length) = w') := by
  intro w w'
  have hne : (w.p.coll.map (·.2)).isEmpty = false := by
    cases hcc : w.p.coll.map (·.2) with
    | nil => have : f ∈ w.p.coll.map (·.2) := hreg
             rw [hcc] at this; simp at this
    | cons => rfl
  have hw' : w' = { w with p := { w.p with closing := true },
                           closers := w.closers ++ [.gathering (w.p.coll.map (·.2))] } := by
    show World.init.run (es ++ [.close false]) = _
    rw [run_append]
    show w.step (.close false) = _
    simp only [World.step, hne, Bool.false_eq_true, if_false]
  rw [hw']
  refine ⟨rfl, rfl, ?_⟩
  intro hp hall
  simp only [World.step]
  rw [List.getElem?_append_right (Nat.le_refl _)]
  simp only [Nat.sub_self, List.getElem?_cons_zero]
  have hgd : gatherDone { w.p with closing := true } (w.p.coll.map (·.2)) = false := by
    unfold gatherDone
    simp only [Bool.or_eq_false_iff]
    refine ⟨?_, ?_⟩
    · rw [Bool.eq_false_iff]
      intro h
      rw [List.all_eq_true] at h
      have := h f hreg
      simp only [bne_iff_ne] at this
      exact this hp
    · rw [Bool.eq_false_iff]
      intro h
      rw [List.any_eq_true] at h
      obtain ⟨g, hg, hg2⟩ := h
      exact hall g hg (by simpa using hg2)
  rw [hgd]; rfl

/-! ## C21: graceful close terminates -/

/-- **C21 is false.** A request with a code that does not fit the header is refused at packing, yet stays
registered: after the calls below the graceful close never gets past waiting, whatever happens — data,
time-outs, cancellations of requests, further requests, graceful closes — short of a forced close, a lost
connection or the cancellation of a close. -/
theorem C21_refuted_stuck (es : List Event) (h1 : .close true ∉ es) (h2 : .lost ∉ es) (h3 : ∀ c, .closeCancel c ∉ es) :
    let w := World.init.run ([.call 70000 [] 1, .run 0, .close false] ++ es)
    (∃ r, w.reqs[0]? = some r ∧ r.phase = .done (.raised .structError)) ∧
    w.closers[0]? = some (.gathering [0]) ∧ w.p.futs[0]? = some .pending := by
  intro w
  have hw : w = (World.init.run [.call 70000 [] 1, .run 0, .close false]).run es := run_append _ _ _
  rw [hw]
  have key : ∀ (es : List Event) (w : World), .close true ∉ es → .lost ∉ es → (∀ c, .closeCancel c ∉ es) →
      ((∃ r, w.reqs[0]? = some r ∧ r.phase = .done (.raised .structError)) ∧
        w.closers[0]? = some (.gathering [0]) ∧ w.p.futs[0]? = some .pending ∧ w.p.closing = true ∧
        w.cleanups = 0 ∧ (∀ (t : Nat) (r : Req), w.reqs[t]? = some r → ∀ ex cr, r.phase ≠ .waiting 0 ex cr)) →
      (∃ r, (w.run es).reqs[0]? = some r ∧ r.phase = .done (.raised .structError)) ∧
        (w.run es).closers[0]? = some (.gathering [0]) ∧ (w.run es).p.futs[0]? = some .pending := by
    intro es
    induction es with
    | nil => intro w _ _ _ h; exact ⟨h.1, h.2.1, h.2.2.1⟩
    | cons e es ih =>
      intro w hn1 hn2 hn3 ⟨i1, i2, i3, i4, i5, i6⟩
      have hn1' : .close true ∉ es := fun hm => hn1 (List.mem_cons_of_mem _ hm)
      have hn2' : .lost ∉ es := fun hm => hn2 (List.mem_cons_of_mem _ hm)
      have hn3' : ∀ c, .closeCancel c ∉ es := fun c hm => hn3 c (List.mem_cons_of_mem _ hm)
      refine ih (w.step e) hn1' hn2' hn3' ?_
      obtain ⟨r0, hr0, hp0⟩ := i1
      have hlen0 : 0 < w.p.futs.length := lt_of_getElem? i3
      have hset : ∀ (w' : World) (t : Nat) (r r' : Req), w'.reqs = w.reqs → w.reqs[t]? = some r →
          (∀ o, r.phase ≠ .done o) → (∀ ex cr, r'.phase ≠ .waiting 0 ex cr) →
          w'.closers = w.closers → w'.cleanups = 0 → w'.p.futs[0]? = some .pending → w'.p.closing = true →
          (∃ r, (w'.setReq t r').reqs[0]? = some r ∧ r.phase = .done (.raised .structError)) ∧
          (w'.setReq t r').closers[0]? = some (.gathering [0]) ∧
          (w'.setReq t r').p.futs[0]? = some .pending ∧ (w'.setReq t r').p.closing = true ∧
          (w'.setReq t r').cleanups = 0 ∧
          (∀ (t2 : Nat) (r2 : Req), (w'.setReq t r').reqs[t2]? = some r2 → ∀ ex cr, r2.phase ≠ .waiting 0 ex cr) := by
        intro w' t r r' a b c d a2 a3 a4 a5
        have hne : t ≠ 0 := by
          rintro rfl
          rw [hr0] at b; simp only [Option.some.injEq] at b; subst b
          exact c _ hp0
        refine ⟨⟨r0, ?_, hp0⟩, by simp only [World.setReq]; rw [a2]; exact i2, a4, a5, a3, ?_⟩
        · simp only [World.setReq, a, List.getElem?_set, if_neg hne]; exact hr0
        · intro t2 r2 h2
          simp only [World.setReq, a, List.getElem?_set] at h2
          split at h2
          · split at h2
            · simp only [Option.some.injEq] at h2; subst h2; exact d
            · simp at h2
          · exact i6 t2 r2 h2
      have hnop : (∃ r, w.reqs[0]? = some r ∧ r.phase = .done (.raised .structError)) ∧
        w.closers[0]? = some (.gathering [0]) ∧ w.p.futs[0]? = some .pending ∧ w.p.closing = true ∧
        w.cleanups = 0 ∧ (∀ (t : Nat) (r : Req), w.reqs[t]? = some r → ∀ ex cr, r.phase ≠ .waiting 0 ex cr) :=
        ⟨⟨r0, hr0, hp0⟩, i2, i3, i4, i5, i6⟩
      have hstart : ∀ t r0 r, w.reqs[t]? = some r0 → (∀ o, r0.phase ≠ .done o) →
        (∃ r', (w.startAttempt t r).reqs[0]? = some r' ∧ r'.phase = .done (.raised .structError)) ∧
        (w.startAttempt t r).closers[0]? = some (.gathering [0]) ∧
        (w.startAttempt t r).p.futs[0]? = some .pending ∧ (w.startAttempt t r).p.closing = true ∧
        (w.startAttempt t r).cleanups = 0 ∧
        (∀ (t' : Nat) (r' : Req), (w.startAttempt t r).reqs[t']? = some r' → ∀ ex cr, r'.phase ≠ .waiting 0 ex cr) := by
        intro t r0 r hr hnd
        unfold World.startAttempt
        split
        · exact hset w t r0 _ rfl hr hnd (by simp) rfl i5 i3 i4
        · split
          · exact hset w t r0 _ rfl hr hnd (by simp) rfl i5 i3 i4
          · obtain ⟨futs, written, timers, kaStop, eq, hf, -, -⟩ := awaitSend_spec w.p r.code r.data
            have hok2 := awaitSend_ok w.p r.code r.data
            rcases hA : w.p.awaitSend r.code r.data with ⟨q, res⟩
            rw [hA] at eq hok2
            simp only at eq
            have hq0 : q.futs[0]? = some .pending := by
              rw [eq]; simp only [hf]; rw [List.getElem?_append_left hlen0]; exact i3
            have hqc : q.closing = true := by rw [eq]; exact i4
            cases res with
            | error er =>
              exact hset { w with p := q } t r0 _ rfl hr hnd (by simp) rfl i5 hq0 hqc
            | ok f =>
              have hff := hok2 f rfl
              simp only
              split
              · refine hset { w with p := q } t r0 _ rfl hr hnd ?_ rfl i5 hq0 hqc
                intro ex cr; unfold Req.onCancelled; split <;> simp
              · refine hset { w with p := q } t r0 _ rfl hr hnd ?_ rfl i5 hq0 hqc
                intro ex cr; simp only; intro hh; simp only [Phase.waiting.injEq] at hh; omega
      have hquiet : ∀ q : Proto, q.futs = w.p.futs → q.closing = w.p.closing →
        (∃ r, ({ w with p := q } : World).reqs[0]? = some r ∧ r.phase = .done (.raised .structError)) ∧
        ({ w with p := q } : World).closers[0]? = some (.gathering [0]) ∧
        ({ w with p := q } : World).p.futs[0]? = some .pending ∧ ({ w with p := q } : World).p.closing = true ∧
        ({ w with p := q } : World).cleanups = 0 ∧ (∀ (t : Nat) (r : Req), ({ w with p := q } : World).reqs[t]? = some r → ∀ ex cr, r.phase ≠ .waiting 0 ex cr) := by
        intro q a b
        exact ⟨⟨r0, hr0, hp0⟩, i2, by simp only; rw [a]; exact i3, by simp only; rw [b]; exact i4, i5, i6⟩
      cases e with
      | call code data maxRetries =>
        simp only [World.step]
        refine ⟨⟨r0, ?_, hp0⟩, i2, i3, i4, i5, ?_⟩
        · rw [List.getElem?_append_left (lt_of_getElem? hr0)]; exact hr0
        · intro t r hr
          rw [getElem?_append_one] at hr
          split at hr
          · exact i6 t r hr
          · split at hr
            · simp only [Option.some.injEq] at hr; subst hr; simp
            · simp at hr
      | run t =>
        simp only [World.step]
        split
        · rename_i r hr
          split
          · rename_i hp; exact hstart t r r hr (by rw [hp]; simp)
          · exact hnop
        · exact hnop
      | wake t =>
        simp only [World.step]
        split
        · rename_i r hr
          split
          · rename_i hp; exact hstart t r _ hr (by rw [hp]; simp)
          · exact hnop
        · exact hnop
      | resume t =>
        simp only [World.step]
        split
        · rename_i r hr
          split
          · rename_i f ex cr hp
            have hnd : ∀ o, r.phase ≠ .done o := by rw [hp]; simp
            have hend : ∀ e ex cr, (r.endAttempt e).phase ≠ .waiting 0 ex cr := by
              intro e ex cr; unfold Req.endAttempt; split <;> simp
            have hres : ∀ m ex cr, (r.onResult m).phase ≠ .waiting 0 ex cr := by
              intro m ex cr; unfold Req.onResult; split
              · simp
              · split
                · simp
                · exact hend _ _ _
            have hcan : ∀ c ex cr, (r.onCancelled c).phase ≠ .waiting 0 ex cr := by
              intro c ex cr; unfold Req.onCancelled; split <;> simp
            split
            · exact hnop
            · split
              · exact hset w t r _ rfl hr hnd (hcan _) rfl i5 i3 i4
              · split
                · refine hset w t r _ rfl hr hnd ?_ rfl i5 i3 i4
                  intro ex cr; unfold Req.onTimeout; split
                  · exact hres _ _ _
                  · exact hend _ _ _
                · split
                  · exact hset w t r _ rfl hr hnd (hres _) rfl i5 i3 i4
                  · exact hset w t r _ rfl hr hnd (hcan _) rfl i5 i3 i4
          · exact hnop
        · exact hnop
      | timeout t =>
        simp only [World.step]
        split
        · rename_i r hr
          split
          · rename_i f cr hp
            have hf0 : f ≠ 0 := by rintro rfl; exact i6 t r hr false cr hp
            refine hset _ t r _ rfl hr (by rw [hp]; simp) ?_ rfl i5 ?_ ?_
            · intro ex cr; simp only; intro hh; simp only [Phase.waiting.injEq] at hh; exact hf0 hh.1
            · simp only; rw [cancelFut_futs, if_neg (fun hh => hf0 hh.1.symm)]; exact i3
            · simp only; rw [cancelFut_eq]; exact i4
          · exact hnop
        · exact hnop
      | cancel t =>
        simp only [World.step]
        split
        · rename_i r hr
          split
          · rename_i hp; exact hset w t r _ rfl hr (by rw [hp]; simp) (by simp) rfl i5 i3 i4
          · rename_i f ex cr hp
            have hf0 : f ≠ 0 := by rintro rfl; exact i6 t r hr ex cr hp
            refine hset _ t r _ rfl hr (by rw [hp]; simp) ?_ rfl i5 ?_ ?_
            · intro ex cr; simp only; intro hh; simp only [Phase.waiting.injEq] at hh; exact hf0 hh.1
            · simp only; rw [cancelFut_futs, if_neg (fun hh => hf0 hh.1.symm)]; exact i3
            · simp only; rw [cancelFut_eq]; exact i4
          · rename_i hp; exact hset w t r _ rfl hr (by rw [hp]; simp) (by simp) rfl i5 i3 i4
          · exact hnop
        · exact hnop
      | data c =>
        have : (w.p.dataReceived c).1 = w.p := by unfold Proto.dataReceived; rw [i4]; rfl
        simp only [World.step, this]; exact hnop
      | lost => exact absurd List.mem_cons_self hn2
      | cleanup => simp only [World.step, i5]; exact hnop
      | peerClose => exact hquiet _ rfl rfl
      | close force =>
        cases force with
        | true => exact absurd List.mem_cons_self hn1
        | false =>
          have hc0 : (w.closers ++ [Closer.gathering (w.p.coll.map (·.2))])[0]? = some (.gathering [0]) := by
            rw [List.getElem?_append_left (lt_of_getElem? i2)]; exact i2
          have hl0 := lt_of_getElem? i2
          simp only [World.step, World.closeTail, Bool.false_eq_true, if_false]
          split
          · refine ⟨⟨r0, hr0, hp0⟩, ?_, i3, rfl, i5, i6⟩
            simp only; rw [List.getElem?_set, if_neg (by omega)]; exact hc0
          · exact ⟨⟨r0, hr0, hp0⟩, hc0, i3, rfl, i5, i6⟩
      | closeResume c =>
        simp only [World.step, World.closeTail]
        split
        · rename_i ch hc
          split
          · rename_i hg
            have hc0 : c ≠ 0 := by
              rintro rfl
              rw [i2] at hc; simp only [Option.some.injEq, Closer.gathering.injEq] at hc; subst hc
              simp [gatherDone, i3] at hg
            refine ⟨⟨r0, hr0, hp0⟩, ?_, i3, i4, i5, i6⟩
            simp only; rw [List.getElem?_set, if_neg hc0]; exact i2
          · exact hnop
        · exact hnop
      | closeFinish c =>
        simp only [World.step]
        split
        · rename_i hc
          have hc0 : c ≠ 0 := by rintro rfl; rw [i2] at hc; simp at hc
          split
          · refine ⟨⟨r0, hr0, hp0⟩, ?_, i3, i4, i5, i6⟩
            simp only; rw [List.getElem?_set, if_neg hc0]; exact i2
          · split
            · refine ⟨⟨r0, hr0, hp0⟩, ?_, i3, i4, i5, i6⟩
              simp only; rw [List.getElem?_set, if_neg hc0]; exact i2
            · exact hnop
        · exact hnop
      | closeCancel c => exact absurd List.mem_cons_self (hn3 c)
      | register c hh => exact hquiet _ rfl rfl
      | unregister c => exact hquiet _ rfl rfl
      | unregisterAll => exact hquiet _ rfl rfl
      | enableKeepalive a => exact hquiet _ rfl rfl
      | disableKeepalive =>
        refine hquiet _ ?_ ?_ <;> (simp only [Proto.disableKeepalive]; rw [stopKeepalive_eq])
      | timerFire i => refine hquiet _ ?_ ?_ <;> (simp only [Proto.timerFire]; split <;> rfl)
  apply key es _ h1 h2 h3
  refine ⟨⟨_, rfl, by decide⟩, by decide, by decide, by decide, by decide, ?_⟩
  intro t r hr ex cr
  have ht : t < 1 := lt_of_getElem? hr
  have : t = 0 := by omega
  subst this
  have h0 : (World.init.run [.call 70000 [] 1, .run 0, .close false]).reqs[0]?.map (·.phase) =
      some (.done (.raised .structError)) := by decide
  rw [hr] at h0
  simp only [Option.map_some, Option.some.injEq] at h0
  rw [h0]; simp

/-- One pass of the 2-second timers of all `n` calls. -/
def timeoutsUpTo (n : Nat) : List Event := (List.range n).map .timeout

theorem timeouts_reqs (n : Nat) : ∀ (w : World), (w.run (timeoutsUpTo n)).reqs.length = w.reqs.length ∧
    (w.run (timeoutsUpTo n)).closers = w.closers ∧
    ∀ t f, t < n → (∃ r, w.reqs[t]? = some r ∧ ∃ cr, r.phase = .waiting f false cr) →
      (w.run (timeoutsUpTo n)).p.futs[f]? ≠ some .pending := by
  induction n with
  | zero => intro w; exact ⟨rfl, rfl, by intro t f h; omega⟩
  | succ n ih =>
    intro w
    obtain ⟨i1, i2, i3⟩ := ih w
    have hr : w.run (timeoutsUpTo (n + 1)) = (w.run (timeoutsUpTo n)).step (.timeout n) := by
      unfold timeoutsUpTo
      rw [List.range_succ, List.map_append, run_append]; rfl
    -- timeouts of others leave call n alone
    have hkeep : ∀ (k t : Nat) (w : World), k ≤ t → (w.run (timeoutsUpTo k)).reqs[t]? = w.reqs[t]? := by
      intro k
      induction k with
      | zero => intro t w _; rfl
      | succ k ihk =>
        intro t w hk
        have hr : w.run (timeoutsUpTo (k + 1)) = (w.run (timeoutsUpTo k)).step (.timeout k) := by
          unfold timeoutsUpTo
          rw [List.range_succ, List.map_append, run_append]; rfl
        rw [hr]
        rw [← ihk t w (by omega)]
        simp only [World.step]
        split
        · split
          · simp only [World.setReq]; rw [List.getElem?_set, if_neg (by omega)]
          · rfl
        · rfl
    rw [hr]
    refine ⟨?_, ?_, ?_⟩
    · rw [← i1]; simp only [World.step]; split
      · split
        · simp [World.setReq]
        · rfl
      · rfl
    · rw [← i2]; simp only [World.step]; split
      · split
        · rfl
        · rfl
      · rfl
    · intro t f ht ⟨r, h1, cr, h2⟩
      by_cases htn : t = n
      · subst htn
        have h3 := hkeep t t w (Nat.le_refl _)
        rw [h1] at h3
        simp only [World.step, h3, h2]
        simp only [World.setReq]
        rw [cancelFut_futs]
        split
        · simp
        · rename_i hh; intro hp; exact hh ⟨rfl, hp⟩
      · have h3 := i3 t f (by omega) ⟨r, h1, cr, h2⟩
        have hlat := step_steps (w.run (timeoutsUpTo n)) (.timeout n)
        intro hp
        simp only [World.step] at hp
        split at hp
        · split at hp
          · simp only [World.setReq] at hp
            rw [cancelFut_futs] at hp
            split at hp
            · simp at hp
            · exact h3 hp
          · exact h3 hp
        · exact h3 hp

/-- **C21**, what does hold: if every request ever made fits the message header, then at any time a
graceful close that is waiting gets past it — it closes the transport — as soon as the timers of the
waiting calls have expired.  Missing: requests refused at packing (see `C21_refuted_stuck`). -/
theorem C21_close_proceeds_partial (es : List Event) (c : Nat) (children : List Nat)
    (hfit : ∀ code data k, .call code data k ∈ es → Fits code data)
    (hc : (World.init.run es).closers[c]? = some (.gathering children)) :
    let w := World.init.run es
    let w' := (w.run (timeoutsUpTo w.reqs.length)).step (.closeResume c)
    w'.closers[c]? = some .awaitClosed ∧ w'.p.tclosing = true := by
  intro w
  have hw : WorldOk es w := worldOk es
  obtain ⟨-, h2, h3⟩ := timeouts_reqs w.reqs.length w
  have hno : ∀ f : Nat, (w.run (timeoutsUpTo w.reqs.length)).p.futs[f]? ≠ some .pending := by
    intro f hf
    have hlat := run_later w (timeoutsUpTo w.reqs.length)
    -- f was pending before
    have hlen : (w.run (timeoutsUpTo w.reqs.length)).p.futs.length = w.p.futs.length := by
      have : ∀ (n : Nat) (w : World), (w.run (timeoutsUpTo n)).p.futs.length = w.p.futs.length := by
        intro n
        induction n with
        | zero => intro w; rfl
        | succ n ih =>
          intro w
          have hr : w.run (timeoutsUpTo (n + 1)) = (w.run (timeoutsUpTo n)).step (.timeout n) := by
            unfold timeoutsUpTo
            rw [List.range_succ, List.map_append, run_append]; rfl
          rw [hr, ← ih w]
          simp only [World.step]; split
          · split
            · simp only [World.setReq]; rw [cancelFut_length]
            · rfl
          · rfl
      exact this _ w
    have hfl := lt_of_getElem? hf
    rw [hlen] at hfl
    have hp : w.p.futs[f]? = some .pending := by
      cases hs : w.p.futs[f]? with
      | none => rw [List.getElem?_eq_none_iff] at hs; omega
      | some s =>
        cases s with
        | pending => rfl
        | result m => rw [hlat.result f m hs] at hf; simp at hf
        | cancelled => rw [hlat.cancelled f hs] at hf; simp at hf
    obtain ⟨t, r, a, b⟩ := hw.pending f hp
    rcases b with b | b
    · exact h3 t f (lt_of_getElem? a) ⟨r, a, false, b⟩ hf
    · exact b (hfit _ _ _ (hw.reqs t r a).called)
  have hc' : (w.run (timeoutsUpTo w.reqs.length)).closers[c]? = some (.gathering children) := by
    rw [h2]; exact hc
  have hcl := lt_of_getElem? hc'
  generalize w.run (timeoutsUpTo w.reqs.length) = v at *
  have hg : gatherDone v.p children = true := by
    unfold gatherDone
    rw [Bool.or_eq_true]
    left
    rw [List.all_eq_true]
    intro f _
    simp only [bne_iff_ne]
    exact hno f
  simp only [World.step, hc', hg, if_true, World.closeTail]
  simp [hcl]

/-- **C21** The end of any close: once it has closed the transport and the connection is reported lost,
it finishes; it returns, unless somebody has cancelled a close of this connection. -/
theorem C21_close_finishes (es : List Event) (c : Nat)
    (hc : (World.init.run es).closers[c]? = some .awaitClosed)
    (hl : (World.init.run es).p.connected = false) :
    ((World.init.run es).step (.closeFinish c)).closers[c]? = some .done ∨
    ((World.init.run es).step (.closeFinish c)).closers[c]? = some .cancelled ∧ ∃ i, .closeCancel i ∈ es := by
  have := ((worldOk es).closed hl).2
  have hcl := lt_of_getElem? hc
  cases hs : (World.init.run es).spoiled with
  | true =>
    right
    refine ⟨?_, spoiled_cancelled es hs⟩
    simp only [World.step, hc, hs, if_true]
    simp [hcl]
  | false =>
    left
    simp only [World.step, hc, hs, this, if_true, Bool.false_eq_true, if_false]
    simp [hcl]

/-- Non-trivial: both happen. -/
theorem C21_finishes_witness :
    (World.init.run [.close false, .lost, .closeFinish 0]).closers = [.done] ∧
    (World.init.run [.close false, .close false, .closeCancel 0, .lost, .closeFinish 1]).closers = [.cancelled, .cancelled] := by decide

/-! ## C22: bounded retries -/

/-- **C22** Whatever happens, call `t` has made at most `max_retries + 1` attempts, all with its own code
and payload and all under different numbers; nobody else used those numbers; and it has slept 1, 2, 3, …
seconds, at most `max_retries` times. -/
theorem C22_bounded (es : List Event) (t : Nat) (r : Req) (hr : (World.init.run es).reqs[t]? = some r) :
    (r.mine.length : Int) ≤ max (r.maxRetries + 1) 0 ∧
    r.mine.Nodup ∧
    (∀ f ∈ r.mine, (World.init.run es).p.calls[f]? = some (r.code, r.data)) ∧
    (∀ (t' : Nat) (r' : Req), (World.init.run es).reqs[t']? = some r' → t' ≠ t → ∀ f ∈ r.mine, f ∉ r'.mine) ∧
    r.sleeps = (List.range r.sleeps.length).map (· + 1) ∧
    (r.sleeps.length : Int) ≤ max r.maxRetries 0 := by
  have hw := worldOk es
  have h := hw.reqs t r hr
  have hcount : (r.mine.length : Int) ≤ max (r.maxRetries + 1) 0 ∧ (r.sleeps.length : Int) ≤ max r.maxRetries 0 := by
    cases hp : r.phase with
    | start => obtain ⟨h1, h2, h3⟩ := h.start hp; rw [h1, h3]; simp; omega
    | waiting f ex cr =>
      obtain ⟨init, h1, h2, h3, h4, -⟩ := h.waiting f ex cr hp
      rw [h1, h3]; simp only [List.length_append, List.length_singleton, h2]; omega
    | sleeping => obtain ⟨h1, h2, h3, -⟩ := h.sleeping hp; rw [h1, h2]; omega
    | done o =>
      obtain ⟨h1, h2, h3⟩ := h.doneCount o hp
      rcases h3 with ⟨h3, h4⟩ | ⟨h3, h4⟩
      · rw [h3, h4]; simp; omega
      · omega
  refine ⟨hcount.1, ?_, fun f hf => (h.mine f hf).2, ?_, h.sleeps, hcount.2⟩
  · exact h.order.imp (fun hab => Nat.ne_of_lt hab)
  · intro t' r' hr' hne f hf hf'
    exact hne (hw.disjoint t' t r' r f hr' hr hf' hf)

/-- **C22** Everything written on the connection is an attempt of some call. -/
theorem C22_only_calls_write (es : List Event) (n : Nat) (bs : Bytes)
    (h : (n, bs) ∈ (World.init.run es).p.written) :
    ∃ (t : Nat) (r : Req), (World.init.run es).reqs[t]? = some r ∧ n ∈ r.mine :=
  (worldOk es).owner n ((invWritten es).bound n bs h)

/-- How far a call is from its end. -/
def rank (p : Proto) (r : Req) : Nat :=
  match r.phase with
  | .start => 3 * r.maxRetries.toNat + 4
  | .waiting f _ _ =>
    if p.futs[f]? = some .pending then 3 * (r.maxRetries.toNat - r.attempt) + 3
    else 3 * (r.maxRetries.toNat - r.attempt) + 2
  | .sleeping => 3 * (r.maxRetries.toNat - r.attempt) + 1
  | .done _ => 0

/-- The event that moves a call on. -/
def Enabling (p : Proto) (t : Nat) (r : Req) (e : Event) : Prop :=
  match r.phase with
  | .start => e = .run t
  | .waiting f _ _ => if p.futs[f]? = some .pending then e = .timeout t else e = .resume t
  | .sleeping => e = .wake t
  | .done _ => False

theorem step_other (w : World) (e : Event) (t : Nat) (r : Req) (hr : w.reqs[t]? = some r)
    (h1 : e ≠ .run t) (h2 : e ≠ .resume t) (h3 : e ≠ .timeout t) (h4 : e ≠ .cancel t) (h5 : e ≠ .wake t) :
    (w.step e).reqs[t]? = some r := by
  have hset : ∀ (w' : World) (t' : Nat) (r' : Req), w'.reqs = w.reqs → t' ≠ t → (w'.setReq t' r').reqs[t]? = some r := by
    intro w' t' r' h hne
    simp only [World.setReq, h]; rw [List.getElem?_set, if_neg hne]; exact hr
  have hstart : ∀ t' r', t' ≠ t → (w.startAttempt t' r').reqs[t]? = some r := by
    intro t' r' hne
    unfold World.startAttempt
    split
    · exact hset w t' _ rfl hne
    · split
      · exact hset w t' _ rfl hne
      · split
        · exact hset _ t' _ rfl hne
        · simp only
          split <;> exact hset _ t' _ rfl hne
  cases e with
  | call => simp only [World.step]; rw [List.getElem?_append_left (lt_of_getElem? hr)]; exact hr
  | run t' =>
    have : t' ≠ t := fun h => h1 (by rw [h])
    simp only [World.step]
    repeat' (first | exact hr | exact hstart _ _ this | split)
  | resume t' =>
    have : t' ≠ t := fun h => h2 (by rw [h])
    simp only [World.step]
    repeat' (first | exact hr | exact hset _ _ _ rfl this | split)
  | timeout t' =>
    have : t' ≠ t := fun h => h3 (by rw [h])
    simp only [World.step]
    repeat' (first | exact hr | exact hset _ _ _ rfl this | split)
  | cancel t' =>
    have : t' ≠ t := fun h => h4 (by rw [h])
    simp only [World.step]
    repeat' (first | exact hr | exact hset _ _ _ rfl this | split)
  | wake t' =>
    have : t' ≠ t := fun h => h5 (by rw [h])
    simp only [World.step]
    repeat' (first | exact hr | exact hstart _ _ this | split)
  | lost => simp only [World.step]; split <;> exact hr
  | cleanup => simp only [World.step]; split <;> exact hr
  | close force => simp only [World.step, World.closeTail]; split <;> exact hr
  | closeResume c => simp only [World.step, World.closeTail]; repeat' (first | exact hr | split)
  | closeFinish c => simp only [World.step]; repeat' (first | exact hr | split)
  | closeCancel c => simp only [World.step]; repeat' (first | exact hr | split)
  | data | peerClose | register | unregister | unregisterAll | enableKeepalive | disableKeepalive | timerFire => exact hr

theorem rank_later {p q : Proto} {r : Req} (hm : ∀ f ∈ r.mine, f < p.futs.length)
    (hf : ∀ f ex cr, r.phase = .waiting f ex cr → f ∈ r.mine) (hl : Later p q) : rank q r ≤ rank p r := by
  unfold rank
  split <;> try exact Nat.le_refl _
  rename_i f ex cr hp
  have hfl := hm f (hf f ex cr hp)
  cases hs : p.futs[f]? with
  | none => rw [List.getElem?_eq_none_iff] at hs; omega
  | some s =>
    cases s with
    | pending => simp only [if_true]; split <;> omega
    | result m => rw [hl.result f m hs]; simp
    | cancelled => rw [hl.cancelled f hs]; simp

theorem rank_endAttempt (p : Proto) (r : Req) (e : PyErr) :
    rank p (r.endAttempt e) ≤ 3 * (r.maxRetries.toNat - r.attempt) + 1 ∧ (r.endAttempt e).maxRetries = r.maxRetries := by
  unfold Req.endAttempt
  split
  · exact ⟨by simp [rank], rfl⟩
  · exact ⟨by simp [rank], rfl⟩

theorem rank_onResult (p : Proto) (r : Req) (m : Msg) :
    rank p (r.onResult m) ≤ 3 * (r.maxRetries.toNat - r.attempt) + 1 ∧ (r.onResult m).maxRetries = r.maxRetries := by
  unfold Req.onResult
  split
  · simp [rank]
  · split
    · simp [rank]
    · exact rank_endAttempt p r _

theorem rank_onTimeout (p : Proto) (r : Req) (s : Option FutState) :
    rank p (r.onTimeout s) ≤ 3 * (r.maxRetries.toNat - r.attempt) + 1 ∧ (r.onTimeout s).maxRetries = r.maxRetries := by
  unfold Req.onTimeout
  split
  · exact rank_onResult p r _
  · exact rank_endAttempt p r _

theorem rank_onCancelled (p : Proto) (r : Req) (c : Bool) :
    rank p (r.onCancelled c) = 0 ∧ (r.onCancelled c).maxRetries = r.maxRetries := by
  unfold Req.onCancelled; split <;> simp [rank]

theorem rank_startAttempt (w : World) (t : Nat) (r : Req) (ht : t < w.reqs.length) :
    ∃ r', (w.startAttempt t r).reqs[t]? = some r' ∧ r'.maxRetries = r.maxRetries ∧
      rank (w.startAttempt t r).p r' ≤ 3 * (r.maxRetries.toNat - r.attempt) + 3 := by
  have hset : ∀ (w' : World) (r' : Req), w'.reqs = w.reqs → (w'.setReq t r').reqs[t]? = some r' := by
    intro w' r' h; simp only [World.setReq, h]; simp [ht]
  unfold World.startAttempt
  split
  · exact ⟨_, hset w _ rfl, rfl, by simp [rank]⟩
  · split
    · exact ⟨_, hset w _ rfl, rfl, by simp [rank]⟩
    · split
      · exact ⟨_, hset _ _ rfl, rfl, by simp [rank]⟩
      · simp only
        split
        · refine ⟨_, hset _ _ rfl, (rank_onCancelled {} _ _).2, ?_⟩
          rw [(rank_onCancelled _ _ _).1]; omega
        · refine ⟨_, hset _ _ rfl, rfl, ?_⟩
          unfold rank; simp only; split <;> omega

theorem rank_step {es : List Event} {w : World} (hw : WorldOk es w) (e : Event) (t : Nat) (r : Req)
    (hr : w.reqs[t]? = some r) :
    ∃ r', (w.step e).reqs[t]? = some r' ∧ r'.maxRetries = r.maxRetries ∧
      rank (w.step e).p r' ≤ rank w.p r ∧ (Enabling w.p t r e → rank (w.step e).p r' < rank w.p r) := by
  have hR := hw.reqs t r hr
  have htl := lt_of_getElem? hr
  have hmine : ∀ f ∈ r.mine, f < w.p.futs.length := fun f hf => (hR.mine f hf).1
  have hwm : ∀ f ex cr, r.phase = .waiting f ex cr → f ∈ r.mine := by
    intro f ex cr hp
    obtain ⟨init, h1, -⟩ := hR.waiting f ex cr hp
    rw [h1]; simp
  have hset : ∀ (w' : World) (r' : Req), w'.reqs = w.reqs → (w'.setReq t r').reqs[t]? = some r' := by
    intro w' r' h; simp only [World.setReq, h]; simp [htl]
  have hsame : ¬ Enabling w.p t r e → (w.step e).reqs[t]? = some r → ∃ r', (w.step e).reqs[t]? = some r' ∧
      r'.maxRetries = r.maxRetries ∧
      rank (w.step e).p r' ≤ rank w.p r ∧ (Enabling w.p t r e → rank (w.step e).p r' < rank w.p r) := by
    intro hn h
    exact ⟨r, h, rfl, rank_later hmine hwm (step_later w e), fun he => absurd he hn⟩
  by_cases h1 : e = .run t
  · subst h1
    by_cases hp : r.phase = .start
    · obtain ⟨s1, s2, s3⟩ := hR.start hp
      obtain ⟨r', a, b, c⟩ := rank_startAttempt w t r htl
      have hst : w.step (.run t) = w.startAttempt t r := by simp only [World.step, hr, hp, if_true]
      rw [hst]
      have hrk : rank w.p r = 3 * r.maxRetries.toNat + 4 := by unfold rank; rw [hp]
      refine ⟨r', a, b, by omega, fun _ => by omega⟩
    · apply hsame
      · unfold Enabling; split
        · rename_i h; exact absurd h hp
        · split <;> simp
        · simp
        · simp
      · simp only [World.step, hr, if_neg hp]
  by_cases h5 : e = .wake t
  · subst h5
    by_cases hp : r.phase = .sleeping
    · obtain ⟨s1, s2, s3, -⟩ := hR.sleeping hp
      obtain ⟨r', a, b, c⟩ := rank_startAttempt w t { r with attempt := r.attempt + 1, phase := .start } htl
      have hst : w.step (.wake t) = w.startAttempt t { r with attempt := r.attempt + 1, phase := .start } := by
        simp only [World.step, hr, hp, if_true]
      rw [hst]
      have hrk : rank w.p r = 3 * (r.maxRetries.toNat - r.attempt) + 1 := by unfold rank; rw [hp]
      simp only at c
      refine ⟨r', a, b, by omega, fun _ => by omega⟩
    · apply hsame
      · unfold Enabling; split
        · simp
        · split <;> simp
        · rename_i h; exact absurd h hp
        · simp
      · simp only [World.step, hr, if_neg hp]
  by_cases h3 : e = .timeout t
  · subst h3
    by_cases hp : ∃ f cr, r.phase = .waiting f false cr
    · obtain ⟨f, cr, hp⟩ := hp
      have hst : w.step (.timeout t) = { w with p := w.p.cancelFut f }.setReq t { r with phase := .waiting f true cr } := by
        simp only [World.step, hr, hp]
      rw [hst]
      refine ⟨_, hset _ _ rfl, rfl, ?_, ?_⟩
      · have := rank_later hmine hwm (Later.atom (PAtom.cancelFut w.p f))
        unfold rank at this ⊢
        rw [hp] at this ⊢
        exact this
      · intro _
        have hfl := hmine f (hwm f _ _ hp)
        have hnp : (w.p.cancelFut f).futs[f]? ≠ some .pending := by
          rw [cancelFut_futs]; split
          · simp
          · rename_i hh; intro hpp; exact hh ⟨rfl, hpp⟩
        rename_i hen
        unfold Enabling at hen
        rw [hp] at hen
        simp only at hen
        have hpp : w.p.futs[f]? = some .pending := by
          by_cases hq : w.p.futs[f]? = some .pending
          · exact hq
          · rw [if_neg hq] at hen; simp at hen
        have e1 : rank w.p r = 3 * (r.maxRetries.toNat - r.attempt) + 3 := by
          unfold rank; rw [hp]; exact if_pos hpp
        have e2 : rank (w.p.cancelFut f) { r with phase := .waiting f true cr } =
            3 * (r.maxRetries.toNat - r.attempt) + 2 := by
          unfold rank; exact if_neg hnp
        show rank (w.p.cancelFut f) { r with phase := .waiting f true cr } < _
        omega
    · apply hsame
      · unfold Enabling; split
        · simp
        · rename_i f ex cr hph
          split
          · rename_i hpp
            intro _
            obtain ⟨init, w1, -, -, -, -, w6, -⟩ := hR.waiting f ex cr hph
            cases ex with
            | false => exact hp ⟨f, cr, hph⟩
            | true => exact (w6 rfl).2.not_pending hpp
          · simp
        · simp
        · simp
      · simp only [World.step, hr]
        split
        · rename_i f cr hph; exact absurd ⟨f, cr, hph⟩ hp
        · exact hr
  by_cases h4 : e = .cancel t
  · subst h4
    cases hp : r.phase with
    | start =>
      have hst : w.step (.cancel t) = w.setReq t { r with phase := .done (.raised .cancelled) } := by
        simp only [World.step, hr, hp]
      rw [hst]
      exact ⟨_, hset _ _ rfl, rfl, by simp [rank], by simp [Enabling, hp]⟩
    | waiting f ex cr =>
      have hst : w.step (.cancel t) = { w with p := w.p.cancelFut f }.setReq t { r with phase := .waiting f ex true } := by
        simp only [World.step, hr, hp]
      rw [hst]
      refine ⟨_, hset _ _ rfl, rfl, ?_, ?_⟩
      · have := rank_later hmine hwm (Later.atom (PAtom.cancelFut w.p f))
        unfold rank at this ⊢
        rw [hp] at this ⊢
        exact this
      · unfold Enabling; rw [hp]; simp only; split <;> simp
    | sleeping =>
      have hst : w.step (.cancel t) = w.setReq t { r with phase := .done (.raised .cancelled) } := by
        simp only [World.step, hr, hp]
      rw [hst]
      exact ⟨_, hset _ _ rfl, rfl, by simp [rank], by simp [Enabling, hp]⟩
    | done o =>
      apply hsame
      · simp [Enabling, hp]
      · simp only [World.step, hr, hp]
  by_cases h2 : e = .resume t
  · subst h2
    by_cases hp : ∃ f ex cr, r.phase = .waiting f ex cr
    · obtain ⟨f, ex, cr, hp⟩ := hp
      by_cases hpp : w.p.futs[f]? = some .pending
      · apply hsame
        · unfold Enabling; rw [hp]; simp only; rw [if_pos hpp]; simp
        · simp only [World.step, hr, hp, if_pos hpp]
      · have hrk : rank w.p r = 3 * (r.maxRetries.toNat - r.attempt) + 2 := by
          unfold rank; rw [hp]; simp only; rw [if_neg hpp]
        have fin : ∀ r' : Req, r'.maxRetries = r.maxRetries →
            rank w.p r' ≤ 3 * (r.maxRetries.toNat - r.attempt) + 1 →
            w.step (.resume t) = w.setReq t r' → ∃ r', (w.step (.resume t)).reqs[t]? = some r' ∧
              r'.maxRetries = r.maxRetries ∧ rank (w.step (.resume t)).p r' ≤ rank w.p r ∧
              (Enabling w.p t r (.resume t) → rank (w.step (.resume t)).p r' < rank w.p r) := by
          intro r' a b c
          rw [c]
          exact ⟨r', hset _ _ rfl, a, by show rank w.p r' ≤ _; omega, fun _ => by show rank w.p r' < _; omega⟩
        have hst : w.step (.resume t) = if cr then w.setReq t (r.onCancelled w.p.connected)
            else if ex then w.setReq t (r.onTimeout w.p.futs[f]?)
            else match w.p.futs[f]? with
              | some (.result m) => w.setReq t (r.onResult m)
              | _ => w.setReq t (r.onCancelled w.p.connected) := by
          simp only [World.step, hr, hp, if_neg hpp]
          cases cr <;> cases ex <;> rfl
        cases cr with
        | true =>
          refine fin _ (rank_onCancelled {} r w.p.connected).2 (by rw [(rank_onCancelled _ _ _).1]; omega) ?_
          rw [hst]; rfl
        | false =>
          cases ex with
          | true =>
            exact fin _ (rank_onTimeout {} r w.p.futs[f]?).2 (rank_onTimeout _ _ _).1 (by rw [hst]; rfl)
          | false =>
            simp only [Bool.false_eq_true, if_false] at hst
            cases hs : w.p.futs[f]? with
            | none =>
              refine fin _ (rank_onCancelled {} r w.p.connected).2 (by rw [(rank_onCancelled _ _ _).1]; omega) ?_
              rw [hst, hs]
            | some s =>
              cases s with
              | pending => exact absurd hs hpp
              | result m => exact fin _ (rank_onResult {} r m).2 (rank_onResult _ _ _).1 (by rw [hst, hs])
              | cancelled =>
                refine fin _ (rank_onCancelled {} r w.p.connected).2 (by rw [(rank_onCancelled _ _ _).1]; omega) ?_
                rw [hst, hs]
    · apply hsame
      · unfold Enabling; split
        · simp
        · rename_i f ex cr hph; exact absurd ⟨f, ex, cr, hph⟩ hp
        · simp
        · simp
      · simp only [World.step, hr]
        split
        · rename_i f ex cr hph; exact absurd ⟨f, ex, cr, hph⟩ hp
        · exact hr
  · have ho := step_other w e t r hr h1 h2 h3 h4 h5
    apply hsame _ ho
    unfold Enabling
    split
    · exact h1
    · split
      · exact h3
      · exact h2
    · exact h5
    · simp

theorem rank_run (es' : List Event) : ∀ {es : List Event} {w : World} {t : Nat} {r : Req}, WorldOk es w →
    w.reqs[t]? = some r →
    ∃ r', (w.run es').reqs[t]? = some r' ∧ r'.maxRetries = r.maxRetries ∧
      rank (w.run es').p r' ≤ rank w.p r ∧
      (.run t ∈ es' → .timeout t ∈ es' → .resume t ∈ es' → .wake t ∈ es' → rank w.p r = 0 ∨
        rank (w.run es').p r' < rank w.p r) := by
  induction es' with
  | nil => intro es w t r _ hr; exact ⟨r, hr, rfl, Nat.le_refl _, by simp⟩
  | cons e es' ih =>
    intro es w t r hw hr
    obtain ⟨r1, a1, b1, c1, d1⟩ := rank_step hw e t r hr
    obtain ⟨r2, a2, b2, c2, d2⟩ := ih (hw.step e) a1
    refine ⟨r2, a2, by rw [b2, b1], Nat.le_trans c2 c1, ?_⟩
    intro m1 m2 m3 m4
    have c2' : rank (w.run (e :: es')).p r2 ≤ rank (w.step e).p r1 := c2
    by_cases hen : Enabling w.p t r e
    · right; have := d1 hen; omega
    · by_cases hz : rank w.p r = 0
      · exact .inl hz
      · right
        by_cases hlt : rank (w.step e).p r1 < rank w.p r
        · omega
        · -- the rank did not move; the enabling event is still to come
          have key : ∀ (es' : List Event) (es : List Event) (w : World) (r : Req), WorldOk es w →
              w.reqs[t]? = some r → ∀ x, Enabling w.p t r x → x ∈ es' →
              ∃ r', (w.run es').reqs[t]? = some r' ∧ rank (w.run es').p r' < rank w.p r := by
            intro es'
            induction es' with
            | nil => intro es w r _ _ x _ hx; simp at hx
            | cons e es' ih2 =>
              intro es w r hw hr x hx hxm
              obtain ⟨r1, a1, b1, c1, d1⟩ := rank_step hw e t r hr
              by_cases hlt : rank (w.step e).p r1 < rank w.p r
              · obtain ⟨r2, a2, b2, c2, -⟩ := @ih (es ++ [e]) (w.step e) t r1 (hw.step e) a1
                obtain ⟨r3, a3, -, c3⟩ : ∃ r3, ((w.step e).run es').reqs[t]? = some r3 ∧ True ∧
                    rank ((w.step e).run es').p r3 ≤ rank (w.step e).p r1 := by
                  have : ∀ (l : List Event) (es : List Event) (w : World) (r : Req), WorldOk es w →
                      w.reqs[t]? = some r → ∃ r3, (w.run l).reqs[t]? = some r3 ∧ True ∧
                      rank (w.run l).p r3 ≤ rank w.p r := by
                    intro l
                    induction l with
                    | nil => intro es w r _ hr; exact ⟨r, hr, trivial, Nat.le_refl _⟩
                    | cons e l ih3 =>
                      intro es w r hw hr
                      obtain ⟨r1, a1, -, c1, -⟩ := rank_step hw e t r hr
                      obtain ⟨r2, a2, -, c2⟩ := ih3 _ _ r1 (hw.step e) a1
                      exact ⟨r2, a2, trivial, Nat.le_trans c2 c1⟩
                  exact this es' _ _ r1 (hw.step e) a1
                exact ⟨r3, a3, Nat.lt_of_le_of_lt c3 hlt⟩
              · -- not moved, so `e` was not enabling and the stage is the same
                have hne : ¬ Enabling w.p t r e := fun he => hlt (d1 he)
                have hxe : x ≠ e := fun h => hne (h ▸ hx)
                have hxm' : x ∈ es' := by
                  rw [List.mem_cons] at hxm; exact hxm.resolve_left hxe
                have heq : rank (w.step e).p r1 = rank w.p r := by omega
                have hx' : Enabling (w.step e).p t r1 x := by
                  have hR := hw.reqs t r hr
                  have hR1 := (hw.step e).reqs t r1 a1
                  unfold rank at heq
                  unfold Enabling at hx ⊢
                  revert hx
                  revert heq
                  cases hp : r.phase with
                  | start =>
                    cases hp1 : r1.phase with
                    | start => intro _ hx; exact hx
                    | waiting f ex cr => simp only [b1]; intro heq; split at heq <;> omega
                    | sleeping => simp only [b1]; intro heq; omega
                    | done o => simp only; intro heq; omega
                  | waiting f ex cr =>
                    cases hp1 : r1.phase with
                    | start => simp only [b1]; intro heq; split at heq <;> omega
                    | waiting f1 ex1 cr1 =>
                      simp only [b1]; intro heq
                      by_cases q1 : w.p.futs[f]? = some .pending <;>
                        by_cases q2 : (w.step e).p.futs[f1]? = some .pending
                      · rw [if_pos q1, if_pos q2]; exact id
                      · rw [if_pos q1, if_neg q2] at heq; omega
                      · rw [if_neg q1, if_pos q2] at heq; omega
                      · rw [if_neg q1, if_neg q2]; exact id
                    | sleeping => simp only [b1]; intro heq; split at heq <;> omega
                    | done o => simp only; intro heq; split at heq <;> omega
                  | sleeping =>
                    cases hp1 : r1.phase with
                    | start => simp only [b1]; intro heq; omega
                    | waiting f ex cr => simp only [b1]; intro heq; split at heq <;> omega
                    | sleeping => intro _ hx; exact hx
                    | done o => simp only; intro heq; omega
                  | done o => intro _ hx; exact absurd hx (by simp)
                obtain ⟨r2, a2, b2⟩ := ih2 _ _ r1 (hw.step e) a1 x hx' hxm'
                exact ⟨r2, a2, by rw [← heq]; exact b2⟩
          have hx : ∃ x, Enabling w.p t r x ∧ x ∈ e :: es' := by
            unfold Enabling
            unfold rank at hz
            revert hz
            cases hp : r.phase with
            | start => intro _; exact ⟨_, rfl, m1⟩
            | waiting f ex cr =>
              intro _; simp only
              by_cases q1 : w.p.futs[f]? = some .pending
              · exact ⟨_, (if_pos q1).symm ▸ rfl, m2⟩
              · exact ⟨_, (if_neg q1).symm ▸ rfl, m3⟩
            | sleeping => intro _; exact ⟨_, rfl, m4⟩
            | done o => intro hz; exact absurd rfl hz
          obtain ⟨x, hx, hxm⟩ := hx
          obtain ⟨r3, a3, c3⟩ := key (e :: es') es w r hw hr x hx hxm
          have a2' : (w.run (e :: es')).reqs[t]? = some r2 := a2
          rw [a2'] at a3
          simp only [Option.some.injEq] at a3
          subst a3
          exact c3

/-- **C22** Every request call ends.  Cut the future into rounds in each of which the call gets to run,
its timer has time to expire, it gets to resume and its sleep has time to end; everything else that
happens in the rounds is arbitrary.  Then after `3 * max_retries + 4` rounds the call is finished. -/
theorem C22_terminates (es : List Event) (t : Nat) (r : Req) (hr : (World.init.run es).reqs[t]? = some r)
    (rounds : List (List Event))
    (hfair : ∀ s ∈ rounds, .run t ∈ s ∧ .timeout t ∈ s ∧ .resume t ∈ s ∧ .wake t ∈ s)
    (hn : 3 * r.maxRetries.toNat + 4 ≤ rounds.length) :
    ∃ r' o, (World.init.run (es ++ rounds.flatten)).reqs[t]? = some r' ∧ r'.phase = .done o := by
  have key : ∀ (rounds : List (List Event)) (es : List Event) (w : World) (r : Req), WorldOk es w →
      w.reqs[t]? = some r → (∀ s ∈ rounds, .run t ∈ s ∧ .timeout t ∈ s ∧ .resume t ∈ s ∧ .wake t ∈ s) →
      rank w.p r ≤ rounds.length →
      ∃ r', (w.run rounds.flatten).reqs[t]? = some r' ∧ rank (w.run rounds.flatten).p r' = 0 := by
    intro rounds
    induction rounds with
    | nil => intro es w r hw hr _ hle; exact ⟨r, hr, by show rank w.p r = 0; simpa using hle⟩
    | cons s rounds ih =>
      intro es w r hw hr hf hle
      obtain ⟨f1, f2, f3, f4⟩ := hf s List.mem_cons_self
      obtain ⟨r1, a1, b1, c1, d1⟩ := rank_run s hw hr
      have hw1 : ∃ es1, WorldOk es1 (w.run s) := by
        clear a1 b1 c1 d1 hf f1 f2 f3 f4 hle ih hr
        induction s generalizing es w with
        | nil => exact ⟨es, hw⟩
        | cons e s ih => exact ih _ _ (hw.step e)
      obtain ⟨es1, hw1⟩ := hw1
      rw [List.flatten_cons, run_append]
      refine ih es1 (w.run s) r1 hw1 a1 (fun x hx => hf x (List.mem_cons_of_mem _ hx)) ?_
      simp only [List.length_cons] at hle
      rcases d1 f1 f2 f3 f4 with h | h <;> omega
  have hR := (worldOk es).reqs t r hr
  have hrank : rank (World.init.run es).p r ≤ 3 * r.maxRetries.toNat + 4 := by
    unfold rank
    cases hp : r.phase with
    | start => simp
    | waiting f ex cr => simp only; split <;> omega
    | sleeping => simp only; omega
    | done o => simp
  obtain ⟨r', a, b⟩ := key rounds es _ r (worldOk es) hr hfair (by omega)
  rw [run_append]
  refine ⟨r', ?_⟩
  unfold rank at b
  revert b
  cases hp : r'.phase with
  | start => simp
  | waiting f ex cr => simp only; split <;> omega
  | sleeping => simp
  | done o => intro _; exact ⟨o, a, rfl⟩

/-! ## C23: genuine answers -/

/-- **C23** Returned bytes are the payload of a received message that answered one of the call's own
attempts: it carries the id that attempt was sent with and the code `request code + 1`, and it arrived
after that attempt was issued. -/
theorem C23_genuine (es : List Event) (t : Nat) (r : Req) (d : Bytes)
    (hr : (World.init.run es).reqs[t]? = some r) (hd : r.phase = .done (.ret (some d))) :
    ∃ f ∈ r.mine, ∃ k i : Nat,
      (World.init.run es).p.recv[k]? = some ⟨((f % 32767 : Nat) : Int), r.code + 1, d⟩ ∧
      (World.init.run es).p.issuedAt[f]? = some i ∧ i ≤ k ∧
      (World.init.run es).p.fates[k]? = some (.answered f) := by
  obtain ⟨init, f, m, h1, h2, h3, h4⟩ := ((worldOk es).reqs t r hr).outcome _ hd
  have hrv := invRecv es
  obtain ⟨k, hk⟩ := hrv.result f m h2
  obtain ⟨m', i, a, b, c, e1, e2⟩ := hrv.answered k f hk
  rw [h2] at b; simp only [Option.some.injEq, FutState.result.injEq] at b; subst b
  refine ⟨f, by rw [h1]; simp, k, i, ?_, e1, e2, hk⟩
  rw [a, ← c, ← h3, ← h4]

/-! ## C24: error classification -/

/-- The error that describes an attempt: `none` for no reply within the time limit, `some c` for a reply
with code `c`. -/
def describes : Option Int → PyErr
  | none => .slConnection
  | some c => if c = 13 then .slLogin else if c = 30 ∨ c = 31 then .slRequest else .slResponse

/-- How attempt `f` ended. -/
def attemptReply (p : Proto) (f : Nat) : Option Int :=
  match p.futs[f]? with
  | some (.result m) => some m.code
  | _ => none

/-- **C24** If a call raised `e` then: either `e` describes its last attempt — which got no expected reply,
and, unless it was a rejected login, was attempt number `max_retries + 1` — or the connection is down and
`e` is a connection error, or the calling task was cancelled, or the request does not fit the message
header (`struct.error`).  No earlier attempt was answered as expected or with a rejected login. -/
theorem C24_classification (es : List Event) (t : Nat) (r : Req) (e : PyErr)
    (hr : (World.init.run es).reqs[t]? = some r) (hd : r.phase = .done (.raised e)) :
    ((∃ init f, r.mine = init ++ [f] ∧ e = describes (attemptReply (World.init.run es).p f) ∧
        attemptReply (World.init.run es).p f ≠ some (r.code + 1) ∧
        (e ≠ .slLogin → (r.mine.length : Int) = r.maxRetries + 1) ∧
        (attemptReply (World.init.run es).p f = none → .timeout t ∈ es)) ∨
      (e = .slConnection ∧ (World.init.run es).p.connected = false) ∨
      (e = .cancelled ∧ .cancel t ∈ es) ∨
      (e = .structError ∧ ¬ Fits r.code r.data)) ∧
    ∀ g ∈ r.mine.dropLast, attemptReply (World.init.run es).p g ≠ some (r.code + 1) ∧
      attemptReply (World.init.run es).p g ≠ some 13 := by
  have h := (worldOk es).reqs t r hr
  have ho := h.outcome _ hd
  constructor
  · cases e with
    | slLogin =>
      obtain ⟨init, f, m, h1, h2, h3, h4⟩ := ho
      left
      have : attemptReply (World.init.run es).p f = some 13 := by simp [attemptReply, h2, h3]
      refine ⟨init, f, h1, by rw [this]; rfl, by rw [this]; simp; omega, by simp, by rw [this]; simp⟩
    | slRequest =>
      obtain ⟨h0, init, f, m, h1, h2, h3, h4⟩ := ho
      left
      have : attemptReply (World.init.run es).p f = some m.code := by simp [attemptReply, h2]
      refine ⟨init, f, h1, ?_, by rw [this]; simpa using h4, fun _ => h0, by rw [this]; simp⟩
      have h13 : m.code ≠ 13 := by omega
      rw [this]; unfold describes
      simp only [if_neg h13, if_pos h3]
    | slResponse =>
      obtain ⟨h0, init, f, m, h1, h2, h3, h4, h5, h6⟩ := ho
      left
      have : attemptReply (World.init.run es).p f = some m.code := by simp [attemptReply, h2]
      refine ⟨init, f, h1, ?_, by rw [this]; simpa using h6, fun _ => h0, by rw [this]; simp⟩
      have h30 : ¬ (m.code = 30 ∨ m.code = 31) := by omega
      rw [this]; unfold describes
      simp only [if_neg h3, if_neg h30]
    | slConnection =>
      rcases ho with ho | ⟨h0, init, f, h1, h2, h3⟩
      · exact .inr (.inl ⟨rfl, ho⟩)
      · left
        have : attemptReply (World.init.run es).p f = none := by simp [attemptReply, h2]
        exact ⟨init, f, h1, by rw [this]; rfl, by rw [this]; simp, fun _ => h0, fun _ => h3⟩
    | cancelled => exact .inr (.inr (.inl ⟨rfl, ho⟩))
    | structError => exact .inr (.inr (.inr ⟨rfl, ho⟩))
    | _ => exact ho.elim
  · intro g hg
    unfold attemptReply
    rcases h.doneEarlier _ hd g hg with h1 | ⟨m, h1, h2, h3⟩
    · simp [h1]
    · rw [h1]; simp [h2, h3]

/-- **C24** A rejected login ends the call at the next step, without any further message. -/
theorem C24_login_at_once (es : List Event) (t f : Nat) (r : Req) (m : Msg) (ex : Bool)
    (hr : (World.init.run es).reqs[t]? = some r) (hp : r.phase = .waiting f ex false)
    (hm : (World.init.run es).p.futs[f]? = some (.result m)) (h13 : m.code = 13) (hc : r.code ≠ 12) :
    let w := World.init.run (es ++ [.resume t])
    (∃ r', w.reqs[t]? = some r' ∧ r'.phase = .done (.raised .slLogin) ∧ r'.mine = r.mine) ∧
    w.p.written = (World.init.run es).p.written := by
  intro w
  have hw : w = (World.init.run es).setReq t (r.onResult m) := by
    show World.init.run (es ++ [.resume t]) = _
    rw [run_append]
    show (World.init.run es).step (.resume t) = _
    simp only [World.step, hr, hp, hm]
    cases ex <;> simp [Req.onTimeout]
  have htl := lt_of_getElem? hr
  have hres : r.onResult m = { r with phase := .done (.raised .slLogin) } := by
    unfold Req.onResult
    rw [if_neg (by omega), if_pos h13]
  rw [hw, hres]
  exact ⟨⟨{ r with phase := .done (.raised .slLogin) }, by simp only [World.setReq]; simp [htl], rfl, rfl⟩, rfl⟩

/-- **C24** What a call has returned or raised never changes. -/
theorem C24_final (es es' : List Event) (t : Nat) (r : Req) (o : Outcome)
    (hr : (World.init.run es).reqs[t]? = some r) (hd : r.phase = .done o) :
    ∃ r', (World.init.run (es ++ es')).reqs[t]? = some r' ∧ r'.phase = .done o ∧ r'.mine = r.mine := by
  rw [run_append]
  generalize World.init.run es = w at *
  induction es' generalizing w with
  | nil => exact ⟨r, hr, hd, rfl⟩
  | cons e es' ih =>
    apply ih (w.step e)
    by_cases h : e = .run t ∨ e = .resume t ∨ e = .timeout t ∨ e = .cancel t ∨ e = .wake t
    · rcases h with h | h | h | h | h <;> subst h <;> simp [World.step, hr, hd]
    · simp only [not_or] at h
      exact step_other w e t r hr h.1 h.2.1 h.2.2.1 h.2.2.2.1 h.2.2.2.2

/-! ## C25: no connection, no traffic -/

/-- **C25** Once the connection is down nothing is ever written, and every call that starts or retries
raises a connection error. -/
theorem C25_disconnected (es es' : List Event) (hc : (World.init.run es).p.connected = false) :
    (World.init.run (es ++ es')).p.written = (World.init.run es).p.written ∧
    ∀ (t : Nat) (r : Req), (World.init.run (es ++ es')).reqs[t]? = some r → 0 ≤ r.maxRetries →
      (r.phase = .start →
        ∃ r', (World.init.run (es ++ es' ++ [.run t])).reqs[t]? = some r' ∧
          r'.phase = .done (.raised .slConnection) ∧ r'.mine = r.mine) ∧
      (r.phase = .sleeping →
        ∃ r', (World.init.run (es ++ es' ++ [.wake t])).reqs[t]? = some r' ∧
          r'.phase = .done (.raised .slConnection) ∧ r'.mine = r.mine) := by
  have hl := run_later (World.init.run es) es'
  have hc' : (World.init.run (es ++ es')).p.connected = false := by rw [run_append]; exact hl.disconnected hc
  refine ⟨by rw [run_append]; exact hl.quiet (.inr ((worldOk es).closed hc).1), ?_⟩
  intro t r hr hm
  have hR := (worldOk _).reqs t r hr
  have htl := lt_of_getElem? hr
  constructor
  · intro hp
    rw [run_append]
    generalize World.init.run (es ++ es') = w at *
    have h0 := (hR.start hp).2.1
    refine ⟨{ r with phase := .done (.raised .slConnection) }, ?_, rfl, rfl⟩
    simp only [World.run, List.foldl_cons, List.foldl_nil, World.step, hr, hp, if_true, World.startAttempt, hc']
    rw [if_neg (by omega)]
    simp [World.setReq, htl]
  · intro hp
    rw [run_append]
    generalize World.init.run (es ++ es') = w at *
    have h0 := (hR.sleeping hp).2.2.1
    refine ⟨{ r with attempt := r.attempt + 1, phase := .done (.raised .slConnection) }, ?_, rfl, rfl⟩
    simp only [World.run, List.foldl_cons, List.foldl_nil, World.step, hr, hp, if_true, World.startAttempt, hc']
    rw [if_neg (by omega)]
    simp [World.setReq, htl]

/-! ## C26: a call returns data or raises -/

/-- **C26 is false**: cancelling the calling task while it waits, or a forced close while connected, makes
the call return `None` (and the cancellation of the task is swallowed). -/
theorem C26_refuted :
    ((World.init.run [.call 8120 [] 3, .run 0, .cancel 0, .resume 0]).reqs[0]?.map (·.phase)) =
      some (.done (.ret none)) ∧
    ((World.init.run [.call 8120 [] 3, .run 0, .close true, .resume 0]).reqs[0]?.map (·.phase)) =
      some (.done (.ret none)) := by decide

theorem closing_history (es : List Event) (h : (World.init.run es).p.closing = true) :
    ∃ force, .close force ∈ es := by
  have key : ∀ (es : List Event) (w : World), w.p.closing = false → (w.run es).p.closing = true →
      ∃ force, .close force ∈ es := by
    intro es
    induction es with
    | nil => intro w h1 h2; rw [show w.run [] = w from rfl, h1] at h2; simp at h2
    | cons e es ih =>
      intro w h1 h2
      by_cases hc : (w.step e).p.closing = true
      · have : ∃ force, e = .close force := by
          cases e with
          | close force => exact ⟨force, rfl⟩
          | call => rw [show (w.step _).p = w.p from rfl, h1] at hc; simp at hc
          | data c =>
            exfalso
            have : (w.step (.data c)).p.closing = w.p.closing := by
              simp only [World.step]
              have aux : ∀ (ms : List Msg) (p : Proto), (p.dispatchAll ms).1.closing = p.closing := by
                intro ms
                induction ms with
                | nil => intro p; rfl
                | cons m ms ih =>
                  intro p
                  have := dispatch_closing p m
                  unfold Proto.dispatchAll
                  rcases hd : p.dispatch m with ⟨q, _ | er⟩
                  · rw [hd] at this; simp only at this ⊢; rw [ih, this]
                  · rw [hd] at this; exact this
              obtain ⟨ms, fs, t, e, -⟩ := dataReceived_eq w.p c h1
              rw [e]; exact aux ms _
            rw [this, h1] at hc; simp at hc
          | run t | wake t =>
            exfalso
            have hst : ∀ t r, (w.startAttempt t r).p.closing = w.p.closing := by
              intro t r
              obtain ⟨futs, written, timers, kaStop, e, -⟩ := awaitSend_spec w.p r.code r.data
              unfold World.startAttempt
              split
              · rfl
              · split
                · rfl
                · split
                  · rename_i h; rw [h] at e; simp only at e; simp only [World.setReq]; rw [e]; rfl
                  · rename_i h; rw [h] at e; simp only at e; simp only
                    split <;> (simp only [World.setReq]; rw [e]; rfl)
            simp only [World.step] at hc
            split at hc
            · split at hc
              · rw [hst, h1] at hc; simp at hc
              · rw [h1] at hc; simp at hc
            · rw [h1] at hc; simp at hc
          | resume t =>
            exfalso
            have : (w.step (.resume t)).p = w.p := by
              simp only [World.step]; repeat' (first | rfl | split)
            rw [this, h1] at hc; simp at hc
          | timeout t =>
            exfalso
            have : (w.step (.timeout t)).p.closing = w.p.closing := by
              simp only [World.step]
              repeat' (first | rfl | (simp only [World.setReq]; rw [cancelFut_eq]) | split)
            rw [this, h1] at hc; simp at hc
          | cancel t =>
            exfalso
            have : (w.step (.cancel t)).p.closing = w.p.closing := by
              simp only [World.step]
              repeat' (first | rfl | (simp only [World.setReq]; rw [cancelFut_eq]) | split)
            rw [this, h1] at hc; simp at hc
          | lost =>
            exfalso
            have : (w.step .lost).p.closing = w.p.closing := by
              simp only [World.step]; split
              · simp only [Proto.connectionLost]; rw [stopKeepalive_eq]
              · rfl
            rw [this, h1] at hc; simp at hc
          | cleanup =>
            exfalso
            have : (w.step .cleanup).p.closing = w.p.closing := by
              simp only [World.step]; split
              · simp only; rw [(cancelAll_spec _).1]
              · rfl
            rw [this, h1] at hc; simp at hc
          | closeResume c =>
            exfalso
            have : (w.step (.closeResume c)).p.closing = w.p.closing := by
              simp only [World.step, World.closeTail]; repeat' (first | rfl | split)
            rw [this, h1] at hc; simp at hc
          | closeFinish c =>
            exfalso
            have : (w.step (.closeFinish c)).p.closing = w.p.closing := by
              simp only [World.step]; repeat' (first | rfl | split)
            rw [this, h1] at hc; simp at hc
          | closeCancel c =>
            exfalso
            have : (w.step (.closeCancel c)).p.closing = w.p.closing := by
              simp only [World.step]; repeat' (first | rfl | (simp only; rw [(foldl_cancelFut _ _).1]) | split)
            rw [this, h1] at hc; simp at hc
          | disableKeepalive =>
            exfalso
            have : (w.step .disableKeepalive).p.closing = w.p.closing := by
              simp only [World.step, Proto.disableKeepalive]; rw [stopKeepalive_eq]
            rw [this, h1] at hc; simp at hc
          | timerFire i =>
            exfalso
            have : (w.step (.timerFire i)).p.closing = w.p.closing := by
              simp only [World.step, Proto.timerFire]; split <;> rfl
            rw [this, h1] at hc; simp at hc
          | peerClose | register | unregister | unregisterAll | enableKeepalive =>
            exfalso
            simp only [World.step, Proto.register, Proto.unregister, Proto.unregisterAll,
              Proto.enableKeepalive, Proto.setKeepalive] at hc
            rw [h1] at hc; simp at hc
        obtain ⟨force, hf⟩ := this
        exact ⟨force, by rw [hf]; exact List.mem_cons_self⟩
      · obtain ⟨force, hf⟩ := ih (w.step e) (by simpa using hc) h2
        exact ⟨force, List.mem_cons_of_mem _ hf⟩
  exact key es World.init rfl h

/-- **C26**, what does hold: a call returns `None` only if `max_retries` is negative, the calling task was
cancelled, or someone asked for a close.  Missing: those cases return `None` instead of raising. -/
theorem C26_none_partial (es : List Event) (t : Nat) (r : Req)
    (hr : (World.init.run es).reqs[t]? = some r) (hd : r.phase = .done (.ret none)) :
    r.maxRetries < 0 ∨ .cancel t ∈ es ∨ ∃ force, .close force ∈ es := by
  have := ((worldOk es).reqs t r hr).outcome _ hd
  exact this.imp id (fun h => h.imp id (closing_history es))

/-! ## The hypotheses are met -/

/-- A call that is answered with an error twice, then correctly. -/
def retried : List Event :=
  [.call 8120 [7] 3, .run 0, .data (frame 0 31 []), .resume 0, .wake 0, .timeout 0, .resume 0, .wake 0,
    .data (frame 2 8121 [9]), .resume 0]

example : ((World.init.run retried).reqs[0]?.map fun r => (r.phase, r.mine, r.sleeps)) =
    some (.done (.ret (some [9])), [0, 1, 2], [1, 2]) ∧
    (World.init.run retried).p.written.map (·.1) = [0, 1, 2] ∧
    ((World.init.run (retried.take 8 ++ [.timeout 0, .resume 0, .wake 0, .timeout 0, .resume 0])).reqs[0]?.map
      fun r => (r.phase, r.mine, r.sleeps)) =
      some (.done (.raised .slConnection), [0, 1, 2, 3], [1, 2, 3]) := by decide

example : ((World.init.run [.call 27 [7] 3, .run 0, .data (frame 0 13 [])]).reqs[0]?.map (·.phase)) =
      some (.waiting 0 false false) ∧
    ((World.init.run [.call 27 [7] 3, .run 0, .lost]).p.connected) = false ∧
    ((World.init.run [.call 27 [7] 3, .run 0, .close false]).closers) = [.gathering [0]] := by decide

end SL
