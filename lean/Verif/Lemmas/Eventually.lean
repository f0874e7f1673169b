import Verif.Lemmas.Provenance
import Verif.Lemmas.Wired
/-!
# Request calls and closings only move forward
-/
set_option linter.unusedVariables false

namespace SL

/-- How far a request call has got. -/
def Req.rank (q : Req) : Nat :=
  match q.phase with
  | .start => 4 * q.attempt
  | .waiting _ false _ => 4 * q.attempt + 1
  | .waiting _ true _ => 4 * q.attempt + 2
  | .sleeping => 4 * q.attempt + 3
  | .done _ => 4 * q.maxRetries.toNat + 4

/-- It has ended. -/
def Req.ended (q : Req) : Prop := ∃ o, q.phase = .done o

/-- What is known of a call that has begun. -/
structure Req.Good (q : Req) : Prop where
  begun : q.phase ≠ .start
  waiting : ∀ f e c, q.phase = .waiting f e c → (q.attempt : Int) ≤ q.maxRetries
  sleeping : q.phase = .sleeping → (q.attempt : Int) < q.maxRetries

/-- `q'` is `q` later on. -/
structure Req.Next (q q' : Req) : Prop where
  begun : q'.phase ≠ .start
  max : q'.maxRetries = q.maxRetries
  rank : q.rank ≤ q'.rank
  mine : q.mine <+: q'.mine

theorem Req.Next.refl {q : Req} (h : q.phase ≠ .start) : q.Next q := ⟨h, rfl, Nat.le_refl _, List.prefix_refl _⟩
theorem Req.Next.trans {a b c : Req} (h : a.Next b) (h' : b.Next c) : a.Next c := ⟨h'.begun, h'.max.trans h.max, Nat.le_trans h.rank h'.rank, h.mine.trans h'.mine⟩

theorem Req.Good.le {q : Req} (h : q.Good) : q.rank ≤ 4 * q.maxRetries.toNat + 4 := by
  unfold Req.rank
  split
  · rename_i e; exact absurd e h.begun
  · rename_i e; have := h.waiting _ _ _ e; omega
  · rename_i e; have := h.waiting _ _ _ e; omega
  · rename_i e; have := h.sleeping e; omega
  · exact Nat.le_refl _

theorem Req.Good.ended {q : Req} (h : q.Good) (hr : q.rank = 4 * q.maxRetries.toNat + 4) : q.ended := by
  unfold Req.rank at hr
  split at hr
  · rename_i e; exact absurd e h.begun
  · rename_i e; have := h.waiting _ _ _ e; omega
  · rename_i e; have := h.waiting _ _ _ e; omega
  · rename_i e; have := h.sleeping e; omega
  · rename_i o e; exact ⟨o, e⟩

theorem good_of {es : List Event} {t : Nat} {r : Req} {p : Proto} (h : ReqOk p es t r) (hb : r.phase ≠ .start) : r.Good :=
  ⟨hb, fun f e c hp => by obtain ⟨_, _, _, _, h4, _⟩ := h.waiting f e c hp; exact h4, fun hp => (h.sleeping hp).2.2.1⟩

theorem get_setReq (w : World) (t r : Nat) (q : Req) : (w.setReq t q).reqs[r]? = if t = r then (w.reqs[r]?).map (fun _ => q) else w.reqs[r]? := by
  simp only [World.setReq, List.getElem?_set]
  by_cases h : t = r
  · subst h
    rw [if_pos rfl, if_pos rfl]
    split
    · rename_i hl; rw [List.getElem?_eq_getElem hl]; rfl
    · rename_i hl; rw [List.getElem?_eq_none (by omega)]; rfl
  · rw [if_neg h, if_neg h]

/-- An attempt begins. -/
theorem start_next (w : World) (t : Nat) (q : Req) (r : Nat) :
    (t ≠ r → (w.startAttempt t q).reqs[r]? = w.reqs[r]?) ∧
    (∀ q0, w.reqs[t]? = some q0 → ∃ q', (w.startAttempt t q).reqs[t]? = some q' ∧ q'.maxRetries = q.maxRetries ∧ q.mine <+: q'.mine ∧
      (q'.ended ∨ ((q.attempt : Int) ≤ q.maxRetries ∧ q'.attempt = q.attempt ∧ ∃ f, q'.phase = .waiting f false false))) := by
  have key : ∀ (w' : World) (q' : Req), w'.reqs = w.reqs → q'.maxRetries = q.maxRetries → q.mine <+: q'.mine →
      (q'.ended ∨ ((q.attempt : Int) ≤ q.maxRetries ∧ q'.attempt = q.attempt ∧ ∃ f, q'.phase = .waiting f false false)) →
      (t ≠ r → (w'.setReq t q').reqs[r]? = w.reqs[r]?) ∧
      (∀ q0, w.reqs[t]? = some q0 → ∃ q'', (w'.setReq t q').reqs[t]? = some q'' ∧ q''.maxRetries = q.maxRetries ∧ q.mine <+: q''.mine ∧
        (q''.ended ∨ ((q.attempt : Int) ≤ q.maxRetries ∧ q''.attempt = q.attempt ∧ ∃ f, q''.phase = .waiting f false false))) := by
    intro w' q' hw hm hl hq
    refine ⟨fun h => by rw [get_setReq, if_neg h, hw], fun q0 h0 => ⟨q', ?_, hm, hl, hq⟩⟩
    rw [get_setReq, if_pos rfl, hw, h0]; rfl
  unfold World.startAttempt
  split
  · exact key w _ rfl rfl (List.prefix_refl _) (.inl ⟨_, rfl⟩)
  · rename_i hm
    split
    · exact key w _ rfl rfl (List.prefix_refl _) (.inl ⟨_, rfl⟩)
    · split
      · exact key _ _ rfl rfl (List.prefix_append _ _) (.inl ⟨_, rfl⟩)
      · rename_i p f hs
        simp only
        split
        · refine key _ _ rfl ?_ ?_ (.inl ?_)
          · simp only [Req.onCancelled]; split <;> rfl
          · simp only [Req.onCancelled]; split <;> exact List.prefix_append _ _
          · simp only [Req.onCancelled]; split <;> exact ⟨_, rfl⟩
        · exact key _ _ rfl rfl (List.prefix_append _ _) (.inr ⟨by omega, rfl, _, rfl⟩)

theorem rank_ended {q : Req} (h : q.ended) : q.rank = 4 * q.maxRetries.toNat + 4 := by
  obtain ⟨o, h⟩ := h
  simp only [Req.rank, h]

/-- A call that ends has got as far as one can. -/
theorem next_ended {q q' : Req} (hq : q.Good) (hm : q'.maxRetries = q.maxRetries) (hl : q.mine <+: q'.mine) (he : q'.ended) : q.Next q' := by
  refine ⟨by obtain ⟨o, h⟩ := he; rw [h]; simp, hm, ?_, hl⟩
  rw [rank_ended he, hm]; exact hq.le

theorem onCancelled_next {q : Req} (c : Bool) : (q.onCancelled c).maxRetries = q.maxRetries ∧ (q.onCancelled c).mine = q.mine ∧ (q.onCancelled c).ended := by
  simp only [Req.onCancelled]
  split <;> exact ⟨rfl, rfl, _, rfl⟩

theorem endAttempt_next {q : Req} {f : Nat} {e c : Bool} (hq : q.Good) (hp : q.phase = .waiting f e c) (er : PyErr) :
    (q.endAttempt er).maxRetries = q.maxRetries ∧ (q.endAttempt er).mine = q.mine ∧ ((q.endAttempt er).ended ∨ ((q.endAttempt er).phase = .sleeping ∧ (q.endAttempt er).attempt = q.attempt)) := by
  simp only [Req.endAttempt]
  split
  · exact ⟨rfl, rfl, .inl ⟨_, rfl⟩⟩
  · exact ⟨rfl, rfl, .inr ⟨rfl, rfl⟩⟩

/-- What the end of an attempt leads to. -/
def Req.Past (q q' : Req) : Prop := q'.maxRetries = q.maxRetries ∧ q'.mine = q.mine ∧ (q'.ended ∨ (q'.phase = .sleeping ∧ q'.attempt = q.attempt))

theorem onResult_past {q : Req} {f : Nat} {e c : Bool} (hq : q.Good) (hp : q.phase = .waiting f e c) (m : Msg) : q.Past (q.onResult m) := by
  simp only [Req.onResult]
  split
  · exact ⟨rfl, rfl, .inl ⟨_, rfl⟩⟩
  · split
    · exact ⟨rfl, rfl, .inl ⟨_, rfl⟩⟩
    · exact endAttempt_next hq hp _

theorem onTimeout_past {q : Req} {f : Nat} {e c : Bool} (hq : q.Good) (hp : q.phase = .waiting f e c) (fut : Option FutState) : q.Past (q.onTimeout fut) := by
  simp only [Req.onTimeout]
  split
  · exact onResult_past hq hp _
  · exact endAttempt_next hq hp _

theorem Req.Past.next {q q' : Req} {f : Nat} {e c : Bool} (hq : q.Good) (hp : q.phase = .waiting f e c) (h : q.Past q') : q.Next q' ∧ q.rank < q'.rank := by
  obtain ⟨hm, hl, he | ⟨h1, h2⟩⟩ := h
  · refine ⟨next_ended hq hm (by rw [hl]; exact List.prefix_refl _) he, ?_⟩
    rw [rank_ended he, hm]
    have := hq.waiting _ _ _ hp
    simp only [Req.rank, hp]
    cases e <;> simp only <;> omega
  · have : q.rank < q'.rank := by
      simp only [Req.rank, hp, h1, h2]
      cases e <;> simp only <;> omega
    exact ⟨⟨by rw [h1]; simp, hm, by omega, by rw [hl]; exact List.prefix_refl _⟩, this⟩

/-- One event. -/
theorem step_next {w : World} {r : Nat} {q : Req} (hq : w.reqs[r]? = some q) (hg : q.Good) (e : Event) :
    ∃ q', (w.step e).reqs[r]? = some q' ∧ q.Next q' ∧
      (e = .timeout r → (∀ f c, q.phase = .waiting f false c → q.rank < q'.rank)) ∧
      (e = .resume r → (∀ f c, q.phase = .waiting f true c → w.p.futs[f]? ≠ some .pending → q.rank < q'.rank)) ∧
      (e = .wake r → q.phase = .sleeping → q.rank < q'.rank) := by
  have same : ∀ w' : World, w'.reqs[r]? = w.reqs[r]? → e ≠ .timeout r → e ≠ .resume r → e ≠ .wake r →
      ∃ q', w'.reqs[r]? = some q' ∧ q.Next q' ∧ (e = .timeout r → (∀ f c, q.phase = .waiting f false c → q.rank < q'.rank)) ∧
      (e = .resume r → (∀ f c, q.phase = .waiting f true c → w.p.futs[f]? ≠ some .pending → q.rank < q'.rank)) ∧
      (e = .wake r → q.phase = .sleeping → q.rank < q'.rank) := fun w' h h1 h2 h3 =>
    ⟨q, h.trans hq, .refl hg.begun, fun x => absurd x h1, fun x => absurd x h2, fun x => absurd x h3⟩
  have at_ : ∀ {t : Nat} {w' : World} (q' : Req), w'.reqs = w.reqs → t = r → (w'.setReq t q').reqs[r]? = some q' := by
    intro t w' q' hw ht
    rw [get_setReq, if_pos ht, hw, hq]; rfl
  have off : ∀ {t : Nat} {w' : World} (q' : Req), w'.reqs = w.reqs → t ≠ r → (w'.setReq t q').reqs[r]? = w.reqs[r]? := by
    intro t w' q' hw ht
    rw [get_setReq, if_neg ht, hw]
  cases e with
  | call code data m =>
    refine same _ ?_ (by simp) (by simp) (by simp)
    simp only [World.step]
    rw [List.getElem?_append_left (lt_of_getElem? hq)]
  | run t =>
    refine same _ ?_ (by simp) (by simp) (by simp)
    simp only [World.step]
    split
    · rename_i q0 h0
      split
      · rename_i hs
        refine (start_next w t q0 r).1 ?_
        rintro rfl
        rw [hq] at h0; cases h0
        exact hg.begun hs
      · rfl
    · rfl
  | resume t =>
    by_cases ht : t = r
    · subst ht
      cases hp : q.phase with
      | start => exact absurd hp hg.begun
      | sleeping =>
        have hs : w.step (.resume t) = w := by simp only [World.step, hq, hp]
        rw [hs]
        exact ⟨q, hq, .refl hg.begun, fun x => (by cases x), fun _ f c x => (by cases x), fun x => (by cases x)⟩
      | done o =>
        have hs : w.step (.resume t) = w := by simp only [World.step, hq, hp]
        rw [hs]
        exact ⟨q, hq, .refl hg.begun, fun x => (by cases x), fun _ f c x => (by cases x), fun x => (by cases x)⟩
      | waiting f ex cr =>
        have key : (∃ q', (w.step (.resume t)) = w.setReq t q' ∧ q.Past q') ∨ (w.step (.resume t) = w ∧ w.p.futs[f]? = some .pending) := by
          simp only [World.step, hq, hp]
          split
          · rename_i hpend; exact .inr ⟨rfl, hpend⟩
          · split
            · exact .inl ⟨_, rfl, (onCancelled_next _).1, (onCancelled_next _).2.1, .inl (onCancelled_next _).2.2⟩
            · split
              · exact .inl ⟨_, rfl, onTimeout_past hg hp _⟩
              · split
                · exact .inl ⟨_, rfl, onResult_past hg hp _⟩
                · exact .inl ⟨_, rfl, (onCancelled_next _).1, (onCancelled_next _).2.1, .inl (onCancelled_next _).2.2⟩
        rcases key with ⟨q', he, hpast⟩ | ⟨he, hpend⟩
        · obtain ⟨h1, h2⟩ := hpast.next hg hp
          rw [he]
          exact ⟨q', at_ q' rfl rfl, h1, fun x => (by cases x), fun _ _ _ _ _ => h2, fun x => (by cases x)⟩
        · rw [he]
          exact ⟨q, hq, .refl hg.begun, fun x => (by cases x), fun _ f' c x hn => by cases x; exact absurd hpend hn, fun x => (by cases x)⟩
    · refine same _ ?_ (by simp) (by simpa using ht) (by simp)
      simp only [World.step]
      repeat' (first | rfl | exact off _ rfl ht | split)
  | timeout t =>
    by_cases ht : t = r
    · subst ht
      simp only [World.step, hq]
      cases hp : q.phase with
      | start => exact absurd hp hg.begun
      | sleeping => exact ⟨q, hq, .refl hg.begun, fun _ f c x => (by cases x), fun x => (by cases x), fun x => (by cases x)⟩
      | done o => exact ⟨q, hq, .refl hg.begun, fun _ f c x => (by cases x), fun x => (by cases x), fun x => (by cases x)⟩
      | waiting f ex cr =>
        cases ex with
        | true => exact ⟨q, hq, .refl hg.begun, fun _ f c x => (by cases x), fun x => (by cases x), fun x => (by cases x)⟩
        | false =>
          have hr : q.rank < ({ q with phase := .waiting f true cr } : Req).rank := by simp only [Req.rank, hp]; omega
          exact ⟨_, at_ _ rfl rfl, ⟨by simp, rfl, by omega, List.prefix_refl _⟩, fun _ _ _ _ => hr, fun x => (by cases x), fun x => (by cases x)⟩
    · refine same _ ?_ (by simpa using ht) (by simp) (by simp)
      simp only [World.step]
      repeat' (first | rfl | exact off _ rfl ht | split)
  | cancel t =>
    by_cases ht : t = r
    · subst ht
      simp only [World.step, hq]
      cases hp : q.phase with
      | start => exact absurd hp hg.begun
      | sleeping =>
        exact ⟨_, at_ _ rfl rfl, next_ended hg rfl (List.prefix_refl _) ⟨_, rfl⟩, fun x => (by cases x), fun x => (by cases x), fun x => (by cases x)⟩
      | done o => exact ⟨q, hq, .refl hg.begun, fun x => (by cases x), fun x => (by cases x), fun x => (by cases x)⟩
      | waiting f ex cr =>
        refine ⟨_, at_ _ rfl rfl, ⟨by simp, rfl, ?_, List.prefix_refl _⟩, fun x => (by cases x), fun x => (by cases x), fun x => (by cases x)⟩
        simp only [Req.rank, hp]
        cases ex <;> simp
    · refine same _ ?_ (by simp) (by simp) (by simp)
      simp only [World.step]
      repeat' (first | rfl | exact off _ rfl ht | split)
  | wake t =>
    by_cases ht : t = r
    · subst ht
      simp only [World.step, hq]
      split
      · rename_i hp
        obtain ⟨q', h1, h2, hl, h3⟩ := (start_next w t { q with attempt := q.attempt + 1, phase := .start } t).2 q hq
        have hlt := hg.sleeping hp
        have hr : q.rank < q'.rank := by
          rcases h3 with he | ⟨-, ha, f, hf⟩
          · rw [rank_ended he, h2]
            simp only [Req.rank, hp]
            omega
          · simp only [Req.rank, hp, hf, ha]
            omega
        refine ⟨q', h1, ⟨?_, h2, by omega, hl⟩, fun x => (by cases x), fun x => (by cases x), fun _ _ => hr⟩
        rcases h3 with ⟨o, he⟩ | ⟨-, ha, f, hf⟩
        · rw [he]; simp
        · rw [hf]; simp
      · rename_i hp
        exact ⟨q, hq, .refl hg.begun, fun x => (by cases x), fun x => (by cases x), fun _ x => absurd x hp⟩
    · refine same _ ?_ (by simp) (by simp) (by simpa using ht)
      simp only [World.step]
      split
      · split
        · exact (start_next w t _ r).1 ht
        · rfl
      · rfl
  | data c => exact same _ rfl (by simp) (by simp) (by simp)
  | lost =>
    refine same _ ?_ (by simp) (by simp) (by simp)
    simp only [World.step]
    split <;> rfl
  | cleanup =>
    refine same _ ?_ (by simp) (by simp) (by simp)
    simp only [World.step]
    split <;> rfl
  | peerClose => exact same _ rfl (by simp) (by simp) (by simp)
  | close force =>
    refine same _ ?_ (by simp) (by simp) (by simp)
    simp only [World.step, World.closeTail]
    split <;> rfl
  | closeResume c =>
    refine same _ ?_ (by simp) (by simp) (by simp)
    simp only [World.step, World.closeTail]
    repeat' (first | rfl | split)
  | closeFinish c =>
    refine same _ ?_ (by simp) (by simp) (by simp)
    simp only [World.step]
    repeat' (first | rfl | split)
  | closeCancel c =>
    refine same _ ?_ (by simp) (by simp) (by simp)
    simp only [World.step]
    repeat' (first | rfl | split)
  | register c h => exact same _ rfl (by simp) (by simp) (by simp)
  | unregister c => exact same _ rfl (by simp) (by simp) (by simp)
  | unregisterAll => exact same _ rfl (by simp) (by simp) (by simp)
  | enableKeepalive a => exact same _ rfl (by simp) (by simp) (by simp)
  | disableKeepalive => exact same _ rfl (by simp) (by simp) (by simp)
  | timerFire i => exact same _ rfl (by simp) (by simp) (by simp)

/-- How far an `async_close` has got. -/
def Closer.rank : Closer → Nat
  | .gathering _ => 0
  | .awaitClosed => 1
  | .done => 2
  | .cancelled => 2

/-- What is known of the calls of `async_close`. -/
structure World.CloseOk (w : World) : Prop where
  gathering : ∀ (i : Nat) (l : List Nat), w.closers[i]? = some (.gathering l) → ∀ f ∈ l, f < w.p.futs.length
  waiting : ∀ i : Nat, w.closers[i]? = some .awaitClosed → w.p.tclosing = true

/-- What becomes of one. -/
structure Closer.Next (w : World) (i : Nat) (e : Event) (x y : Closer) : Prop where
  rank : x.rank ≤ y.rank
  same : ∀ l l', x = .gathering l → y = .gathering l' → l' = l
  gather : ∀ l, e = .closeResume i → x = .gathering l → gatherDone w.p l = true → 0 < y.rank
  finish : e = .closeFinish i → x = .awaitClosed → (w.spoiled = true ∨ w.p.closed = true) → 1 < y.rank
  shut : x.rank = 0 → y = .awaitClosed → (w.step e).p.tclosing = true

theorem Closer.Next.refl {w : World} {i : Nat} {e : Event} (x : Closer) (h1 : e ≠ .closeResume i) (h2 : e ≠ .closeFinish i) : Closer.Next w i e x x :=
  ⟨Nat.le_refl _, fun l l' h h' => by rw [h] at h'; cases h'; rfl, fun _ h => absurd h h1, fun h => absurd h h2, fun h h' => by rw [h'] at h; cases h⟩

theorem start_closers (w : World) (t : Nat) (q : Req) : (w.startAttempt t q).closers = w.closers := by
  simp only [World.startAttempt]
  repeat' (first | rfl | split)

theorem get_set {α : Type} (l : List α) (c i : Nat) (y : α) : (l.set c y)[i]? = if c = i then (l[i]?).map (fun _ => y) else l[i]? := by
  simp only [List.getElem?_set]
  by_cases h : c = i
  · subst h
    rw [if_pos rfl, if_pos rfl]
    split
    · rename_i hl; rw [List.getElem?_eq_getElem hl]; rfl
    · rename_i hl; rw [List.getElem?_eq_none (by omega)]; rfl
  · rw [if_neg h, if_neg h]

/-- One event. -/
theorem step_closes {w : World} {i : Nat} {x : Closer} (hx : w.closers[i]? = some x) (e : Event) :
    ∃ y, (w.step e).closers[i]? = some y ∧ Closer.Next w i e x y := by
  have keep : ∀ {w' : World}, w'.closers = w.closers → e ≠ .closeResume i → e ≠ .closeFinish i → ∃ y, w'.closers[i]? = some y ∧ Closer.Next w i e x y :=
    fun h h1 h2 => ⟨x, by rw [h]; exact hx, .refl x h1 h2⟩
  cases e with
  | closeResume c =>
    by_cases hc : c = i
    · subst hc
      simp only [World.step, hx]
      cases x with
      | gathering l =>
        simp only
        split
        · refine ⟨.awaitClosed, ?_, Nat.zero_le _, fun _ _ _ h => (by cases h), fun _ _ _ _ => Nat.one_pos, fun h => (by cases h), fun _ _ => (by simp only [World.step, hx, *, if_true]; rfl)⟩
          simp only [World.closeTail]
          rw [get_set, if_pos rfl, hx]; rfl
        · rename_i hg
          exact ⟨_, hx, Nat.le_refl _, fun _ _ h h' => (by cases h; cases h'; rfl), fun l' _ h hd => (by cases h; exact absurd hd hg), fun h => (by cases h), fun _ h => (by cases h)⟩
      | _ => exact ⟨_, hx, Nat.le_refl _, fun _ _ h => (by cases h), fun _ _ h => (by cases h), fun h => (by cases h), fun h => (by cases h)⟩
    · have hne : Event.closeResume c ≠ .closeResume i := by simpa using hc
      simp only [World.step]
      split
      · split
        · refine ⟨x, ?_, .refl x hne (by simp)⟩
          simp only [World.closeTail]
          rw [get_set, if_neg hc]; exact hx
        · exact keep rfl hne (by simp)
      · exact keep rfl hne (by simp)
  | closeFinish c =>
    by_cases hc : c = i
    · subst hc
      simp only [World.step, hx]
      cases x with
      | awaitClosed =>
        simp only
        split
        · refine ⟨.cancelled, ?_, Nat.le_succ _, fun _ _ h => (by cases h), fun _ h => (by cases h), fun _ _ _ => Nat.lt_succ_self _, fun h => (by cases h)⟩
          rw [get_set, if_pos rfl, hx]; rfl
        · split
          · refine ⟨.done, ?_, Nat.le_succ _, fun _ _ h => (by cases h), fun _ h => (by cases h), fun _ _ _ => Nat.lt_succ_self _, fun h => (by cases h)⟩
            rw [get_set, if_pos rfl, hx]; rfl
          · rename_i h1 h2
            exact ⟨_, hx, Nat.le_refl _, fun _ _ h => (by cases h), fun _ h => (by cases h), fun _ _ h => (by rcases h with h | h <;> contradiction), fun h => (by cases h)⟩
      | gathering l => exact ⟨_, hx, Nat.le_refl _, fun _ _ h h' => (by cases h; cases h'; rfl), fun _ h => (by cases h), fun _ h => (by cases h), fun _ h => (by cases h)⟩
      | _ => exact ⟨_, hx, Nat.le_refl _, fun _ _ h => (by cases h), fun _ h => (by cases h), fun _ h => (by cases h), fun h => (by cases h)⟩
    · have hne : Event.closeFinish c ≠ .closeFinish i := by simpa using hc
      simp only [World.step]
      split
      · split
        · refine ⟨x, ?_, .refl x (by simp) hne⟩
          rw [get_set, if_neg hc]; exact hx
        · split
          · refine ⟨x, ?_, .refl x (by simp) hne⟩
            rw [get_set, if_neg hc]; exact hx
          · exact keep rfl (by simp) hne
      · exact keep rfl (by simp) hne
  | closeCancel c =>
    simp only [World.step]
    split
    · exact keep rfl (by simp) (by simp)
    · rename_i h0
      by_cases hc : c = i
      · subst hc
        rw [hx] at h0; cases h0
        refine ⟨.cancelled, ?_, Nat.le_succ _, fun _ _ h => (by cases h), fun _ h => (by cases h), fun h => (by cases h), fun _ h => (by cases h)⟩
        rw [get_set, if_pos rfl, hx]; rfl
      · refine ⟨x, ?_, .refl x (by simp) (by simp)⟩
        simp only
        rw [get_set, if_neg hc]; exact hx
    · exact keep rfl (by simp) (by simp)
  | close force =>
    refine ⟨x, ?_, .refl x (by simp) (by simp)⟩
    have hl := lt_of_getElem? hx
    simp only [World.step, World.closeTail]
    split
    · rw [get_set, if_neg (by omega), List.getElem?_append_left hl]; exact hx
    · rw [List.getElem?_append_left hl]; exact hx
  | call code data m => exact keep rfl (by simp) (by simp)
  | run t =>
    refine keep ?_ (by simp) (by simp)
    simp only [World.step]
    split
    · split
      · exact start_closers _ _ _
      · rfl
    · rfl
  | wake t =>
    refine keep ?_ (by simp) (by simp)
    simp only [World.step]
    split
    · split
      · exact start_closers _ _ _
      · rfl
    · rfl
  | resume t => exact keep (by simp only [World.step]; repeat' (first | rfl | split)) (by simp) (by simp)
  | timeout t => exact keep (by simp only [World.step]; repeat' (first | rfl | split)) (by simp) (by simp)
  | cancel t => exact keep (by simp only [World.step]; repeat' (first | rfl | split)) (by simp) (by simp)
  | lost => exact keep (by simp only [World.step]; repeat' (first | rfl | split)) (by simp) (by simp)
  | cleanup => exact keep (by simp only [World.step]; repeat' (first | rfl | split)) (by simp) (by simp)
  | _ => exact keep rfl (by simp) (by simp)

/-- A new one. -/
theorem step_newCloser {w : World} {i : Nat} {y : Closer} (hx : w.closers[i]? = none) (e : Event) (hy : (w.step e).closers[i]? = some y) :
    (∃ k, y = .gathering (w.p.coll.map (·.2)) ∧ e = .close k) ∨ (y = .awaitClosed ∧ (w.step e).p.tclosing = true) := by
  have no : ∀ {w' : World}, w'.closers = w.closers → w'.closers[i]? = some y → False := by
    intro w' h h'
    rw [h, hx] at h'; cases h'
  have noset : ∀ (c : Nat) (z : Closer), (w.closers.set c z)[i]? = some y → False := by
    intro c z h
    rw [get_set, hx] at h
    split at h <;> cases h
  cases e with
  | close force =>
    simp only [World.step, World.closeTail] at hy
    split at hy
    · rename_i he
      refine .inr ⟨?_, ?_⟩
      · rw [get_set] at hy
        split at hy
        · rename_i hi; subst hi
          simp only [List.getElem?_concat_length, Option.map_some, Option.some.injEq] at hy
          exact hy.symm
        · rename_i hi
          rw [List.getElem?_append_right (by rw [List.getElem?_eq_none_iff] at hx; exact hx)] at hy
          rw [List.getElem?_eq_none_iff] at hx
          rw [List.getElem?_eq_none (by simp; omega)] at hy
          cases hy
      · simp only [World.step]
        rw [if_pos he]; rfl
    · refine .inl ⟨force, ?_, rfl⟩
      rw [List.getElem?_eq_none_iff] at hx
      rw [List.getElem?_append_right hx] at hy
      cases hk : i - w.closers.length with
      | zero => rw [hk] at hy; simpa using hy.symm
      | succ k => rw [hk] at hy; simp at hy
  | closeResume c =>
    exfalso
    simp only [World.step, World.closeTail] at hy
    split at hy
    · split at hy
      · exact noset _ _ hy
      · exact no rfl hy
    · exact no rfl hy
  | closeFinish c =>
    exfalso
    simp only [World.step] at hy
    split at hy
    · split at hy
      · exact noset _ _ hy
      · split at hy
        · exact noset _ _ hy
        · exact no rfl hy
    · exact no rfl hy
  | closeCancel c =>
    exfalso
    simp only [World.step] at hy
    split at hy
    · exact no rfl hy
    · exact noset _ _ hy
    · exact no rfl hy
  | run t =>
    refine (no ?_ hy).elim
    simp only [World.step]
    split
    · split
      · exact start_closers _ _ _
      · rfl
    · rfl
  | wake t =>
    refine (no ?_ hy).elim
    simp only [World.step]
    split
    · split
      · exact start_closers _ _ _
      · rfl
    · rfl
  | resume t => exact (no (by simp only [World.step]; repeat' (first | rfl | split)) hy).elim
  | timeout t => exact (no (by simp only [World.step]; repeat' (first | rfl | split)) hy).elim
  | cancel t => exact (no (by simp only [World.step]; repeat' (first | rfl | split)) hy).elim
  | lost => exact (no (by simp only [World.step]; repeat' (first | rfl | split)) hy).elim
  | cleanup => exact (no (by simp only [World.step]; repeat' (first | rfl | split)) hy).elim
  | _ => exact (no rfl hy).elim

theorem step_closeOk {w : World} (hi : InvIds w.p) (h : w.CloseOk) (e : Event) : (w.step e).CloseOk := by
  have hl := step_later w e
  constructor
  · intro i l hy f hf
    cases hx : w.closers[i]? with
    | none =>
      rcases step_newCloser hx e hy with ⟨k, h1, -⟩ | ⟨h1, -⟩
      · cases h1
        obtain ⟨⟨a, b⟩, hm, rfl⟩ := List.mem_map.1 hf
        exact Nat.lt_of_lt_of_le (hi.coll _ _ hm).1 hl.futsLen
      · cases h1
    | some x =>
      obtain ⟨y, hy', hn⟩ := step_closes hx e
      rw [hy] at hy'; cases hy'
      cases x with
      | gathering l' =>
        have := hn.same l' l rfl rfl
        subst this
        exact Nat.lt_of_lt_of_le (h.gathering i _ hx f hf) hl.futsLen
      | _ => have := hn.rank; simp [Closer.rank] at this
  · intro i hy
    cases hx : w.closers[i]? with
    | none =>
      rcases step_newCloser hx e hy with ⟨k, h1, -⟩ | ⟨-, h1⟩
      · cases h1
      · exact h1
    | some x =>
      obtain ⟨y, hy', hn⟩ := step_closes hx e
      rw [hy] at hy'; cases hy'
      cases x with
      | gathering l' => exact hn.shut rfl rfl
      | awaitClosed => exact hl.tclosing (h.waiting i hx)
      | _ => have := hn.rank; simp [Closer.rank] at this

theorem closeOk_run (es : List Event) : (World.init.run es).CloseOk := by
  have key : ∀ rs : List Event, (World.init.run rs.reverse).CloseOk := by
    intro rs
    induction rs with
    | nil => exact ⟨fun i l h => (by simp [World.run, World.init] at h), fun i h => (by simp [World.run, World.init] at h)⟩
    | cons e rs ih =>
      rw [List.reverse_cons, world_run_append]
      exact step_closeOk (invIds _) ih e
  simpa using key es.reverse

end SL
