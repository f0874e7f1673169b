import Verif.Spec.Patience
import Verif.Lemmas.Inner
/-!
# No request gives up early
-/
set_option linter.unusedVariables false

namespace SL

/-- A request that has begun goes on by one event. -/
inductive Goes (w w' : World) (i : Nat) (q : Req) : Event → Req → Prop
  | same (e : Event) : Goes w w' i q e q
  | timeout (f : Nat) (c : Bool) (h : q.phase = .waiting f false c) : Goes w w' i q (.timeout i) { q with phase := .waiting f true c }
  | cancel (f : Nat) (e c : Bool) (h : q.phase = .waiting f e c) : Goes w w' i q (.cancel i) { q with phase := .waiting f e true }
  | cancelled (h : q.phase = .sleeping) : Goes w w' i q (.cancel i) { q with phase := .done (.raised .cancelled) }
  | gone (f : Nat) (e c : Bool) (h : q.phase = .waiting f e c) (hp : (w.p.connected = true))
      (hk : e = false → c = false → w.p.futs[f]? ≠ some .pending ∧ ∀ m, w.p.futs[f]? ≠ some (.result m)) : Goes w w' i q (.resume i) { q with phase := .done (.ret none) }
  | down (f : Nat) (e c : Bool) (h : q.phase = .waiting f e c) (hp : (w'.p.connected = false)) (o : Outcome) : Goes w w' i q (.resume i) { q with phase := .done o }
  | heard (f : Nat) (e c : Bool) (h : q.phase = .waiting f e c) (m : Msg) (hf : w.p.futs[f]? = some (.result m)) (hf' : w'.p.futs = w.p.futs) :
      Goes w w' i q (.resume i) (q.onResult m)
  | expired (f : Nat) (h : q.phase = .waiting f true false) : Goes w w' i q (.resume i) (q.endAttempt .slConnection)
  | again (h : q.phase = .sleeping) (f : Nat) (l : List Nat) (hl : l.length ≤ 1) :
      Goes w w' i q (.wake i) { q with attempt := q.attempt + 1, mine := q.mine ++ l, phase := .waiting f false false }
  | over (h : q.phase = .sleeping) (l : List Nat) (hl : l.length ≤ 1) (o : Outcome) (ho : o = .raised .slConnection → w'.p.connected = false) :
      Goes w w' i q (.wake i) { q with attempt := q.attempt + 1, mine := q.mine ++ l, phase := .done o }

/-- An attempt. -/
theorem attempt_goes {w : World} {t : Nat} {r : Req} (ht : t < w.reqs.length) :
    ∃ l : List Nat, l.length ≤ 1 ∧ ((∃ f, (w.startAttempt t r).reqs[t]? = some { r with mine := r.mine ++ l, phase := .waiting f false false }) ∨
      ∃ o, (w.startAttempt t r).reqs[t]? = some { r with mine := r.mine ++ l, phase := .done o } ∧ (o = .raised .slConnection → (w.startAttempt t r).p.connected = false)) := by
  have put : ∀ {w' : World} {q' : Req}, w'.reqs = w.reqs → (w'.setReq t q').reqs[t]? = some q' := by
    intro w' q' e
    simp only [World.setReq, List.getElem?_set, e]
    simp [ht]
  simp only [World.startAttempt]
  split
  · exact ⟨[], by simp, .inr ⟨.ret none, by rw [put rfl]; simp, by simp⟩⟩
  · split
    · rename_i h
      exact ⟨[], by simp, .inr ⟨.raised .slConnection, by rw [put rfl]; simp, fun _ => by simpa [World.setReq] using h⟩⟩
    · split
      · rename_i p e he
        refine ⟨[w.p.futs.length], by simp, .inr ⟨.raised e, put rfl, fun ho => ?_⟩⟩
        have := (awaitSend_error w.p r.code r.data e (by rw [he])).1
        subst this
        cases ho
      · rename_i p f he
        split
        · cases hc : p.connected with
          | true => exact ⟨[f], by simp, .inr ⟨.ret none, put rfl, by simp⟩⟩
          | false => exact ⟨[f], by simp, .inr ⟨.raised .slConnection, put rfl, fun _ => hc⟩⟩
        · exact ⟨[f], by simp, .inl ⟨f, put rfl⟩⟩

theorem step_goes {w : World} {i : Nat} {q : Req} (hq : w.reqs[i]? = some q) (hb : q.phase ≠ .start) (e : Event) :
    ∃ q', (w.step e).reqs[i]? = some q' ∧ Goes w (w.step e) i q e q' := by
  by_cases hm : e.mild = true
  · exact ⟨q, inner_same hq hb hm, .same e⟩
  have hl := lt_of_getElem? hq
  have put : ∀ {w' : World} {q' : Req}, w'.reqs = w.reqs → (w'.setReq i q').reqs[i]? = some q' := by
    intro w' q' e
    simp only [World.setReq, List.getElem?_set, e]
    simp [hl]
  have off : ∀ {t : Nat} {w' : World} (q' : Req), w'.reqs = w.reqs → t ≠ i → (w'.setReq t q').reqs[i]? = some q := by
    intro t w' q' hw ht
    rw [get_setReq, if_neg ht, hw, hq]
  cases e with
  | resume t =>
    by_cases ht : t = i
    · subst ht
      simp only [World.step, hq]
      split
      · rename_i f ex ca hp
        split
        · exact ⟨q, hq, .same _⟩
        · rename_i hnp
          have canc : (ex = false → ca = false → w.p.futs[f]? ≠ some .pending ∧ ∀ m, w.p.futs[f]? ≠ some (.result m)) →
              Goes w (w.setReq t (q.onCancelled w.p.connected)) t q (.resume t) (q.onCancelled w.p.connected) := by
            intro hk
            cases hcn : w.p.connected with
            | true => exact .gone f ex ca hp hcn hk
            | false => exact Goes.down (w' := w.setReq t (q.onCancelled false)) f ex ca hp hcn (.raised .slConnection)
          split
          · rename_i hca
            exact ⟨_, put rfl, canc (fun _ h => by rw [h] at hca; cases hca)⟩
          · rename_i hca
            have hca : ca = false := by simpa using hca
            subst hca
            split
            · rename_i hex
              subst hex
              refine ⟨_, put rfl, ?_⟩
              simp only [Req.onTimeout]
              split
              · rename_i m hf
                exact .heard f true false hp m hf rfl
              · exact .expired f hp
            · split
              · rename_i m hf
                exact ⟨_, put rfl, .heard f ex false hp m hf rfl⟩
              · rename_i hnr
                exact ⟨_, put rfl, canc (fun _ _ => ⟨hnp, hnr⟩)⟩
      · exact ⟨q, hq, .same _⟩
    · refine ⟨q, ?_, .same _⟩
      simp only [World.step]
      repeat' (first | exact hq | exact off _ rfl ht | split)
  | timeout t =>
    by_cases ht : t = i
    · subst ht
      simp only [World.step, hq]
      split
      · rename_i f c hp
        exact ⟨_, put rfl, .timeout f c hp⟩
      · exact ⟨q, hq, .same _⟩
    · refine ⟨q, ?_, .same _⟩
      simp only [World.step]
      repeat' (first | exact hq | exact off _ rfl ht | split)
  | cancel t =>
    by_cases ht : t = i
    · subst ht
      simp only [World.step, hq]
      split
      · rename_i hp; exact absurd hp hb
      · rename_i f ex c hp
        exact ⟨_, put rfl, .cancel f ex c hp⟩
      · rename_i hp
        exact ⟨_, put rfl, .cancelled hp⟩
      · exact ⟨q, hq, .same _⟩
    · refine ⟨q, ?_, .same _⟩
      simp only [World.step]
      repeat' (first | exact hq | exact off _ rfl ht | split)
  | wake t =>
    by_cases ht : t = i
    · subst ht
      simp only [World.step, hq]
      split
      · rename_i hp
        obtain ⟨l, h1, ⟨f, h2⟩ | ⟨o, h2, h3⟩⟩ := attempt_goes (w := w) (r := { q with attempt := q.attempt + 1, phase := .start }) hl
        · exact ⟨_, h2, .again hp f l h1⟩
        · exact ⟨_, h2, .over hp l h1 o h3⟩
      · exact ⟨q, hq, .same _⟩
    · refine ⟨q, ?_, .same _⟩
      simp only [World.step]
      split
      · split
        · rw [(start_next w t _ i).1 ht]; exact hq
        · exact hq
      · exact hq
  | _ => exact absurd rfl hm

/-- What a request is right after it was made. -/
structure Req.Fresh (w : World) (q : Req) : Prop where
  attempt : q.attempt = 0
  mine : q.mine.length ≤ 1
  phase : (∃ f, q.phase = .waiting f false false) ∨ ∃ o, q.phase = .done o ∧ (o = .raised .slConnection → w.p.connected = false)

/-- ... and right before. -/
structure Req.Unborn (q : Req) : Prop where
  attempt : q.attempt = 0
  mine : q.mine = []
  phase : q.phase = .start

theorem Req.Fresh.begun {w : World} {q : Req} (h : q.Fresh w) : q.phase ≠ .start := by
  rcases h.phase with ⟨f, e⟩ | ⟨o, e, -⟩ <;> rw [e] <;> simp

theorem Req.Fresh.later {w w' : World} {q : Req} (h : q.Fresh w) (hl : Later w.p w'.p) : q.Fresh w' :=
  ⟨h.attempt, h.mine, h.phase.imp id (fun ⟨o, e, hc⟩ => ⟨o, e, fun x => hl.disconnected (hc x)⟩)⟩

theorem mild_young {w : World} {i : Nat} (h : ∀ q, w.reqs[i]? = some q → q.Unborn ∨ q.Fresh w) {e : Event} (he : e.mild = true) :
    ∀ q, (w.step e).reqs[i]? = some q → q.Unborn ∨ q.Fresh (w.step e) := by
  intro q hq
  cases hw : w.reqs[i]? with
  | none =>
    cases e with
    | call code data m =>
      simp only [World.step] at hq
      have hle := List.getElem?_eq_none_iff.1 hw
      rw [List.getElem?_append_right hle] at hq
      have := List.mem_of_getElem? hq
      simp only [List.mem_singleton] at this
      subst this
      exact .inl ⟨rfl, rfl, rfl⟩
    | _ =>
      have h1 := lt_of_getElem? hq
      rw [step_reqsLen (by simp)] at h1
      have := List.getElem?_eq_none_iff.1 hw
      omega
  | some q0 =>
    rcases h q0 hw with hu | hf
    · by_cases hr : e = .run i
      · subst hr
        have hs : w.step (.run i) = w.startAttempt i q0 := by
          simp only [World.step, hw]
          rw [if_pos hu.phase]
        rw [hs] at hq ⊢
        obtain ⟨l, h1, ⟨f, h2⟩ | ⟨o, h2, h3⟩⟩ := attempt_goes (w := w) (r := q0) (lt_of_getElem? hw)
        · rw [h2] at hq; cases hq
          exact .inr ⟨hu.attempt, by simpa [hu.mine] using h1, .inl ⟨f, rfl⟩⟩
        · rw [h2] at hq; cases hq
          exact .inr ⟨hu.attempt, by simpa [hu.mine] using h1, .inr ⟨o, rfl, h3⟩⟩
      · have : (w.step e).reqs[i]? = w.reqs[i]? := by
          cases e with
          | call code data m =>
            simp only [World.step]
            rw [List.getElem?_append_left (lt_of_getElem? hw)]
          | run t =>
            simp only [World.step]
            split
            · split
              · have ht : t ≠ i := fun e => hr (by rw [e])
                exact (start_next w t _ i).1 ht
              · rfl
            · rfl
          | close force => simp only [World.step, World.closeTail]; split <;> rfl
          | closeResume c => simp only [World.step, World.closeTail]; repeat' (first | rfl | split)
          | closeFinish c => simp only [World.step]; repeat' (first | rfl | split)
          | closeCancel c => simp only [World.step]; repeat' (first | rfl | split)
          | lost => simp only [World.step]; split <;> rfl
          | cleanup => simp only [World.step]; split <;> rfl
          | resume t | timeout t | cancel t | wake t => cases he
          | _ => rfl
        rw [this, hw] at hq; cases hq
        exact .inl hu
    · rw [inner_same hw hf.begun he] at hq; cases hq
      exact .inr (hf.later (step_later w e))

theorem mild_run {i : Nat} : ∀ (es : List Event) {w : World}, (∀ q, w.reqs[i]? = some q → q.Unborn ∨ q.Fresh w) → (∀ e ∈ es, e.mild = true) →
    ∀ q, (w.run es).reqs[i]? = some q → q.Unborn ∨ q.Fresh (w.run es)
  | [], w, h, _ => h
  | e :: es, w, h, he => mild_run es (mild_young h (he e (by simp))) (fun e' h' => he e' (by simp [h']))

section
variable {E : Env} {clientId maxRetries : Int}

local notation "A" => after E clientId maxRetries

theorem theReq_of {g : Gw} {c i : Nat} {r : Req} (h : g.theReq c i = some r) : ∃ x, g.conns[c]? = some x ∧ x.w.reqs[i]? = some r := by
  simp only [Gw.theReq, Option.bind_eq_some_iff] at h
  exact h

theorem theReq_eq {g : Gw} {c i : Nat} {x : Conn} (h : g.conns[c]? = some x) : g.theReq c i = x.w.reqs[i]? := by
  simp only [Gw.theReq, h, Option.bind_some]

/-- One event, one request that is there. -/
theorem req_goes (es : List Ev) (ev : Ev) {c i : Nat} {x : Conn} {r : Req} (hx : (A es).g.conns[c]? = some x) (hr : x.w.reqs[i]? = some r) :
    ∃ x' r', (A (es ++ [ev])).g.conns[c]? = some x' ∧ x'.w.reqs[i]? = some r' ∧ Later x.w.p x'.w.p ∧
      (r' = r ∨ ∃ e, ev = .net c e ∧ Goes x.w x'.w i r e r') := by
  have hb : r.phase ≠ .start := (reach_begun E clientId maxRetries es x (List.mem_of_getElem? hx)).2 i r hr
  rw [after_snoc]
  by_cases hev : ∃ c' e, ev = .net c' e
  · obtain ⟨c', e, rfl⟩ := hev
    simp only [Sys.step]
    split
    · have hconns : ((A es).g.lostCallback c' e).conns = (A es).g.conns := by
        simp only [Gw.lostCallback]
        split
        · split <;> rfl
        · rfl
      simp only [Gw.net, List.getElem?_modify, hconns, hx]
      by_cases hc : c' = c
      · subst hc
        obtain ⟨r', h1, h2⟩ := step_goes hr hb e
        exact ⟨{ x with w := x.w.step e }, r', by simp, h1, step_later _ _, .inr ⟨e, rfl, h2⟩⟩
      · exact ⟨x, r, by simp [hc], hr, .refl _, .inl rfl⟩
    · exact ⟨x, r, hx, hr, .refl _, .inl rfl⟩
  · obtain ⟨x', l, h1, h2, h3⟩ := (step_still (reach_all E clientId maxRetries es) ev (fun c e h => hev ⟨c, e, h⟩)).keep c x hx
    refine ⟨x', r, h1, ?_, ?_, .inl rfl⟩
    · rw [h2]; exact inner_run hb l hr h3
    · rw [h2]; exact run_later _ _

/-- One event, one request that is new. -/
theorem req_new (es : List Ev) (ev : Ev) {c i : Nat} {x' : Conn} {r : Req} (h : (A es).g.theReq c i = none)
    (hx : (A (es ++ [ev])).g.conns[c]? = some x') (hr : x'.w.reqs[i]? = some r) : r.Fresh x'.w := by
  have hb : r.phase ≠ .start := (reach_begun E clientId maxRetries (es ++ [ev]) x' (List.mem_of_getElem? hx)).2 i r hr
  have fin : r.Unborn ∨ r.Fresh x'.w → r.Fresh x'.w := fun h => h.resolve_left (fun u => hb u.phase)
  rw [after_snoc] at hx
  by_cases hev : ∃ c' e, ev = .net c' e
  · exfalso
    obtain ⟨c', e, rfl⟩ := hev
    simp only [Sys.step] at hx
    split at hx
    · rename_i hext
      have hconns : ((A es).g.lostCallback c' e).conns = (A es).g.conns := by
        simp only [Gw.lostCallback]
        split
        · split <;> rfl
        · rfl
      simp only [Gw.net, List.getElem?_modify, hconns] at hx
      cases hy : (A es).g.conns[c]? with
      | none => simp [hy] at hx
      | some y =>
        rw [theReq_eq hy] at h
        have hnone := List.getElem?_eq_none_iff.1 h
        have hlt := lt_of_getElem? hr
        by_cases hc : c' = c
        · subst hc
          simp only [hy, if_true, Option.map_eq_map, Option.map_some, Option.some.injEq] at hx
          subst hx
          rw [step_reqsLen (by rintro a b c rfl; cases hext)] at hlt
          omega
        · simp only [hy, hc, if_false, Option.map_eq_map, Option.map_some, Option.some.injEq, id] at hx
          subst hx
          omega
    · rw [theReq_eq hx, hr] at h
      cases h
  · have hs := step_still (reach_all E clientId maxRetries es) ev (fun c e h => hev ⟨c, e, h⟩)
    cases hy : (A es).g.conns[c]? with
    | none =>
      obtain ⟨l, h1, h2⟩ := hs.new c x' hy hx
      rw [h1] at hr ⊢
      rw [h1] at fin
      exact fin (mild_run l (fun q hq => by simp [World.init] at hq) h2 r hr)
    | some y =>
      obtain ⟨x2, l, h1, h2, h3⟩ := hs.keep c y hy
      rw [hx] at h1; cases h1
      rw [theReq_eq hy] at h
      rw [h2] at hr ⊢
      rw [h2] at fin
      exact fin (mild_run l (fun q hq => by rw [h] at hq; cases hq) h3 r hr)

end

end SL
