import Verif.Spec.Cancel
import Verif.Lemmas.Frail
import Verif.Lemmas.Deeds
import Verif.Lemmas.Calm
import Verif.Lemmas.Sample
import Verif.Props.ClosedProps
import Verif.Props.LockProps
/-!
# C90: a cancelled call gives up; C91: cancellation is private
-/
set_option linter.unusedVariables false

namespace SL

section
variable (E : Env) (clientId maxRetries : Int)

theorem put_result {s : Sys} {t : Nat} (ht : t < s.tasks.length) {co : Co Res} (hd : co.Dies) (g : Gw) :
    (s.put t (settle t co g)).result t = some (.error .cancelled) ∧
    ((s.put t (settle t co g)).g = g ∨ (s.put t (settle t co g)).g = g.release) := by
  obtain ⟨h1, h2⟩ := settle_dies t co g hd
  refine ⟨?_, h2⟩
  simp only [Sys.result, Sys.put, List.getElem?_set_self ht, h1]

/-- A task that has ended does not hold the lock. -/
theorem ended_free (es : List Ev) {t : Nat} {r : Except PyErr Res} (h : (after E clientId maxRetries es).result t = some r) :
    ¬ (after E clientId maxRetries es).holding t := by
  intro hl
  have := (C49_holder E clientId maxRetries es t hl).2
  rw [h] at this
  cases this

/-- Nobody else loses the lock. -/
theorem others_keep (es : List Ev) (ev : Ev) {t u : Nat} (ho : ∀ v, ev.own v = true → v = t) (hu : u ≠ t)
    (h : (after E clientId maxRetries es).holding u) : (after E clientId maxRetries (es ++ [ev])).holding u := by
  have hs := (SysOk.init E False clientId maxRetries).run es (fun x => x.elim)
  rw [after_snoc]
  have hr := C49_holder E clientId maxRetries es u h
  refine (star_rely (step_but hs ev (fun x => x.elim) hr.1 ?_)).1.lock h
  cases hx : ev.own u with
  | false => rfl
  | true => exact absurd (ho u hx) hu

/-- **C90**, in part: a call that is cancelled while it waits for a TCP connection, in a pause or for the subscription lock ends at once with
`CancelledError`; it does nothing more, and nothing of the gateway changes except who holds, or waits for, the lock; it does not hold the lock, and
nobody else loses it.  (The other waiting points: `C90_closing_partial`, `C90_backoff_partial`; where it fails: `C90_swallowed`.) -/
theorem C90_gives_up_partial (es : List Ev) {t : Nat}
    (h : (after E clientId maxRetries es).opening t ∨ (after E clientId maxRetries es).pausing t ∨ (after E clientId maxRetries es).waiting t) :
    (after E clientId maxRetries (es ++ [.cancel t])).result t = some (.error .cancelled) ∧
    (∃ lock waiters, (after E clientId maxRetries (es ++ [.cancel t])).g =
      { (after E clientId maxRetries es).g with lock := lock, waiters := waiters }) ∧
    ¬ (after E clientId maxRetries (es ++ [.cancel t])).holding t ∧
    ∀ u, u ≠ t → (after E clientId maxRetries es).holding u → (after E clientId maxRetries (es ++ [.cancel t])).holding u := by
  have key : (after E clientId maxRetries (es ++ [.cancel t])).result t = some (.error .cancelled) ∧
      (∃ lock waiters, (after E clientId maxRetries (es ++ [.cancel t])).g =
        { (after E clientId maxRetries es).g with lock := lock, waiters := waiters }) := by
    rw [after_snoc]
    rcases h with ⟨q, k, hk⟩ | ⟨k, hk⟩ | ⟨k, hk⟩
    all_goals
      have hd := after_frail E clientId maxRetries es hk
      have hlt := lt_of_getElem? hk
      simp only [Sys.step, hk]
    · obtain ⟨h1, h2⟩ := put_result hlt hd.1 (after E clientId maxRetries es).g
      exact ⟨h1, h2.elim (fun e => ⟨_, _, e⟩) (fun e => ⟨_, _, e⟩)⟩
    · obtain ⟨h1, h2⟩ := put_result hlt hd.1 (after E clientId maxRetries es).g
      exact ⟨h1, h2.elim (fun e => ⟨_, _, e⟩) (fun e => ⟨_, _, e⟩)⟩
    · obtain ⟨h1, h2⟩ := put_result hlt hd.1 ((after E clientId maxRetries es).g.setWaiters ((after E clientId maxRetries es).g.waiters.filter (· ≠ t)))
      exact ⟨h1, h2.elim (fun e => ⟨_, _, e⟩) (fun e => ⟨_, _, e⟩)⟩
  refine ⟨key.1, key.2, ended_free E clientId maxRetries _ key.1, fun u hu hl => ?_⟩
  exact others_keep E clientId maxRetries es _ (fun v hv => (by simpa [Ev.own] using hv : t = v).symm) hu hl

theorem net_external {s : Sys} (c : Nat) {e : Event} (he : e.external = true) (hl : e ≠ .lost) : s.step E (.net c e) = { s with g := s.g.net c e } := by
  simp only [Sys.step, he, if_true]
  have : s.g.lostCallback c e = s.g := by
    cases e <;> first | rfl | exact absurd rfl hl
  rw [this]

/-- **C90**, in part: the same for a call that waits for a connection it closes to be down. -/
theorem C90_closing_partial (es : List Ev) {t c i : Nat} (h : (after E clientId maxRetries es).finishing t c i)
    (hw : (after E clientId maxRetries es).awaitsEnd c i) :
    (after E clientId maxRetries (es ++ [.net c (.closeCancel i), .resume t])).result t = some (.error .cancelled) ∧
    (∃ lock, (after E clientId maxRetries (es ++ [.net c (.closeCancel i), .resume t])).g =
      { (after E clientId maxRetries es).g.net c (.closeCancel i) with lock := lock }) ∧
    ¬ (after E clientId maxRetries (es ++ [.net c (.closeCancel i), .resume t])).holding t := by
  have key : (after E clientId maxRetries (es ++ [.net c (.closeCancel i), .resume t])).result t = some (.error .cancelled) ∧
      (∃ lock, (after E clientId maxRetries (es ++ [.net c (.closeCancel i), .resume t])).g =
        { (after E clientId maxRetries es).g.net c (.closeCancel i) with lock := lock }) := by
    rw [show es ++ [.net c (.closeCancel i), .resume t] = (es ++ [.net c (.closeCancel i)]) ++ [.resume t] by simp, after_snoc, after_snoc,
      net_external E c rfl (by simp)]
    obtain ⟨k, hk⟩ := h
    obtain ⟨x, hx, hc⟩ := hw
    have hd := after_frail E clientId maxRetries es hk
    have hlt := lt_of_getElem? hk
    have hcl : (((after E clientId maxRetries es).g.net c (.closeCancel i)).closeEnded c i = true) ∧
        ((after E clientId maxRetries es).g.net c (.closeCancel i)).closeResult c i = .error .cancelled := by
      have hn : ((after E clientId maxRetries es).g.net c (.closeCancel i)).conns[c]? = some { x with w := x.w.step (.closeCancel i) } := by
        simp only [Gw.net, List.getElem?_modify, hx]
        simp
      have hs : (x.w.step (.closeCancel i)).closers[i]? = some .cancelled := by
        simp only [World.step, hc]
        rw [List.getElem?_set_self (lt_of_getElem? hc)]
      constructor
      · simp only [Gw.closeEnded, hn, hs]; rfl
      · simp only [Gw.closeResult, hn, hs, if_true]
    simp only [Sys.step, hk, hcl.1, hcl.2, if_true]
    obtain ⟨h1, h2⟩ := put_result (s := { after E clientId maxRetries es with g := (after E clientId maxRetries es).g.net c (.closeCancel i) }) hlt hd.1
      ((after E clientId maxRetries es).g.net c (.closeCancel i))
    exact ⟨h1, h2.elim (fun e => ⟨_, e⟩) (fun e => ⟨_, e⟩)⟩
  exact ⟨key.1, key.2, ended_free E clientId maxRetries _ key.1⟩

/-- **C90**, in part: the same for a call that pauses before it repeats a request. -/
theorem C90_backoff_partial (es : List Ev) {t c r : Nat} (h : (after E clientId maxRetries es).asking t c r)
    (hw : (after E clientId maxRetries es).backingOff c r) :
    (after E clientId maxRetries (es ++ [.net c (.cancel r), .resume t])).result t = some (.error .cancelled) ∧
    (∃ lock, (after E clientId maxRetries (es ++ [.net c (.cancel r), .resume t])).g =
      { ((after E clientId maxRetries es).g.net c (.cancel r)).note t (.got (.error .cancelled)) with lock := lock }) ∧
    ¬ (after E clientId maxRetries (es ++ [.net c (.cancel r), .resume t])).holding t := by
  have key : (after E clientId maxRetries (es ++ [.net c (.cancel r), .resume t])).result t = some (.error .cancelled) ∧
      (∃ lock, (after E clientId maxRetries (es ++ [.net c (.cancel r), .resume t])).g =
        { ((after E clientId maxRetries es).g.net c (.cancel r)).note t (.got (.error .cancelled)) with lock := lock }) := by
    rw [show es ++ [.net c (.cancel r), .resume t] = (es ++ [.net c (.cancel r)]) ++ [.resume t] by simp, after_snoc, after_snoc,
      net_external E c rfl (by simp)]
    obtain ⟨k, hk⟩ := h
    obtain ⟨x, q, hx, hq, hp⟩ := hw
    have hd := after_frail E clientId maxRetries es hk
    have hlt := lt_of_getElem? hk
    have ho : ((after E clientId maxRetries es).g.net c (.cancel r)).outcome c r = some (.error .cancelled) := by
      have hn : ((after E clientId maxRetries es).g.net c (.cancel r)).conns[c]? = some { x with w := x.w.step (.cancel r) } := by
        simp only [Gw.net, List.getElem?_modify, hx]
        simp
      simp only [Gw.outcome, hn, Option.bind_some, World.outcome, World.step, hq, hp, World.setReq]
      rw [List.getElem?_set_self (lt_of_getElem? hq)]
    simp only [Sys.step, hk, ho]
    obtain ⟨h1, h2⟩ := put_result (s := { after E clientId maxRetries es with g := (after E clientId maxRetries es).g.net c (.cancel r) }) hlt hd.1
      (((after E clientId maxRetries es).g.net c (.cancel r)).note t (.got (.error .cancelled)))
    exact ⟨h1, h2.elim (fun e => ⟨_, e⟩) (fun e => ⟨_, e⟩)⟩
  exact ⟨key.1, key.2, ended_free E clientId maxRetries _ key.1⟩

/-- **C90** fails wherever a call waits for an answer on a connection that is up: the cancellation is swallowed, the request comes back as if the
answer were `None`, and the call goes on with that. -/
theorem C90_swallowed (es : List Ev) {t c r : Nat} {k : Except PyErr (Option Bytes) → Co Res}
    (h : (after E clientId maxRetries es).tasks[t]? = some (.request c r k)) (hw : (after E clientId maxRetries es).unanswered c r) :
    after E clientId maxRetries (es ++ [.net c (.cancel r), .net c (.resume r), .resume t]) =
      (after E clientId maxRetries (es ++ [.net c (.cancel r), .net c (.resume r)])).put t
        (settle t (k (.ok none)) ((after E clientId maxRetries (es ++ [.net c (.cancel r), .net c (.resume r)])).g.note t (.got (.ok none)))) := by
  rw [show es ++ [.net c (.cancel r), .net c (.resume r), .resume t] = (es ++ [.net c (.cancel r), .net c (.resume r)]) ++ [.resume t] by simp, after_snoc]
  rw [show es ++ [.net c (.cancel r), .net c (.resume r)] = (es ++ [.net c (.cancel r)]) ++ [.net c (.resume r)] by simp, after_snoc, after_snoc,
    net_external E c rfl (by simp), net_external E c rfl (by simp)]
  obtain ⟨x, q, f, e, cr, hx, hq, hp, hf, hc⟩ := hw
  have ho : (((after E clientId maxRetries es).g.net c (.cancel r)).net c (.resume r)).outcome c r = some (.ok none) := by
    have hn : (((after E clientId maxRetries es).g.net c (.cancel r)).net c (.resume r)).conns[c]? =
        some { x with w := (x.w.step (.cancel r)).step (.resume r) } := by
      simp only [Gw.net, List.getElem?_modify, hx]
      simp
    have h1 : x.w.step (.cancel r) = { x.w with p := { x.w.p with futs := x.w.p.futs.set f .cancelled } }.setReq r { q with phase := .waiting f e true } := by
      simp only [World.step, hq, hp, Proto.cancelFut, hf]
    have h2 : ((x.w.step (.cancel r)).step (.resume r)).outcome r = some (.ok none) := by
      rw [h1]
      simp only [World.step, World.setReq, World.outcome, List.getElem?_set_self (lt_of_getElem? hq), List.getElem?_set_self (lt_of_getElem? hf), hc]
      simp [Req.onCancelled, List.getElem?_set_self, lt_of_getElem? hq]
    simp only [Gw.outcome, hn, Option.bind_some, h2]
  simp only [Sys.step, h, ho]

theorem ended_task {s : Sys} {t : Nat} {o : Except PyErr Res} (h : s.result t = some o) : ∃ x : Task, s.tasks[t]? = some x ∧ x = .done o := by
  simp only [Sys.result] at h
  split at h
  · cases h; exact ⟨_, ‹_›, rfl⟩
  · cases h

/-- What a task waits for, when it waits for a request, is as before or has just begun. -/
theorem request_since {s : Sys} (ev : Ev) {t c r : Nat} {k : Except PyErr (Option Bytes) → Co Res}
    (h : (s.step E ev).tasks[t]? = some (.request c r k)) : s.tasks[t]? = some (.request c r k) ∨ (s.step E ev).g.outcome c r = none := by
  rcases step_cases E s ev with ⟨t', co, g0, ho, ht', hr, he⟩ | ⟨co, g0, hs, he⟩ | ⟨g', hg, he⟩
  · rw [he] at h ⊢
    simp only [Sys.put, List.getElem?_set, ht', if_true] at h ⊢
    split at h
    · right
      exact settle_fresh _ _ _ (Option.some.inj h)
    · exact .inl h
  · rw [he] at h ⊢
    simp only [Sys.spawn, List.getElem?_append] at h ⊢
    split at h
    · exact .inl h
    · rw [List.getElem?_singleton] at h
      split at h
      · right
        exact settle_fresh _ _ _ (Option.some.inj h)
      · cases h
  · rw [he] at h
    exact .inl h

theorem Env.Sane.plain {E : Env} (h : E.Sane) : E.Plain := by
  constructor
  · intro s e he
    cases hp : e.plain with
    | true => rfl
    | false => exact absurd he ((h e (by cases e <;> simp_all [PyErr.plain])).1 s)
  · intro s e he
    cases hp : e.plain with
    | true => rfl
    | false => exact absurd he ((h e (by cases e <;> simp_all [PyErr.plain])).2 s)

/-- **C91**, in part: unless somebody was cancelled inside `async_close`, a call ends with `CancelledError` only if this very call was cancelled. -/
theorem C91_own_partial (hE : E.Sane) (es : List Ev) (hn : ∀ c i, .net c (.closeCancel i) ∉ es) {t : Nat}
    (h : (after E clientId maxRetries es).result t = some (.error .cancelled)) : WasCancelled E clientId maxRetries es t := by
  refine Classical.byContradiction fun hw => ?_
  have key : ∀ es : List Ev, (∀ c i, .net c (.closeCancel i) ∉ es) → ¬ WasCancelled E clientId maxRetries es t →
      (∀ x : Task, (after E clientId maxRetries es).tasks[t]? = some x → x.Raises (fun e => e.plain = true)) ∧
      ∀ (c r : Nat) (k : Except PyErr (Option Bytes) → Co Res), (after E clientId maxRetries es).tasks[t]? = some (.request c r k) →
        ∀ o, (after E clientId maxRetries es).g.outcome c r = some o → Outcome.In (fun e => e.plain = true) o := by
    refine fun es => snoc_ind (P := fun es => (∀ c i, .net c (.closeCancel i) ∉ es) → ¬ WasCancelled E clientId maxRetries es t →
      (∀ x : Task, (after E clientId maxRetries es).tasks[t]? = some x → x.Raises (fun e => e.plain = true)) ∧
      ∀ (c r : Nat) (k : Except PyErr (Option Bytes) → Co Res), (after E clientId maxRetries es).tasks[t]? = some (.request c r k) →
        ∀ o, (after E clientId maxRetries es).g.outcome c r = some o → Outcome.In (fun e => e.plain = true) o) ?_ ?_ es
    · intro _ _
      refine ⟨fun x hx => ?_, fun c r k hk => ?_⟩
      · simp [after, Sys.run, Sys.init] at hx
      · simp [after, Sys.run, Sys.init] at hk
    · intro es ev ih hn hw
      have hn' : ∀ c i, .net c (.closeCancel i) ∉ es := fun c i hm => hn c i (List.mem_append_left _ hm)
      have hh : ¬ (after E clientId maxRetries es).hit t ev := fun hit => hw ⟨es, ev, [], rfl, hit⟩
      obtain ⟨h1, h2⟩ := ih hn' (fun ⟨a, e, b, he, hit⟩ => hw ⟨a, e, b ++ [ev], by simp [he], hit⟩)
      obtain ⟨hu, hq⟩ := after_uncancelled E clientId maxRetries es hn'
      rw [after_snoc]
      refine ⟨step_raises hE.plain (fun _ h => h) _ ev t h1 (fun e => absurd (.inl e) hh) h2 (fun c i k _ => ?_) (.inr hu), ?_⟩
      · rw [hq c i]
        exact fun e he => by cases he
      · rintro c r k hk o ho x rfl
        rcases request_since E ev hk with hk0 | hx
        · have hs : SysOk E False (after E clientId maxRetries es) := (SysOk.init E False clientId maxRetries).run es (fun u => u.elim)
          simp only [Gw.outcome] at ho
          have cut : ∀ {w : World} {l : List Event}, (∀ e ∈ l, e.inner = true ∨ ev = .net c e) → (w.run l).outcome r = some (.error x) →
              w.outcome r = some (.error x) ∨ x.plain = true := by
            intro w l ht ho
            rcases run_outcome l ho with h | h | ⟨h, -⟩
            · exact .inl h
            · exact .inr h
            · rcases ht _ h with h | h
              · cases h
              · exact absurd (.inr (.inl ⟨c, r, ⟨k, hk0⟩, h⟩)) hh
          cases hc : (after E clientId maxRetries es).g.conns[c]? with
          | none =>
            cases hc' : ((after E clientId maxRetries es).step E ev).g.conns[c]? with
            | none => rw [hc'] at ho; simp at ho
            | some y =>
              rw [hc', Option.bind_some] at ho
              obtain ⟨l, hl, ht⟩ := (step_traced hs ev).new c y hc hc'
              rw [hl] at ho
              rcases cut ht ho with h | h
              · simp [World.outcome, World.init] at h
              · exact h
          | some y =>
            obtain ⟨y', l, hy', hl, ht⟩ := (step_traced hs ev).keep c y hc
            rw [hy', Option.bind_some, hl] at ho
            rcases cut ht ho with h | h
            · exact h2 c r k hk0 _ (by simp only [Gw.outcome, hc, Option.bind_some, h]) _ rfl
            · exact h
        · rw [hx] at ho; cases ho
  obtain ⟨h1, -⟩ := key es hn hw
  obtain ⟨x, hx, he⟩ := ended_task h
  subst he
  exact absurd (h1 _ hx _ rfl) (by decide)

/-- **C92**: whatever happens, a call ends with a result or with one of these exceptions. -/
theorem C92_exceptions (hE : E.Sane) (es : List Ev) {t : Nat} {e : PyErr} (h : (after E clientId maxRetries es).result t = some (.error e)) :
    e ∈ [PyErr.slError, .slRequest, .slConnection, .slResponse, .slLogin, .structError, .unicodeError, .valueError, .typeError, .keyError, .indexError,
      .attributeError, .cancelled] := by
  have key : ∀ es : List Ev, ∀ x : Task, (after E clientId maxRetries es).tasks[t]? = some x → x.Raises (fun e => e.plain = true ∨ e = .cancelled) := by
    refine fun es => snoc_ind (P := fun es => ∀ x : Task, (after E clientId maxRetries es).tasks[t]? = some x →
      x.Raises (fun e => e.plain = true ∨ e = .cancelled)) ?_ ?_ es
    · intro x hx
      simp [after, Sys.run, Sys.init] at hx
    · intro es ev ih
      rw [after_snoc]
      refine step_raises hE.plain (fun _ h => .inl h) _ ev t ih (fun _ => .inr rfl) ?_ ?_ (.inl (.inr rfl))
      · rintro c r k hk o ho x rfl
        exact (after_outcome E clientId maxRetries es ho).imp id And.left
      · intro c i k hk x hx
        simp only [Gw.closeResult] at hx
        split at hx
        · split at hx <;> cases hx
          exact .inr rfl
        · cases hx
  obtain ⟨x, hx, he⟩ := ended_task h
  subst he
  have := key es _ hx e rfl
  revert this
  cases e <;> simp [PyErr.plain]

end


/-! ## Concrete cases -/

/-- What task `t` waits for, as a number that can be computed: 1 a TCP connection, 2 a pause, 3 the lock, 4 a closing connection, 5 a request. -/
def waitsFor (s : Sys) (t : Nat) : Nat :=
  match s.tasks[t]? with
  | some (.opening _ _) => 1
  | some (.sleeping _) => 2
  | some (.locked _) => 3
  | some (.closing _ _ _) => 4
  | some (.request _ _ _) => 5
  | _ => 0

theorem opening_of {s : Sys} {t : Nat} (h : waitsFor s t = 1) : s.opening t := by
  unfold waitsFor at h
  split at h <;> first | exact ⟨_, _, ‹_›⟩ | exact absurd h (by decide)
theorem pausing_of {s : Sys} {t : Nat} (h : waitsFor s t = 2) : s.pausing t := by
  unfold waitsFor at h
  split at h <;> first | exact ⟨_, ‹_›⟩ | exact absurd h (by decide)
theorem waiting_of {s : Sys} {t : Nat} (h : waitsFor s t = 3) : s.waiting t := by
  unfold waitsFor at h
  split at h <;> first | exact ⟨_, ‹_›⟩ | exact absurd h (by decide)

/-- Task `t` waits for call `i` of `async_close` at connection `c`, and that for the end of the connection. -/
def endsAt (s : Sys) (t c i : Nat) : Bool :=
  match s.tasks[t]?, s.g.conns[c]? with
  | some (.closing c' i' _), some x => c' == c && i' == i && (match x.w.closers[i]? with | some .awaitClosed => true | _ => false)
  | _, _ => false

theorem endsAt_of {s : Sys} {t c i : Nat} (h : endsAt s t c i = true) : s.finishing t c i ∧ s.awaitsEnd c i := by
  unfold endsAt at h
  split at h
  · simp only [Bool.and_eq_true, beq_iff_eq] at h
    obtain ⟨⟨h1, h2⟩, h3⟩ := h
    subst h1 h2
    refine ⟨⟨_, ‹_›⟩, ⟨_, ‹_›, ?_⟩⟩
    split at h3
    · assumption
    · exact absurd h3 (by decide)
  · exact absurd h (by decide)

/-- Task `t` waits for request `r` of connection `c`; the request pauses before its repetition (`back`), or has no answer yet. -/
def asksAt (s : Sys) (t c r : Nat) (back : Bool) : Bool :=
  match s.tasks[t]?, s.g.conns[c]? with
  | some (.request c' r' _), some x => c' == c && r' == r && (match x.w.reqs[r]? with
      | some q => (match q.phase with
        | .sleeping => back
        | .waiting f _ _ => !back && x.w.p.connected && (match x.w.p.futs[f]? with | some .pending => true | _ => false)
        | _ => false)
      | none => false)
  | _, _ => false

theorem asksAt_back {s : Sys} {t c r : Nat} (h : asksAt s t c r true = true) : s.asking t c r ∧ s.backingOff c r := by
  unfold asksAt at h
  split at h
  · simp only [Bool.and_eq_true, beq_iff_eq] at h
    obtain ⟨⟨h1, h2⟩, h3⟩ := h
    subst h1 h2
    refine ⟨⟨_, ‹_›⟩, ?_⟩
    split at h3
    · rename_i q hq
      split at h3
      · exact ⟨_, q, ‹_›, hq, ‹_›⟩
      · simp at h3
      · exact absurd h3 (by decide)
    · exact absurd h3 (by decide)
  · exact absurd h (by decide)

theorem asksAt_open {s : Sys} {t c r : Nat} (h : asksAt s t c r false = true) : s.asking t c r ∧ s.unanswered c r := by
  unfold asksAt at h
  split at h
  · simp only [Bool.and_eq_true, beq_iff_eq] at h
    obtain ⟨⟨h1, h2⟩, h3⟩ := h
    subst h1 h2
    refine ⟨⟨_, ‹_›⟩, ?_⟩
    split at h3
    · rename_i q hq
      split at h3
      · exact absurd h3 (by decide)
      · rename_i f e cr hp
        simp only [Bool.not_false, Bool.true_and, Bool.and_eq_true] at h3
        refine ⟨_, q, f, e, cr, ‹_›, hq, hp, ?_, h3.1⟩
        have h4 := h3.2
        split at h4
        · assumption
        · exact absurd h4 (by decide)
      · exact absurd h3 (by decide)
    · exact absurd h3 (by decide)
  · exact absurd h (by decide)

theorem sampleEnv_sane : sampleEnv.Sane := by
  intro e he
  simp only [List.mem_cons, List.not_mem_nil, or_false] at he
  refine ⟨fun s h => ?_, fun q h => ?_⟩
  · simp [sampleEnv] at h
  · simp [sampleEnv] at h

/-- Somebody updates, ... -/
def updatingEvs : List Ev := connectEvs ++ [.call .update]

/-- ... and is cancelled while waiting for the status. -/
def stubbornEvs : List Ev := updatingEvs ++ [.net 0 (.cancel 4), .net 0 (.resume 4), .resume 1]

/-- **C90** in full is false: a call of `async_update` is cancelled while it waits for the status; it does not end, but goes on with the next query. -/
theorem C90_refuted : WasCancelled sampleEnv 1 1 stubbornEvs 1 ∧ (after sampleEnv 1 1 stubbornEvs).result 1 = none ∧
    (after sampleEnv 1 1 stubbornEvs).g.acts 1 = [.ask 0 12526 [0, 0, 0, 0], .got (.ok none), .ask 0 12584 [0, 0, 0, 0, 0, 0, 0, 0]] := by
  have h : asksAt (after sampleEnv 1 1 updatingEvs) 1 0 4 false = true := by decide +kernel
  refine ⟨⟨updatingEvs, .net 0 (.cancel 4), [.net 0 (.resume 4), .resume 1], rfl, .inr (.inl ⟨0, 4, (asksAt_open h).1, rfl⟩)⟩, ?_, ?_⟩
  · decide +kernel
  · decide +kernel

/-- The hypotheses of `C90_gives_up_partial` are met: calls that wait for a TCP connection, in the pause before the second attempt, and for the lock ... -/
theorem C90_witness :
    (after sampleEnv 1 1 [.call (.connect { ip := some "10.0.0.1" })]).opening 0 ∧
    (after sampleEnv 1 1 (connectEvs ++ [.call .getScg] ++ (rejectEvs 1 0 4).take 6)).pausing 1 ∧
    (after sampleEnv 1 1 (connectEvs ++ [.call (.subscribe 1 12500), .call (.subscribe 2 12500)])).waiting 2 ∧
    (after sampleEnv 1 1 (connectEvs ++ [.call (.subscribe 1 12500), .call (.subscribe 2 12500)])).holding 1 :=
  ⟨opening_of (by decide +kernel), pausing_of (by decide +kernel), waiting_of (by decide +kernel), show _ = _ by decide +kernel⟩

/-- ... those of `C90_closing_partial`: a disconnecting call, ... -/
theorem C90_witness_closing : (after sampleEnv 1 1 (connectEvs ++ [.call (.disconnect false)])).finishing 1 0 0 ∧
    (after sampleEnv 1 1 (connectEvs ++ [.call (.disconnect false)])).awaitsEnd 0 0 := endsAt_of (by decide +kernel)

/-- ... of `C90_backoff_partial`: the adapter answered with an error, ... -/
theorem C90_witness_backoff : (after sampleEnv 1 1 (connectEvs ++ [.call .getScg] ++ reply 0 4 30 [])).asking 1 0 4 ∧
    (after sampleEnv 1 1 (connectEvs ++ [.call .getScg] ++ reply 0 4 30 [])).backingOff 0 4 := asksAt_back (by decide +kernel)

/-- ... and of `C90_swallowed`. -/
theorem C90_witness_swallowed : (after sampleEnv 1 1 updatingEvs).asking 1 0 4 ∧ (after sampleEnv 1 1 updatingEvs).unanswered 0 4 := asksAt_open (by decide +kernel)

/-- Whether the event cancels task `t`, computed (more generously). -/
def mayHit (s : Sys) (t : Nat) (ev : Ev) : Bool :=
  match ev, s.tasks[t]? with
  | .cancel t', _ => t' == t
  | .net c (.cancel r), some (.request c' r' _) => c' == c && r' == r
  | .net c (.closeCancel i), some (.closing c' i' _) => c' == c && i' == i
  | _, _ => false

theorem mayHit_of {s : Sys} {t : Nat} {ev : Ev} (h : s.hit t ev) : mayHit s t ev = true := by
  rcases h with rfl | ⟨c, r, ⟨k, hk⟩, rfl⟩ | ⟨c, i, ⟨k, hk⟩, rfl⟩
  · simp [mayHit]
  · simp [mayHit, hk]
  · simp [mayHit, hk]

/-- All prefixes of a history are harmless to task `t`. -/
def harmless (E : Env) (clientId maxRetries : Int) (t : Nat) : List Ev → Sys → Bool
  | [], _ => true
  | ev :: es, s => !mayHit s t ev && harmless E clientId maxRetries t es (s.step E ev)

theorem harmless_of {E : Env} {clientId maxRetries : Int} {t : Nat} {es : List Ev} (h : harmless E clientId maxRetries t es (after E clientId maxRetries []) = true) :
    ¬ WasCancelled E clientId maxRetries es t := by
  rintro ⟨a, ev, b, rfl, hh⟩
  have key : ∀ (a pre : List Ev), harmless E clientId maxRetries t (a ++ ev :: b) (after E clientId maxRetries pre) = true →
      mayHit (after E clientId maxRetries (pre ++ a)) t ev = false := by
    intro a
    induction a with
    | nil =>
      intro pre h
      simp only [List.nil_append, harmless, Bool.and_eq_true, Bool.not_eq_true'] at h
      rw [List.append_nil]
      exact h.1
    | cons e a ih =>
      intro pre h
      simp only [List.cons_append, harmless, Bool.and_eq_true] at h
      have := ih (pre ++ [e]) (by rw [after_snoc]; exact h.2)
      simpa using this
  have := key a [] h
  rw [List.nil_append, mayHit_of hh] at this
  cases this

/-- Somebody is cancelled while disconnecting; ... -/
def abandonedEvs : List Ev := connectEvs ++ [.call (.disconnect false), .net 0 (.closeCancel 0), .resume 1]

/-- ... the connection ends, and somebody else disconnects. -/
def poisonedEvs : List Ev := abandonedEvs ++ [.net 0 .lost, .call (.disconnect true), .net 0 (.closeFinish 1), .resume 2]

/-- **C91** in full is false: whoever was cancelled while closing a connection takes everybody along who closes that connection later, even when it is
down: task 2 was never cancelled. -/
theorem C91_refuted : (after sampleEnv 1 1 poisonedEvs).result 2 = some (.error .cancelled) ∧ ¬ WasCancelled sampleEnv 1 1 poisonedEvs 2 :=
  ⟨by decide +kernel, harmless_of (by decide +kernel)⟩

/-- Other effects of such a cancellation: the connection-closed callback of the user is not called when the connection ends; and a request of somebody else,
which a graceful disconnect waits for, comes back empty. -/
theorem C91_collateral :
    (after sampleEnv 1 1 (watchedEvs ++ [.call (.disconnect false), .net 0 (.closeCancel 0), .resume 1, .net 0 .lost])).g.closedCalls = [] ∧
    (after sampleEnv 1 1 (connectEvs ++ [.call .getScg, .call (.disconnect false), .net 0 (.closeCancel 0), .net 0 (.resume 4), .resume 1])).g.acts 1 =
      [.ask 0 12572 [0, 0, 0, 0], .got (.ok none)] ∧
    (after sampleEnv 1 1 (connectEvs ++ [.call .getScg, .call (.disconnect false), .net 0 (.closeCancel 0), .net 0 (.resume 4), .resume 1])).result 1 =
      some (.ok .none) :=
  ⟨by decide +kernel, by decide +kernel, by decide +kernel⟩

/-- **C91**, where it holds even for a cancellation inside `async_close`: once the connection is down (its `_closed` future is done), cancelling one call of
`async_close` that waits for it changes nothing for the others that do: they end as they would have. -/
theorem C91_late_partial (E : Env) (s : Sys) (c i j : Nat) (x : Conn) (hx : s.g.conns[c]? = some x) (hd : x.w.p.closed = true)
    (hi : s.awaitsEnd c i) (hj : s.awaitsEnd c j) (hne : i ≠ j) :
    (s.run E [.net c (.closeCancel i), .net c (.closeFinish j)]).g.closeResult c j = (s.run E [.net c (.closeFinish j)]).g.closeResult c j := by
  obtain ⟨y, hy, hyi⟩ := hi
  rw [hx] at hy; injection hy with hy; subst hy
  obtain ⟨y, hy, hyj⟩ := hj
  rw [hx] at hy; injection hy with hy; subst hy
  simp [Sys.run, Sys.step, Event.external, Gw.lostCallback, Gw.net, Gw.closeResult, List.getElem?_modify, hx, World.step, hyi, hyj, hd, List.getElem?_set, hne]
  split <;> simp [List.getElem?_set, hne]

/-- Two calls wait for a connection to be down, and now it is. -/
def lateEvs : List Ev := connectEvs ++ [.call (.disconnect false), .call (.disconnect true), .net 0 .lost]
/-- The cancelled one gets `CancelledError`, the other ends normally. -/
theorem C91_late_witness :
    (after sampleEnv 1 1 (lateEvs ++ [.net 0 (.closeCancel 0), .net 0 (.closeFinish 1), .resume 1, .resume 2])).result 1 = some (.error .cancelled) ∧
    (after sampleEnv 1 1 (lateEvs ++ [.net 0 (.closeCancel 0), .net 0 (.closeFinish 1), .resume 1, .resume 2])).result 2 = some (.ok .none) :=
  ⟨by decide +kernel, by decide +kernel⟩


/-- `C91_own_partial` in a concrete case: a call cancelled in the pause before the second attempt. -/
theorem C91_witness : (after sampleEnv 1 1 (connectEvs ++ [.call .getScg] ++ (rejectEvs 1 0 4).take 6 ++ [.cancel 1])).result 1 = some (.error .cancelled) ∧
    sampleEnv.Sane := ⟨by decide +kernel, sampleEnv_sane⟩

/-- `C92_exceptions` in concrete cases: a truncated answer, an unknown circuit, a refused request. -/
theorem C92_witness :
    (after sampleEnv 1 1 (connectEvs ++ [.call .getScg] ++ reply 0 4 12573 [1] ++ [.resume 1])).result 1 = some (.error .structError) ∧
    (after sampleEnv 1 1 (connectEvs ++ [.call (.setCircuit (.int 1) (.int 1))])).result 1 = some (.error .valueError) ∧
    (after sampleEnv 1 1 [.call (.disconnect false)]).result 0 = some (.error .attributeError) := ⟨by decide +kernel, by decide +kernel, by decide +kernel⟩

end SL
