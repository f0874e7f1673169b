import Verif.Lemmas.Hold
import Verif.Lemmas.Subs
import Verif.Lemmas.Stages
import Verif.Spec.Lock
import Verif.Props.ConnectProps
/-!
# C49: who can wait for whom
-/
set_option linter.unusedVariables false

namespace SL

/-- Some time before, the task asked for a TCP connection while it held the lock. -/
def OpenedHolding (E : Env) (clientId maxRetries : Int) (es : List Ev) (t : Nat) : Prop :=
  ∃ es1 es2, es = es1 ++ es2 ∧ (after E clientId maxRetries es1).opening t ∧ (after E clientId maxRetries es1).holding t

theorem reach_hold (E : Env) (clientId maxRetries : Int) (es : List Ev) :
    (after E clientId maxRetries es).Hold (OpenedHolding E clientId maxRetries es) := by
  induction es using snoc_ind with
  | h0 => exact hold_init clientId maxRetries _
  | hs es ev ih =>
    rw [after_snoc]
    refine step_hold ((SysOk.init E False clientId maxRetries).run _ (fun u => u.elim)) ih ev ?_ ?_
    · rintro t ⟨es1, es2, e, h⟩
      exact ⟨es1, es2 ++ [ev], by rw [e, List.append_assoc], h⟩
    · intro t h1 h2
      exact ⟨es, [ev], rfl, h1, h2⟩

theorem settle_adds (t : Nat) : ∀ (co : Co Res) (g : Gw), ∃ l, (settle t co g).2.acts t = g.acts t ++ l ∧
    ((∃ q k, (settle t co g).1 = .opening q k) → ∃ h p, Act.opn h p ∈ l)
  | .ret a, g => ⟨[], by simp [settle], by simp [settle]⟩
  | .throw e, g => ⟨[], by simp [settle], by simp [settle]⟩
  | .get k, g => settle_adds t (k g) g
  | .upd f k, g => settle_adds t k (g.apply f)
  | .request c code data q k, g => by
    simp only [settle]
    split
    · rename_i o _
      obtain ⟨l, h1, h2⟩ := settle_adds t (k o) ((g.ask t c code data q).2.note t (.got o))
      refine ⟨.ask c code data :: .got o :: l, ?_, ?_⟩
      · rw [h1, acts_got, acts_ask]; simp
      · intro hx
        obtain ⟨a, b, hm⟩ := h2 hx
        exact ⟨a, b, by simp [hm]⟩
    · exact ⟨[.ask c code data], acts_ask _ _ _ _ _ _, by simp⟩
  | .openConn q k, g => ⟨_, acts_note_same _ _ _, fun _ => ⟨_, _, List.mem_singleton.2 rfl⟩⟩
  | .sleep k, g => ⟨[], by simp [settle], by simp [settle]⟩
  | .close c force k, g => by
    simp only [settle]
    split
    · obtain ⟨l, h1, h2⟩ := settle_adds t (k ((g.startClose t c force).2.closeResult c (g.startClose t c force).1)) (g.startClose t c force).2
      refine ⟨.cls c force :: l, ?_, ?_⟩
      · rw [h1, acts_close_same]; simp
      · intro hx
        obtain ⟨a, b, hm⟩ := h2 hx
        exact ⟨a, b, by simp [hm]⟩
    · exact ⟨[.cls c force], acts_close_same _ _ _ _, by simp⟩
  | .acquire k, g => by
    simp only [settle]
    split
    · exact settle_adds t (k (.ok ())) (g.take t)
    · exact ⟨[], by simp [Gw.setWaiters, Gw.acts], by simp⟩

/-- A task waiting for a TCP connection has asked for it; and what it did it has done. -/
theorem step_opening (E : Env) (s : Sys) (ev : Ev) (t : Nat) (hs : LogOk s) (h : s.opening t → ∃ a b, Act.opn a b ∈ s.g.acts t) :
    ((s.step E ev).opening t → ∃ a b, Act.opn a b ∈ (s.step E ev).g.acts t) ∧ ∃ l, (s.step E ev).g.acts t = s.g.acts t ++ l := by
  rcases step_cases E s ev with ⟨t', co, g0, ho, hlt, hr, e⟩ | ⟨co, g0, hsp, e⟩ | ⟨g', hg, e⟩
  · by_cases hne : t' = t
    · subst hne
      obtain ⟨l, h1, h2⟩ := settle_adds t' co g0
      have h0 : ∃ l0, g0.acts t' = s.g.acts t' ++ l0 := by
        cases hr with
        | got o ho => exact ⟨_, acts_got _ _ _⟩
        | _ => exact ⟨[], by simp [Gw.addConn, Gw.take, Gw.setWaiters, Gw.acts]⟩
      obtain ⟨l0, h0⟩ := h0
      rw [e]
      refine ⟨?_, l0 ++ l, ?_⟩
      · rintro ⟨q, k, hx⟩
        simp only [Sys.put, List.getElem?_set_self hlt] at hx
        obtain ⟨a, b, hm⟩ := h2 ⟨q, k, Option.some.inj hx⟩
        refine ⟨a, b, ?_⟩
        change _ ∈ (settle t' co g0).2.acts t'
        rw [h1]
        exact List.mem_append_right _ hm
      · change (settle t' co g0).2.acts t' = _
        rw [h1, h0, List.append_assoc]
    · have ha : (s.step E ev).g.acts t = s.g.acts t := by
        rw [e]
        refine (settle_acts_other hne _ _).trans ?_
        cases hr with
        | got o ho => exact acts_note_other _ hne _
        | _ => rfl
      refine ⟨?_, [], by rw [ha]; simp⟩
      rintro ⟨q, k, hx⟩
      rw [ha]
      refine h ⟨q, k, ?_⟩
      rw [e] at hx
      simp only [Sys.put, List.getElem?_set_ne hne] at hx
      exact hx
  · have hl : ∀ t, g0.acts t = s.g.acts t := fun t => by simp only [Gw.acts, hsp.log]
    by_cases hne : s.tasks.length = t
    · subst hne
      obtain ⟨l, h1, h2⟩ := settle_adds s.tasks.length co g0
      rw [e]
      refine ⟨?_, l, ?_⟩
      · rintro ⟨q, k, hx⟩
        simp only [Sys.spawn, List.getElem?_append_right (Nat.le_refl _), Nat.sub_self, List.getElem?_cons_zero] at hx
        obtain ⟨a, b, hm⟩ := h2 ⟨q, k, Option.some.inj hx⟩
        refine ⟨a, b, ?_⟩
        change _ ∈ (settle s.tasks.length co g0).2.acts s.tasks.length
        rw [h1]
        exact List.mem_append_right _ hm
      · change (settle s.tasks.length co g0).2.acts s.tasks.length = _
        rw [h1, hl]
    · have ha : (s.step E ev).g.acts t = s.g.acts t := by
        rw [e]
        exact (settle_acts_other hne _ _).trans (hl t)
      refine ⟨?_, [], by rw [ha]; simp⟩
      rintro ⟨q, k, hx⟩
      rw [ha]
      refine h ⟨q, k, ?_⟩
      rw [e] at hx
      simp only [Sys.spawn, List.getElem?_append] at hx
      split at hx
      · exact hx
      · rename_i hn
        have : ∃ k, t - s.tasks.length = k + 1 := ⟨t - s.tasks.length - 1, by omega⟩
        obtain ⟨k, hk⟩ := this
        rw [hk] at hx
        simp at hx
  · have ha : (s.step E ev).g.acts t = s.g.acts t := by rw [e]; exact hg.acts t
    refine ⟨?_, [], by rw [ha]; simp⟩
    rw [ha]
    intro hx
    rw [e] at hx
    exact h hx

theorem reach_opening (E : Env) (clientId maxRetries : Int) (es : List Ev) (t : Nat) (h : (after E clientId maxRetries es).opening t) :
    ∃ a b, Act.opn a b ∈ (after E clientId maxRetries es).g.acts t := by
  induction es using snoc_ind with
  | h0 => obtain ⟨q, k, hx⟩ := h; cases hx
  | hs es ev ih =>
    rw [after_snoc] at h ⊢
    exact (step_opening E _ ev t ((SysOk.init E False clientId maxRetries).run _ (fun u => u.elim)).log ih).1 h

theorem acts_mono (E : Env) (clientId maxRetries : Int) (es1 es2 : List Ev) (t : Nat) :
    ∃ l, (after E clientId maxRetries (es1 ++ es2)).g.acts t = (after E clientId maxRetries es1).g.acts t ++ l := by
  induction es2 using snoc_ind with
  | h0 => exact ⟨[], by simp⟩
  | hs es ev ih =>
    obtain ⟨l, hl⟩ := ih
    rw [← List.append_assoc, after_snoc]
    obtain ⟨l', hl'⟩ := (step_opening E (after E clientId maxRetries (es1 ++ es)) ev t
      ((SysOk.init E False clientId maxRetries).run _ (fun u => u.elim)).log (reach_opening E clientId maxRetries (es1 ++ es) t)).2
    exact ⟨l ++ l', by rw [hl', hl, List.append_assoc]⟩

section
variable (E : Env) (clientId maxRetries : Int)

/-- **C49**: the lock is held by nobody, or by a call (or background task) that is still running: whatever ends, however
it ends, has released it. -/
theorem C49_holder (es : List Ev) (t : Nat) (h : (after E clientId maxRetries es).holding t) : (after E clientId maxRetries es).running t := by
  have hh := reach_hold E clientId maxRetries es
  have hlt := hh.lt t h
  refine ⟨hlt, ?_⟩
  have hx := List.getElem?_eq_getElem hlt
  have ht := hh.task t _ hx
  rw [result_eq hx]
  generalize (after E clientId maxRetries es).tasks[t] = x at ht
  cases x with
  | done r => exact absurd h ht
  | _ => rfl

/-- **C49**, in part: a task waits for a lock that it holds itself only if it has asked for a TCP connection while it held
the lock, i.e. only if registering the client needed a reconnection. -/
theorem C49_self_partial (es : List Ev) (t : Nat) (hw : (after E clientId maxRetries es).waiting t) (hl : (after E clientId maxRetries es).holding t) :
    ∃ es1 es2, es = es1 ++ es2 ∧ (after E clientId maxRetries es1).opening t ∧ (after E clientId maxRetries es1).holding t := by
  obtain ⟨k, hk⟩ := hw
  exact ((reach_hold E clientId maxRetries es).task t _ hk).1 hl

/-- **C49**, in part: a task that has opened no TCP connection never waits for a lock that it holds itself. -/
theorem C49_unopened_partial (es : List Ev) (t : Nat) (hn : ∀ a b, Act.opn a b ∉ (after E clientId maxRetries es).g.acts t)
    (hw : (after E clientId maxRetries es).waiting t) : ¬ (after E clientId maxRetries es).holding t := by
  intro hl
  obtain ⟨es1, es2, e, ho, _⟩ := C49_self_partial E clientId maxRetries es t hw hl
  obtain ⟨a, b, hm⟩ := reach_opening E clientId maxRetries es1 t ho
  obtain ⟨l, hl⟩ := acts_mono E clientId maxRetries es1 es2 t
  rw [← e] at hl
  exact hn a b (by rw [hl]; exact List.mem_append_left _ hm)

/-- **C49**, in part: nobody waits for a lock that nobody holds: then the first of the queue goes on as soon as the event
loop runs it, whoever it is; and every waiting task is in the queue, once. -/
theorem C49_queue_partial (es : List Ev) (t : Nat) (hw : (after E clientId maxRetries es).waiting t) :
    (∃ u, (after E clientId maxRetries es).holding u) ∨
    ∃ u, (after E clientId maxRetries es).waiting u ∧
      GoesOn E (after E clientId maxRetries es) u ((after E clientId maxRetries es).step E (.resume u)) := by
  have hh := reach_hold E clientId maxRetries es
  have hm := (hh.iff t).2 hw
  cases hl : (after E clientId maxRetries es).g.lock with
  | some u => exact .inl ⟨u, hl⟩
  | none =>
    right
    cases hq : (after E clientId maxRetries es).g.waiters with
    | nil => rw [hq] at hm; cases hm
    | cons u w =>
      obtain ⟨k, hk⟩ := (hh.iff u).1 (by rw [hq]; simp)
      refine ⟨u, ⟨k, hk⟩, k, (((after E clientId maxRetries es).g.setWaiters (after E clientId maxRetries es).g.waiters.tail).take u), hk, rfl, ?_⟩
      simp only [Sys.step, hk, hl, hq, List.head?_cons, and_self, if_true]

end

/-- A task that waits for a lock, as a decidable test. -/
def Sys.waitsNow (s : Sys) (t : Nat) : Bool :=
  match s.tasks[t]? with
  | some x => x.waits
  | none => false

theorem waitsNow_iff {s : Sys} {t : Nat} (h : s.waitsNow t = true) : s.waiting t := by
  simp only [Sys.waitsNow] at h
  split at h
  · rename_i x hx
    obtain ⟨k, rfl⟩ := waits_iff.1 h
    exact ⟨k, hx⟩
  · cases h

/-- The hypotheses of the C49 theorems are met: a second subscription waits for the first one, which holds the lock and has
opened no connection; after a refused registration and a reconnection, the first one waits for itself. -/
theorem C49_witness :
    ((after sampleEnv 1 1 (bareConnectEvs ++ [.call (.subscribe 7 12500), .call (.subscribe 8 12505)])).waiting 2 ∧
      (after sampleEnv 1 1 (bareConnectEvs ++ [.call (.subscribe 7 12500), .call (.subscribe 8 12505)])).holding 1 ∧
      (∀ a b, Act.opn a b ∉ (after sampleEnv 1 1 (bareConnectEvs ++ [.call (.subscribe 7 12500), .call (.subscribe 8 12505)])).g.acts 2)) ∧
    ((after sampleEnv 1 1 (bareConnectEvs ++ .call (.subscribe 7 12500) :: refusedClientEvs)).waiting 1 ∧
      (after sampleEnv 1 1 (bareConnectEvs ++ .call (.subscribe 7 12500) :: refusedClientEvs)).holding 1) := by
  refine ⟨⟨waitsNow_iff (by decide +kernel), ?_, ?_⟩, waitsNow_iff (by decide +kernel), ?_⟩
  · unfold Sys.holding; decide +kernel
  · have : (after sampleEnv 1 1 (bareConnectEvs ++ [.call (.subscribe 7 12500), .call (.subscribe 8 12505)])).g.acts 2 = [] := by decide +kernel
    rw [this]
    simp
  · unfold Sys.holding; decide +kernel

end SL
