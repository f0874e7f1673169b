import Verif.Lemmas.Ends
import Verif.Lemmas.Hold
/-!
# The queue of the subscription lock
-/
set_option linter.unusedVariables false

namespace SL

/-- Nobody gets the lock out of turn. -/
theorem settle_turn (t : Nat) {Q : Prop → Except PyErr Res → Gw → Prop} : ∀ (co : Co Res) (r : Prop) (g : Gw), co.hold t Q r g → g.waiters ≠ [] →
    (settle t co g).2.lock = g.lock ∨ (settle t co g).2.lock = none
  | .ret a, r, g, h, hw => .inl rfl
  | .throw e, r, g, h, hw => .inl rfl
  | .get k, r, g, h, hw => settle_turn t (k g) r g h hw
  | .upd f k, r, g, h, hw => by
    have e : (g.apply f).lock = (f g).lock := rfl
    have ew : (g.apply f).waiters = (f g).waiters := rfl
    have := settle_turn t k r (g.apply f) h.2 (by rw [ew, h.1.1]; exact hw)
    rw [e] at this
    show (settle t k (g.apply f)).2.lock = g.lock ∨ (settle t k (g.apply f)).2.lock = none
    rcases this with h1 | h1
    · rcases h.1.2 with h2 | h2
      · exact .inl (h1.trans h2)
      · exact .inr (h1.trans h2)
    · exact .inr h1
  | .request c code data q k, r, g, h, hw => by
    have hq : RelyH t g (g.ask t c code data q).2 := .quiet (quiet_ask _ _ _ _ _ _)
    simp only [settle]
    split
    · rename_i o _
      exact settle_turn t (k o) r ((g.ask t c code data q).2.note t (.got o)) (h r _ o id (hq.trans (.quiet (quiet_note _ _ _)))) hw
    · exact .inl rfl
  | .openConn q k, r, g, h, hw => .inl rfl
  | .sleep k, r, g, h, hw => .inl rfl
  | .close c force k, r, g, h, hw => by
    have hq : RelyH t g (g.startClose t c force).2 := .quiet (quiet_close _ _ _ _)
    simp only [settle]
    split
    · exact settle_turn t _ r (g.startClose t c force).2 (h r _ _ id hq) hw
    · exact .inl rfl
  | .acquire k, r, g, h, hw => by
    simp only [settle]
    split
    · rename_i hc; exact absurd hc.2 hw
    · exact .inl rfl

/-- What an event does to the queue and the lock. -/
inductive Turn (s : Sys) (ev : Ev) (g' : Gw) : Prop
  | stays (l : List Nat) (h : g'.waiters = s.g.waiters ++ l) (hl : s.g.waiters ≠ [] → g'.lock = s.g.lock ∨ g'.lock = none)
  | granted (u : Nat) (w l : List Nat) (he : ev = .resume u) (hn : s.g.lock = none) (hw : s.g.waiters = u :: w) (h : g'.waiters = w ++ l)
  | left (u : Nat) (l : List Nat) (he : ev = .cancel u) (hu : ∃ k, s.tasks[u]? = some (.locked k)) (h : g'.waiters = s.g.waiters.filter (· ≠ u) ++ l)
      (hl : s.g.waiters.filter (· ≠ u) ≠ [] → g'.lock = s.g.lock ∨ g'.lock = none)

theorem queued_append (t : Nat) (x : Task) (w : List Nat) : ∃ l, queued t x w = w ++ l := by
  unfold queued
  split
  · exact ⟨_, rfl⟩
  · exact ⟨[], by simp⟩

theorem step_turn {E : Env} {s : Sys} (hs : SysOk E False s) {R R' : Nat → Prop} (h : s.Hold R) (ev : Ev) (hR : ∀ t, R t → R' t)
    (ho : ∀ t, s.opening t → s.g.lock = some t → R' t) : Turn s ev (s.step E ev).g := by
  have env : ∀ g', EnvStep E s.g g' → Turn s ev g' := fun g' he => .stays [] (by rw [env_waiters he]; simp) (fun _ => .inl (quiet_env he).lock)
  have no : Turn s ev s.g := env s.g .nothing
  have run : ∀ {t : Nat} {co : Co Res} {g0 : Gw}, g0.lock = s.g.lock → g0.waiters = s.g.waiters → ∀ r : Prop, co.hold t (fun _ _ g => g.lock ≠ some t) r g0 →
      Turn s ev (settle t co g0).2 := by
    intro t co g0 h1 h2 r hco
    obtain ⟨-, k2, -⟩ := settle_hold t co r g0 hco
    obtain ⟨l, hl⟩ := queued_append t (settle t co g0).1 g0.waiters
    rw [hl, h2] at k2
    exact .stays l k2 (fun hne => by rw [← h1]; exact settle_turn t co r g0 hco (by rw [h2]; exact hne))
  have spawn : ∀ {co : Co Res} {g0 : Gw}, g0.lock = s.g.lock → g0.waiters = s.g.waiters → co.HoldR s.tasks.length → Turn s ev (Sys.spawn { s with g := g0 } co).g := by
    intro co g0 h1 h2 hco
    have hnl : g0.lock ≠ some s.tasks.length := by
      rw [h1]
      intro hl
      exact absurd (h.lt _ hl) (Nat.lt_irrefl _)
    exact run h1 h2 (R' s.tasks.length) (Co.hold_mono (fun r o g (hq : holdEnd s.tasks.length _ g0 r o g) => fun (l : g.lock = some s.tasks.length) => hnl (hq.2.mine.1 l)) _ _ _
      (hco g0 (R' s.tasks.length) (fun l => absurd l hnl)))
  cases ev with
  | call a => exact spawn (g0 := s.g) rfl rfl (holdR_call E _ a)
  | setMaxRetries n => exact env _ (.setMaxRetries n)
  | unsubscribe u => exact env _ (.unsubscribe u)
  | registerHandler code h' =>
    simp only [Sys.step]
    split
    · exact env _ (.register _ code h')
    · exact no
  | removeHandler code =>
    simp only [Sys.step]
    split
    · exact env _ (.unregister _ code)
    · exact no
  | opened t' ok =>
    simp only [Sys.step]
    split
    · rename_i r k hx
      have ht := h.task t' _ hx
      have hop := ho t' ⟨r, k, hx⟩
      split
      · refine run (g0 := s.g.addConn) rfl rfl (R' t') ?_
        refine Co.hold_bindE k _ _ _ (Co.hold_mono ?_ _ _ _ (holdR_afterOpen E t' r s.g.conns.length s.g.addConn (R' t') hop))
        intro r' o g' hq
        refine ht r' g' o (fun x => hq.1 (hR t' x)) (fun l => hq.1 (hop l)) (RelyH.trans ?_ hq.2)
        exact .star hs.inv (Star.tail (.refl _) (MicroBut.conn s.g (E := E) (U := False)))
      · exact run (g0 := s.g) rfl rfl (R' t') (ht _ _ _ (hR t') hop (.refl _ _))
    · exact no
  | resume t' =>
    simp only [Sys.step]
    split
    · rename_i hx
      have ht := h.task t' _ hx
      split
      · rename_i o _
        exact run (g0 := s.g.note t' (.got o)) rfl rfl (R' t') (ht _ _ o (hR t') (.quiet (quiet_note _ _ _)))
      · exact no
    · rename_i hx
      have ht := h.task t' _ hx
      exact run (g0 := s.g) rfl rfl (R' t') (ht _ _ _ (hR t') (.refl _ _))
    · rename_i hx
      have ht := h.task t' _ hx
      split
      · exact run (g0 := s.g) rfl rfl (R' t') (ht _ _ _ (hR t') (.refl _ _))
      · exact no
    · rename_i k hx
      have ht := h.task t' _ hx
      split
      · rename_i hc
        obtain ⟨w, hw⟩ : ∃ w, s.g.waiters = t' :: w := by
          cases hws : s.g.waiters with
          | nil => rw [hws] at hc; exact absurd hc.2 (by simp)
          | cons a w =>
            rw [hws] at hc
            simp only [List.head?_cons, Option.some.injEq] at hc
            exact ⟨w, by rw [hc.2]⟩
        obtain ⟨-, k2, -⟩ := settle_hold t' (k (.ok ())) (R' t') ((s.g.setWaiters s.g.waiters.tail).take t') (ht.2.1 (R' t') _ (hR t') (by rw [hc.1]; simp) rfl)
        obtain ⟨l, hl⟩ := queued_append t' (settle t' (k (.ok ())) ((s.g.setWaiters s.g.waiters.tail).take t')).1 ((s.g.setWaiters s.g.waiters.tail).take t').waiters
        rw [hl] at k2
        refine .granted t' w l rfl hc.1 hw (k2.trans ?_)
        show s.g.waiters.tail ++ l = w ++ l
        rw [hw]; rfl
      · exact no
    · exact no
  | cancel t' =>
    simp only [Sys.step]
    split
    · rename_i q k hx
      have ht := h.task t' _ hx
      exact run (g0 := s.g) rfl rfl (R' t') (ht _ _ _ (hR t') (ho t' ⟨q, k, hx⟩) (.refl _ _))
    · rename_i hx
      have ht := h.task t' _ hx
      exact run (g0 := s.g) rfl rfl (R' t') (ht _ _ _ (hR t') (.refl _ _))
    · rename_i k hx
      have ht := h.task t' _ hx
      have hco := ht.2.2 (R' t') (s.g.setWaiters (s.g.waiters.filter (· ≠ t'))) (hR t') (.quiet (.same rfl rfl rfl rfl rfl))
      obtain ⟨-, k2, -⟩ := settle_hold t' (k (.error .cancelled)) (R' t') (s.g.setWaiters (s.g.waiters.filter (· ≠ t'))) hco
      obtain ⟨l, hl⟩ := queued_append t' (settle t' (k (.error .cancelled)) (s.g.setWaiters (s.g.waiters.filter (· ≠ t')))).1 (s.g.setWaiters (s.g.waiters.filter (· ≠ t'))).waiters
      rw [hl] at k2
      exact .left t' l rfl ⟨k, hx⟩ k2 (fun hne => settle_turn t' _ _ _ hco hne)
    · exact no
  | net c e =>
    simp only [Sys.step]
    split
    · rename_i he
      exact env _ (.net c e he)
    · exact no
  | handle c => exact env _ (.handle c)
  | ping c =>
    simp only [Sys.step]
    split
    · split
      · exact spawn (g0 := s.g.countPing c) rfl rfl (holdR_ping _)
      · exact no
    · exact no
  | runUnsub =>
    simp only [Sys.step]
    split
    · exact spawn (g0 := s.g.takeUnsub) rfl rfl (holdR_unsub _)
    · exact no
  | tick q => exact env _ (.tick q)

/-- Those before `t` in the queue. -/
def ahead (t : Nat) (w : List Nat) : List Nat := w.takeWhile (· ≠ t)

theorem ahead_append {t : Nat} {w : List Nat} (h : t ∈ w) (l : List Nat) : ahead t (w ++ l) = ahead t w := by
  induction w with
  | nil => cases h
  | cons a w ih =>
    unfold ahead at ih ⊢
    by_cases ha : a = t
    · simp [ha]
    · simp only [List.cons_append, List.takeWhile_cons, ha, ne_eq, not_false_eq_true, decide_true, if_true]
      rw [ih ((List.mem_cons.1 h).resolve_left (fun e => ha e.symm))]

theorem ahead_filter {t u : Nat} (hu : u ≠ t) (w : List Nat) : ahead t (w.filter (· ≠ u)) = (ahead t w).filter (· ≠ u) := by
  induction w with
  | nil => rfl
  | cons a w ih =>
    unfold ahead at ih ⊢
    by_cases ha : a = t
    · subst ha
      simp [Ne.symm hu]
    · by_cases hau : a = u
      · subst hau
        simp [ha] at ih ⊢
        exact ih
      · simp [ha, hau] at ih ⊢
        exact ih

theorem ahead_head {t : Nat} {w : List Nat} (h : t ∈ w) : w.head? = (ahead t w ++ [t]).head? := by
  cases w with
  | nil => cases h
  | cons a w =>
    unfold ahead
    by_cases ha : a = t
    · simp [ha]
    · simp [ha]

/-- While `t` waits, those before it only get fewer; while they are the same, the lock is given to nobody. -/
theorem step_ahead {E : Env} {s : Sys} (hs : SysOk E False s) {R R' : Nat → Prop} (h : s.Hold R) (ev : Ev) (hR : ∀ t, R t → R' t)
    (ho : ∀ t, s.opening t → s.g.lock = some t → R' t) {t : Nat} {k : Except PyErr Unit → Co Res} (hk : s.tasks[t]? = some (.locked k))
    (hnf : ¬ s.Fires E t (.locked k) ev) :
    (ahead t (s.step E ev).g.waiters = ahead t s.g.waiters ∧ ((s.step E ev).g.lock = s.g.lock ∨ (s.step E ev).g.lock = none)) ∨
    (ahead t (s.step E ev).g.waiters).length < (ahead t s.g.waiters).length := by
  have hm : t ∈ s.g.waiters := (h.iff t).2 ⟨k, hk⟩
  cases step_turn hs h ev hR ho with
  | stays l hw hl => exact .inl ⟨by rw [hw, ahead_append hm], hl (by rintro e; rw [e] at hm; cases hm)⟩
  | granted u w l he hn hw h' =>
    have hut : u ≠ t := by
      rintro rfl
      refine hnf ⟨k (.ok ()), (s.g.setWaiters s.g.waiters.tail).take u, ⟨_, rfl⟩, ?_⟩
      rw [he]
      simp only [Sys.step, hk]
      rw [if_pos ⟨hn, by rw [hw]; rfl⟩]
    right
    rw [hw] at hm
    have hm' : t ∈ w := (List.mem_cons.1 hm).resolve_left (Ne.symm hut)
    rw [h', hw, ahead_append hm']
    have : ahead t (u :: w) = u :: ahead t w := by simp [ahead, hut]
    rw [this]
    simp
  | left u l he hu h' hl =>
    have hut : u ≠ t := by
      rintro rfl
      refine hnf ⟨k (.error .cancelled), s.g.setWaiters (s.g.waiters.filter (· ≠ u)), ⟨_, rfl⟩, ?_⟩
      rw [he]
      simp only [Sys.step, hk]
    have hm' : t ∈ s.g.waiters.filter (· ≠ u) := by
      rw [List.mem_filter]
      exact ⟨hm, by simpa using Ne.symm hut⟩
    have hah : ahead t (s.step E ev).g.waiters = (ahead t s.g.waiters).filter (· ≠ u) := by
      rw [h', ahead_append hm', ahead_filter hut]
    by_cases hlt : (ahead t (s.step E ev).g.waiters).length < (ahead t s.g.waiters).length
    · exact .inr hlt
    · refine .inl ⟨?_, hl (by intro e; rw [e] at hm'; cases hm')⟩
      rw [hah] at hlt ⊢
      exact List.filter_sublist.eq_of_length_le (by omega)

end SL
