import Verif.Lemmas.Patience
import Verif.Props.TimingProps
import Verif.Props.ProgressProps
import Verif.Props.DisconnectProps
/-!
# C107: nothing is given up early
-/
set_option linter.unusedVariables false
set_option maxRecDepth 20000

namespace SL
open Spec

/-- The earliest time, after its begin, at which an unanswered request on a connection that is up can come into its state. -/
def Req.floor (r : Req) : Nat :=
  match r.phase with
  | .waiting _ false false => before r.attempt
  | .waiting _ true false => before r.attempt + 2000
  | .sleeping => before r.attempt + 2000
  | .done (.raised .slConnection) => before r.attempt + 2000
  | _ => 0

theorem pauses_before (k : Nat) : before k = pauses k + 2000 * k := by
  induction k with
  | zero => rfl
  | succ k ih => simp only [before, pauses, ih]; omega

/-- What a request says about the time it has taken: `σ` is when it last changed. -/
structure Req.Slow (r : Req) (b σ : Nat) (x : Conn) : Prop where
  mine : r.mine.length ≤ r.attempt + 1
  pause : b + pauses r.attempt ≤ σ
  full : x.w.p.connected = true → (∀ f ∈ r.mine, ∀ m, x.w.p.futs[f]? ≠ some (.result m)) →
    b + r.floor ≤ σ ∧ (r.phase = .done (.raised .slConnection) → (r.attempt : Int) = r.maxRetries)

theorem Req.Slow.mono {r : Req} {b σ σ' : Nat} {x x' : Conn} (h : r.Slow b σ x) (hs : σ ≤ σ') (hl : Later x.w.p x'.w.p) : r.Slow b σ' x' := by
  refine ⟨h.mine, Nat.le_trans h.pause hs, fun hc hu => ?_⟩
  have := h.full (by
    cases e : x.w.p.connected with
    | true => rfl
    | false => rw [hl.disconnected e] at hc; cases hc) (fun f hf m hm => hu f hf m (hl.result f m hm))
  exact ⟨Nat.le_trans this.1 hs, this.2⟩

theorem late_answer {b σ σ' τ B : Nat} (h3 : b + B ≤ σ) (h4 : σ + 2000 ≤ τ) (h5 : σ' = τ) : b + (B + 2000) ≤ σ' := by omega

theorem late_pause {b σ σ' τ B k : Nat} (h3 : b + (B + 2000) ≤ σ) (h4 : σ + 1000 * (k + 1) ≤ τ) (h5 : σ' = τ) : b + (B + 2000 + 1000 * (k + 1)) ≤ σ' := by omega

/-- A request goes on, in time. -/
theorem slow_goes {r r' : Req} {b σ σ' τ : Nat} {x x' : Conn} {c i : Nat} {e : Event} {es : List Event} (h : r.Slow b σ x) (hok : ReqOk x.w.p es i r)
    (hl : Later x.w.p x'.w.p) (hg : Goes x.w x'.w i r e r') (hσ : σ ≤ σ') (hτ : r' ≠ r → σ' = τ) (hp : RingsFor c i r (.net c e) → σ + r.dur ≤ τ) :
    r'.Slow b σ' x' := by
  have up : x'.w.p.connected = true → x.w.p.connected = true := fun hc => by
    cases e : x.w.p.connected with
    | true => rfl
    | false => rw [hl.disconnected e] at hc; cases hc
  have back : ∀ {l : List Nat}, (∀ f ∈ r.mine ++ l, ∀ m, x'.w.p.futs[f]? ≠ some (.result m)) → ∀ f ∈ r.mine, ∀ m, x.w.p.futs[f]? ≠ some (.result m) :=
    fun hu f hf m hm => hu f (List.mem_append_left _ hf) m (hl.result f m hm)
  have back0 : (∀ f ∈ r.mine, ∀ m, x'.w.p.futs[f]? ≠ some (.result m)) → ∀ f ∈ r.mine, ∀ m, x.w.p.futs[f]? ≠ some (.result m) :=
    fun hu f hf m hm => hu f hf m (hl.result f m hm)
  have h1 := h.mine
  have h2 := h.pause
  cases hg with
  | same => exact h.mono hσ hl
  | timeout f ca hph =>
    refine ⟨h1, show b + pauses r.attempt ≤ σ' by omega, fun hc hu => ⟨?_, fun hd => by cases hd⟩⟩
    cases ca with
    | true => exact Nat.le_trans (by simp only [Req.floor]; omega) (Nat.le_trans h2 hσ)
    | false =>
      have h3 := (h.full (up hc) (back0 hu)).1
      have h4 := hp (.answer f hph)
      have h5 : σ' = τ := hτ (fun e => by rw [← e] at hph; cases hph)
      have e3 : r.floor = before r.attempt := by unfold Req.floor; rw [hph]
      have e4 : r.dur = 2000 := by unfold Req.dur; rw [hph]; rfl
      rw [e3] at h3
      rw [e4] at h4
      exact late_answer h3 h4 h5
  | cancel f ex ca hph =>
    refine ⟨h1, show b + pauses r.attempt ≤ σ' by omega, fun hc hu => ⟨?_, fun hd => by cases hd⟩⟩
    refine Nat.le_trans ?_ (Nat.le_trans h2 hσ)
    cases ex <;> (simp only [Req.floor]; omega)
  | cancelled hph =>
    refine ⟨h1, show b + pauses r.attempt ≤ σ' by omega, fun hc hu => ⟨?_, fun hd => by cases hd⟩⟩
    exact Nat.le_trans (by simp only [Req.floor]; omega) (Nat.le_trans h2 hσ)
  | gone f ex ca hph hcn hk =>
    refine ⟨h1, show b + pauses r.attempt ≤ σ' by omega, fun hc hu => ⟨?_, fun hd => by cases hd⟩⟩
    exact Nat.le_trans (by simp only [Req.floor]; omega) (Nat.le_trans h2 hσ)
  | down f ex ca hph hcn o =>
    refine ⟨h1, show b + pauses r.attempt ≤ σ' by omega, fun hc hu => ?_⟩
    rw [hcn] at hc; cases hc
  | heard f ex ca hph m hf hf' =>
    have e1 : (r.onResult m).mine = r.mine ∧ (r.onResult m).attempt = r.attempt := by
      simp only [Req.onResult, Req.endAttempt]
      repeat' (first | exact ⟨rfl, rfl⟩ | split)
    refine ⟨by rw [e1.1, e1.2]; exact h1, by rw [e1.2]; omega, fun hc hu => ?_⟩
    rw [e1.1] at hu
    obtain ⟨init, hm, -⟩ := hok.waiting f ex ca hph
    exact absurd hf (back0 hu f (by rw [hm]; simp) m)
  | expired f hph =>
    have e1 : (r.endAttempt .slConnection).mine = r.mine ∧ (r.endAttempt .slConnection).attempt = r.attempt := by
      simp only [Req.endAttempt]
      split <;> exact ⟨rfl, rfl⟩
    refine ⟨by rw [e1.1, e1.2]; exact h1, by rw [e1.2]; omega, fun hc hu => ?_⟩
    rw [e1.1] at hu
    have h3 := (h.full (up hc) (back0 hu)).1
    simp only [Req.floor, hph] at h3
    simp only [Req.endAttempt]
    split
    · rename_i hat
      exact ⟨by simp only [Req.floor]; omega, fun _ => hat⟩
    · exact ⟨by simp only [Req.floor]; omega, fun hd => by cases hd⟩
  | again hph f l hlen =>
    have h4 := hp (.pause hph)
    have h5 : σ' = τ := hτ (fun e => by rw [← e] at hph; cases hph)
    obtain ⟨s1, s2, s3, s4⟩ := hok.sleeping hph
    have hd : r.dur = 1000 * (r.attempt + 1) := by
      simp only [Req.dur, hph, second]
      rw [hok.sleeps, s2, List.range_succ, List.map_append, List.map_singleton, List.getLast?_concat]
      rfl
    refine ⟨?_, ?_, fun hc hu => ⟨?_, fun hd => by cases hd⟩⟩
    · simp only [List.length_append]; omega
    · simp only [pauses]; omega
    · have h3 := (h.full (up hc) (back hu)).1
      have e3 : r.floor = before r.attempt + 2000 := by unfold Req.floor; rw [hph]
      rw [e3] at h3
      exact late_pause h3 (hd ▸ h4) h5
  | over hph l hlen o ho =>
    have h4 := hp (.pause hph)
    have h5 : σ' = τ := hτ (fun e => by rw [← e] at hph; cases hph)
    obtain ⟨s1, s2, s3, s4⟩ := hok.sleeping hph
    have hd : r.dur = 1000 * (r.attempt + 1) := by
      simp only [Req.dur, hph, second]
      rw [hok.sleeps, s2, List.range_succ, List.map_append, List.map_singleton, List.getLast?_concat]
      rfl
    have hne : x'.w.p.connected = true → o ≠ .raised .slConnection := fun hc he => by rw [ho he] at hc; cases hc
    refine ⟨?_, ?_, fun hc hu => ⟨?_, fun hd => ?_⟩⟩
    · simp only [List.length_append]; omega
    · simp only [pauses]; omega
    · have := hne hc
      simp only [Req.floor]
      split
      · rename_i e; cases e
      · rename_i e; cases e
      · rename_i e; cases e
      · rename_i e; cases e; exact absurd rfl this
      · omega
    · cases hd; exact absurd rfl (hne hc)

theorem slow_fresh {r : Req} {σ : Nat} {x : Conn} (h : r.Fresh x.w) : r.Slow σ σ x := by
  refine ⟨by have := h.mine; omega, by rw [h.attempt]; simp [pauses], fun hc hu => ?_⟩
  rcases h.phase with ⟨f, e⟩ | ⟨o, e, ho⟩
  · exact ⟨by simp only [Req.floor, e, h.attempt, before]; omega, fun hd => by rw [e] at hd; cases hd⟩
  · have hne : o ≠ .raised .slConnection := fun he => by rw [ho he] at hc; cases hc
    refine ⟨?_, fun hd => ?_⟩
    · simp only [Req.floor, e]
      split
      · rename_i e; cases e
      · rename_i e; cases e
      · rename_i e; cases e
      · rename_i e; cases e; exact absurd rfl hne
      · omega
    · rw [e] at hd; cases hd; exact absurd rfl hne

section
variable {E : Env} {clientId maxRetries : Int}

theorem slow_run {b c i : Nat} : ∀ (l : List (Nat × Ev)) {x : Timed} {es : List Ev} {y : Conn} {r : Req}, x.s = after E clientId maxRetries es → x.Past →
    Patient E x l → x.s.g.conns[c]? = some y → y.w.reqs[i]? = some r → r.Slow b (x.req c i) y →
    ∃ y' r', (x.run E l).s.g.conns[c]? = some y' ∧ y'.w.reqs[i]? = some r' ∧ r'.Slow b ((x.run E l).req c i) y'
  | [], x, es, y, r, hx, hp, hl, hy, hr, h => ⟨y, r, hy, hr, h⟩
  | (τ, ev) :: l, x, es, y, r, hx, hp, hl, hy, hr, h => by
    obtain ⟨l1, l2, l3⟩ := hl
    have hs : (x.step E τ ev).s = after E clientId maxRetries (es ++ [ev]) := by
      show x.s.step E ev = _
      rw [after_snoc, hx]
    have hy0 := hy
    rw [hx] at hy0
    obtain ⟨y', r', h1, h2, h3, h4⟩ := req_goes es ev hy0 hr
    rw [← hs] at h1
    have hreq : (x.step E τ ev).req c i = if r' = r then x.req c i else τ := by
      have h1' : (x.s.step E ev).g.conns[c]? = some y' := h1
      simp only [Timed.step, theReq_eq h1', theReq_eq hy, h2, hr, Option.some.injEq]
    have hle : x.req c i ≤ (x.step E τ ev).req c i := by
      rw [hreq]
      have := hp.req c i
      split <;> omega
    refine slow_run l (y := y') (r := r') hs (hp.step l1 ev) l3 h1 h2 ?_
    rcases h4 with e | ⟨e, he, hg⟩
    · rw [e]; exact h.mono hle h3
    · subst he
      obtain ⟨es', hw⟩ := (reach_begun E clientId maxRetries es y (List.mem_of_getElem? hy0)).1
      have hok : ReqOk y.w.p es' i r := by rw [hw] at hr ⊢; exact (worldOk es').reqs i r hr
      exact slow_goes (τ := τ) h hok h3 hg hle (fun hne => by rw [hreq, if_neg hne]) (fun hrings => l2 c i r (by rw [theReq_eq hy, hr]) hrings)

theorem patient_append {l l' : List (Nat × Ev)} : ∀ {x : Timed}, Patient E x (l ++ l') → Patient E x l ∧ Patient E (x.run E l) l' := by
  induction l with
  | nil => exact fun h => ⟨trivial, h⟩
  | cons e l ih => exact fun h => ⟨⟨h.1, h.2.1, (ih h.2.2).1⟩, (ih h.2.2).2⟩

theorem patient_past : ∀ {l : List (Nat × Ev)} {x : Timed}, x.Past → Patient E x l → (x.run E l).Past
  | [], _, h, _ => h
  | e :: l, x, h, hp => patient_past (l := l) (x := x.step E e.1 e.2) (h.step hp.1 e.2) hp.2.2

/-- A request that was made at time `b`. -/
def MadeAt (E : Env) (clientId maxRetries : Int) (l : List (Nat × Ev)) (b : Nat) (ev : Ev) (c i : Nat) : Prop :=
  ((Timed.init clientId maxRetries).run E l).s.g.theReq c i = none ∧ ((Timed.init clientId maxRetries).run E (l ++ [(b, ev)])).s.g.theReq c i ≠ none

theorem slow_made {l l' : List (Nat × Ev)} {b : Nat} {ev : Ev} {c i : Nat} (hp : Patient E (.init clientId maxRetries) (l ++ [(b, ev)] ++ l'))
    (hm : MadeAt E clientId maxRetries l b ev c i) {r : Req} (hr : ((Timed.init clientId maxRetries).run E (l ++ [(b, ev)] ++ l')).s.g.theReq c i = some r) :
    ∃ y, ((Timed.init clientId maxRetries).run E (l ++ [(b, ev)] ++ l')).s.g.conns[c]? = some y ∧ y.w.reqs[i]? = some r ∧
      r.Slow b (((Timed.init clientId maxRetries).run E (l ++ [(b, ev)] ++ l')).req c i) y := by
  obtain ⟨h1, h2⟩ := patient_append hp
  obtain ⟨h0, h1⟩ := patient_append h1
  have hpast0 : (Timed.init clientId maxRetries).Past := ⟨fun _ _ => Nat.le_refl _, fun t ht => by cases ht⟩
  have hpast := patient_past hpast0 h0
  have hs : ((Timed.init clientId maxRetries).run E l).s = after E clientId maxRetries (l.map (·.2)) := timed_run_s E l _
  obtain ⟨m1, m2⟩ := hm
  rw [timed_run_append] at m2
  rw [timed_run_append, timed_run_append] at hr ⊢
  rw [timed_run_append] at h2
  generalize hx : (Timed.init clientId maxRetries).run E l = x at *
  have hs1 : (x.step E b ev).s = after E clientId maxRetries (l.map (·.2) ++ [ev]) := by
    show x.s.step E ev = _
    rw [after_snoc, hs]
  have m2 : (x.step E b ev).s.g.theReq c i ≠ none := m2
  obtain ⟨r0, hr0⟩ := Option.ne_none_iff_exists'.1 m2
  obtain ⟨y0, hy0, hq0⟩ := theReq_of hr0
  have hf : r0.Fresh y0.w := req_new (l.map (·.2)) ev (by rw [← hs]; exact m1) (by rw [← hs1]; exact hy0) hq0
  have hreq : (x.step E b ev).req c i = b := by
    have e : (x.s.step E ev).g.theReq c i = some r0 := hr0
    simp only [Timed.step, e, m1]
    rw [if_neg (by simp)]
  obtain ⟨y', r', k1, k2, k3⟩ := slow_run l' hs1 (hpast.step h1.1 ev) h2 hy0 hq0 (by rw [hreq]; exact slow_fresh hf)
  have e := theReq_eq (i := i) k1
  rw [k2] at e
  have hr : ((x.step E b ev).run E l').s.g.theReq c i = some r := hr
  rw [hr] at e; cases e
  exact ⟨y', k1, k2, k3⟩

theorem pauses_mono {a k : Nat} (h : k ≤ a) : pauses k ≤ pauses a := by
  obtain ⟨d, rfl⟩ := Nat.exists_eq_add_of_le h
  clear h
  induction d with
  | zero => exact Nat.le_refl _
  | succ d ih =>
    have : pauses (k + (d + 1)) = pauses (k + d) + 1000 * (k + d + 1) := rfl
    omega

/-- **C107** (a request is not repeated early).  In a history in which no timer goes off early, a request that was made at time `b` sends its message for
the `k + 1`-st time no earlier than `1 + 2 + ... + k` seconds later, whatever is answered and whatever happens to the connection. -/
theorem C107_backoff {l l' : List (Nat × Ev)} {b : Nat} {ev : Ev} {c i k : Nat} (hp : Patient E (.init clientId maxRetries) (l ++ [(b, ev)] ++ l'))
    (hm : MadeAt E clientId maxRetries l b ev c i) {r : Req} (hr : ((Timed.init clientId maxRetries).run E (l ++ [(b, ev)] ++ l')).s.g.theReq c i = some r)
    (hk : k + 1 ≤ r.mine.length) : b + pauses k ≤ ((Timed.init clientId maxRetries).run E (l ++ [(b, ev)] ++ l')).now := by
  obtain ⟨y, h1, h2, h3⟩ := slow_made hp hm hr
  have hpast := patient_past (l := l ++ [(b, ev)] ++ l') (x := .init clientId maxRetries) ⟨fun _ _ => Nat.le_refl _, fun t ht => by cases ht⟩ hp
  have e1 := h3.mine
  have e2 := h3.pause
  have e3 := hpast.req c i
  have e4 : pauses k ≤ pauses r.attempt := pauses_mono (by omega)
  omega

/-- **C107** (an unanswered request takes its whole time).  If a request has raised `ScreenLogicConnectionError` although the connection is still up, and none
of its messages has been answered, then it has sent its message one time more than it has retries, and it has not taken less than the whole time: 2 s for every attempt
and the pauses between them. -/
theorem C107_unanswered {l l' : List (Nat × Ev)} {b : Nat} {ev : Ev} {c i : Nat} (hp : Patient E (.init clientId maxRetries) (l ++ [(b, ev)] ++ l'))
    (hm : MadeAt E clientId maxRetries l b ev c i) {r : Req} (hr : ((Timed.init clientId maxRetries).run E (l ++ [(b, ev)] ++ l')).s.g.theReq c i = some r)
    (hup : ((Timed.init clientId maxRetries).run E (l ++ [(b, ev)] ++ l')).s.g.linkUp c)
    (hu : ((Timed.init clientId maxRetries).run E (l ++ [(b, ev)] ++ l')).s.g.unheard c r)
    (hd : r.phase = .done (.raised .slConnection)) :
    (r.mine.length : Int) = r.maxRetries + 1 ∧ b + requestTime r.maxRetries.toNat ≤ ((Timed.init clientId maxRetries).run E (l ++ [(b, ev)] ++ l')).now := by
  obtain ⟨y, h1, h2, h3⟩ := slow_made hp hm hr
  have hpast := patient_past (l := l ++ [(b, ev)] ++ l') (x := .init clientId maxRetries) ⟨fun _ _ => Nat.le_refl _, fun t ht => by cases ht⟩ hp
  have e3 := hpast.req c i
  obtain ⟨y', hy', hc⟩ := hup
  rw [h1] at hy'; cases hy'
  obtain ⟨e1, e2⟩ := h3.full hc (hu y h1)
  have e2 := e2 hd
  have hs : ((Timed.init clientId maxRetries).run E (l ++ [(b, ev)] ++ l')).s = after E clientId maxRetries ((l ++ [(b, ev)] ++ l').map (·.2)) := timed_run_s E _ _
  rw [hs] at h1
  obtain ⟨es', hw⟩ := (reach_begun E clientId maxRetries _ y (List.mem_of_getElem? h1)).1
  have hok : ReqOk y.w.p es' i r := by rw [hw] at h2 ⊢; exact (worldOk es').reqs i r h2
  have ho := hok.outcome _ hd
  have e4 : r.floor = before r.attempt + 2000 := by unfold Req.floor; rw [hd]
  rw [e4, ← before_time] at e1
  have e5 : r.maxRetries.toNat = r.attempt := by omega
  rw [e5]
  rcases ho with ho | ⟨ho, -⟩
  · rw [hc] at ho; cases ho
  · exact ⟨ho, Nat.le_trans e1 e3⟩

theorem heard_run {c i f σ : Nat} {r : Req} (hph : r.phase = .waiting f false false) : ∀ (l : List (Nat × Ev)) {x : Timed} {es : List Ev},
    x.s = after E clientId maxRetries es → Patient E x l → (∀ e ∈ l, e.1 < σ + 2000 ∧ e.2 ≠ .net c (.cancel i)) → (x.run E l).s.g.linkFine c →
    x.s.g.theReq c i = some r → x.req c i = σ →
    ((x.run E l).s.g.theReq c i = some r ∧ (x.run E l).req c i = σ) ∨ ∃ m, (x.run E l).s.g.fut c f = some (.result m)
  | [], x, es, hx, hl, hq, hf, hr, hσ => .inl ⟨hr, hσ⟩
  | (τ, ev) :: l, x, es, hx, hl, hq, hf, hr, hσ => by
    obtain ⟨l1, l2, l3⟩ := hl
    obtain ⟨q1, q2⟩ := hq (τ, ev) (List.mem_cons_self ..)
    have hs : (x.step E τ ev).s = after E clientId maxRetries (es ++ [ev]) := by
      show x.s.step E ev = _
      rw [after_snoc, hx]
    obtain ⟨y, hy, hry⟩ := theReq_of hr
    have hy0 := hy
    rw [hx] at hy0
    obtain ⟨y', r', h1, h2, h3, h4⟩ := req_goes es ev hy0 hry
    rw [← hs] at h1
    have hreq : (x.step E τ ev).req c i = if r' = r then x.req c i else τ := by
      have h1' : (x.s.step E ev).g.conns[c]? = some y' := h1
      simp only [Timed.step, theReq_eq h1', theReq_eq hy, h2, hry, Option.some.injEq]
    -- the connection stays fine, and an answer stays there
    obtain ⟨z, z1, z2, z3⟩ := hf
    have hrun : (x.run E ((τ, ev) :: l)).s = Sys.run E (x.step E τ ev).s (l.map (·.2)) := timed_run_s E l (x.step E τ ev)
    have hend : (x.run E ((τ, ev) :: l)).s = after E clientId maxRetries (es ++ [ev] ++ l.map (·.2)) := by
      rw [hrun, hs]
      simp only [after, Sys.run, List.foldl_append]
    have h1s := h1
    rw [hs] at h1s
    obtain ⟨z', l', z1', hw', -⟩ := (after_grows (E := E) (clientId := clientId) (maxRetries := maxRetries) (es ++ [ev]) (l.map (·.2))).keep c y' h1s
    rw [← hend, z1] at z1'
    cases z1'
    have hlater : Later y'.w.p z.w.p := by rw [hw']; exact run_later _ _
    have upz : y'.w.p.connected = true := by
      cases e : y'.w.p.connected with
      | true => rfl
      | false => rw [hlater.disconnected e] at z2; cases z2
    have same : r' = r → ((x.run E ((τ, ev) :: l)).s.g.theReq c i = some r ∧ (x.run E ((τ, ev) :: l)).req c i = σ) ∨
        ∃ m, (x.run E ((τ, ev) :: l)).s.g.fut c f = some (.result m) := fun he =>
      heard_run hph l hs l3 (fun e he => hq e (List.mem_cons_of_mem _ he)) ⟨z, z1, z2, z3⟩ (by rw [theReq_eq h1, h2, he]) (by rw [hreq, if_pos he, hσ])
    rcases h4 with e | ⟨e, he, hg⟩
    · exact same e
    · subst he
      cases hg with
      | same => exact same rfl
      | timeout f' ca h =>
        rw [hph] at h; cases h
        have := l2 c i r hr (.answer f hph)
        have e4 : r.dur = 2000 := by unfold Req.dur; rw [hph]; rfl
        rw [e4, hσ] at this
        exact absurd q1 (Nat.not_lt.2 this)
      | cancel => exact absurd rfl q2
      | cancelled h => rw [hph] at h; cases h
      | gone f' ex ca h hp hk =>
        rw [hph] at h; cases h
        obtain ⟨k1, k2⟩ := hk rfl rfl
        obtain ⟨es', hw⟩ := (reach_begun E clientId maxRetries es y (List.mem_of_getElem? hy0)).1
        have hok : ReqOk y.w.p es' i r := by rw [hw] at hry ⊢; exact (worldOk es').reqs i r hry
        obtain ⟨init, m1, -, -, -, -, -, -, m2⟩ := hok.waiting f false false hph
        have hlt := (hok.mine f (by rw [m1]; simp)).1
        have hcan : y.w.p.futs[f]? = some .cancelled := by
          rw [List.getElem?_eq_getElem hlt] at k1 k2 ⊢
          cases e : y.w.p.futs[f] with
          | pending => exact absurd (by rw [e]) k1
          | result m => exact absurd (by rw [e]) (k2 m)
          | cancelled => rfl
        rcases m2 rfl rfl hcan with h | h
        · rw [hlater.closing (h3.closing h)] at z3; cases z3
        · rw [h] at hp; cases hp
      | down f' ex ca h hp => rw [hp] at upz; cases upz
      | heard f' ex ca h m hm hm' =>
        rw [hph] at h; cases h
        refine .inr ⟨m, ?_⟩
        simp only [Gw.fut, z1, Option.bind_some]
        exact hlater.result f m (h3.result f m hm)
      | expired f' h => rw [hph] at h; cases h
      | again h => rw [hph] at h; cases h
      | over h => rw [hph] at h; cases h

/-- **C107** (an answer within two seconds is not missed).  A request that has just sent its message waits for the answer for the whole of the two seconds: as long as less time
has passed, nobody cancels the request and the connection is up, it is waiting with its message unanswered, or its message has been answered. -/
theorem C107_waits {l l' : List (Nat × Ev)} {c i f : Nat} {r : Req} (hp : Patient E (.init clientId maxRetries) (l ++ l'))
    (hr : ((Timed.init clientId maxRetries).run E l).s.g.theReq c i = some r) (hph : r.phase = .waiting f false false)
    (hl : ∀ e ∈ l', e.1 < ((Timed.init clientId maxRetries).run E l).req c i + 2000 ∧ e.2 ≠ .net c (.cancel i))
    (hf : ((Timed.init clientId maxRetries).run E (l ++ l')).s.g.linkFine c) :
    (((Timed.init clientId maxRetries).run E (l ++ l')).s.g.theReq c i = some r ∧ ((Timed.init clientId maxRetries).run E (l ++ l')).s.g.fut c f = some .pending) ∨
    ∃ m, ((Timed.init clientId maxRetries).run E (l ++ l')).s.g.fut c f = some (.result m) := by
  have hs : ((Timed.init clientId maxRetries).run E (l ++ l')).s = after E clientId maxRetries ((l ++ l').map (·.2)) := timed_run_s E _ _
  have hs0 : ((Timed.init clientId maxRetries).run E l).s = after E clientId maxRetries (l.map (·.2)) := timed_run_s E _ _
  obtain ⟨y, hy, hc, hcl⟩ := id hf
  rw [timed_run_append] at hf
  have := heard_run hph l' hs0 (patient_append hp).2 hl hf hr rfl
  rw [← timed_run_append] at this
  rcases this with ⟨h, -⟩ | h
  · obtain ⟨y', hy', hry⟩ := theReq_of h
    rw [hy] at hy'; cases hy'
    have hy0 := hy
    rw [hs] at hy0
    obtain ⟨es', hw⟩ := (reach_begun E clientId maxRetries _ y (List.mem_of_getElem? hy0)).1
    have hok : ReqOk y.w.p es' i r := by rw [hw] at hry ⊢; exact (worldOk es').reqs i r hry
    obtain ⟨init, m1, -, -, -, -, -, -, m2⟩ := hok.waiting f false false hph
    have hlt := (hok.mine f (by rw [m1]; simp)).1
    have hfut : ((Timed.init clientId maxRetries).run E (l ++ l')).s.g.fut c f = y.w.p.futs[f]? := by simp only [Gw.fut, hy, Option.bind_some]
    rw [hfut, List.getElem?_eq_getElem hlt]
    cases e : y.w.p.futs[f] with
    | pending => exact .inl ⟨h, rfl⟩
    | result m => exact .inr ⟨m, rfl⟩
    | cancelled =>
      rcases m2 rfl rfl (by rw [List.getElem?_eq_getElem hlt, e]) with h | h
      · rw [h] at hcl; cases hcl
      · rw [h] at hc; cases hc
  · exact .inr h

/-- What one event of the network does to its connection. -/
theorem conn_net_step {s : Sys} {c : Nat} {y : Conn} (h : s.g.conns[c]? = some y) {e : Event} (he : e.external = true) :
    (s.step E (.net c e)).g.conns[c]? = some { y with w := y.w.step e } := by
  have hc : (s.g.lostCallback c e).conns = s.g.conns := by
    simp only [Gw.lostCallback]
    split
    · split <;> rfl
    · rfl
  simp only [Sys.step, he, if_true, Gw.net, List.getElem?_modify, hc, h]
  simp

/-- **C107** (an answer within two seconds is received).  If the answer to the message a request has just sent arrives less than two seconds after it was sent,
nobody having cancelled the request and the connection being up, then the request returns the answer. -/
theorem C107_answered {l l' : List (Nat × Ev)} {c i f : Nat} {r : Req} (hp : Patient E (.init clientId maxRetries) (l ++ l'))
    (hr : ((Timed.init clientId maxRetries).run E l).s.g.theReq c i = some r) (hph : r.phase = .waiting f false false)
    (hl : ∀ e ∈ l', e.1 < ((Timed.init clientId maxRetries).run E l).req c i + 2000 ∧ e.2 ≠ .net c (.cancel i))
    (hf : ((Timed.init clientId maxRetries).run E (l ++ l')).s.g.linkFine c)
    (hpend : ((Timed.init clientId maxRetries).run E (l ++ l')).s.g.fut c f = some .pending)
    (hb : ∀ y, ((Timed.init clientId maxRetries).run E (l ++ l')).s.g.conns[c]? = some y → y.w.p.buff = [] ∧ y.w.p.futs.length ≤ f + 32767)
    {code : Nat} (hcode : r.code + 1 = (code : Int)) (hc16 : code < 65536) {data : Bytes} (hd : data.length < 2 ^ 32) (τ1 τ2 : Nat) :
    ((Timed.init clientId maxRetries).run E (l ++ l' ++ [(τ1, .net c (.data (frame (f % 32767) code data))), (τ2, .net c (.resume i))])).s.g.outcome c i =
      some (.ok (some data)) := by
  have hw := C107_waits hp hr hph hl hf
  rw [hpend] at hw
  have hr' := (hw.resolve_right (fun ⟨m, h⟩ => by cases h)).1
  obtain ⟨y, hy, hcn, hcl⟩ := hf
  obtain ⟨hbuf, hrecent⟩ := hb y hy
  rw [timed_run_append _ (l ++ l')]
  have hs : ((Timed.init clientId maxRetries).run E (l ++ l')).s = after E clientId maxRetries ((l ++ l').map (·.2)) := timed_run_s E _ _
  generalize (Timed.init clientId maxRetries).run E (l ++ l') = x at *
  have hry : y.w.reqs[i]? = some r := by rw [← theReq_eq hy]; exact hr'
  simp only [Gw.fut, hy, Option.bind_some] at hpend
  have hy0 := hy
  rw [hs] at hy0
  obtain ⟨es', hw'⟩ := (reach_begun E clientId maxRetries _ y (List.mem_of_getElem? hy0)).1
  have hfut := C13_reply_arrives es' f code data (by rw [← hw']; exact hcl) (by rw [← hw']; exact hbuf) (by rw [← hw']; exact hpend) (by rw [← hw']; exact hrecent) hc16 hd
  rw [run_append, ← hw'] at hfut
  have s1 := conn_net_step (E := E) hy (e := .data (frame (f % 32767) code data)) rfl
  have s2 := conn_net_step (E := E) s1 (e := .resume i) rfl
  generalize hw1 : y.w.step (.data (frame (f % 32767) code data)) = w1 at *
  have hfut1 : w1.p.futs[f]? = some (.result ⟨((f % 32767 : Nat) : Int), code, data⟩) := by
    rw [← hw1]
    refine Eq.trans (congrArg (fun l => l[f]?) hfut) ?_
    simp only [List.getElem?_set_self (lt_of_getElem? hpend)]
  have hr1 : w1.reqs = y.w.reqs := by rw [← hw1]; rfl
  have hw2 : w1.step (.resume i) = w1.setReq i { r with phase := .done (.ret (some data)) } := by
    simp only [World.step, hr1, hry, hph, hfut1]
    simp [Req.onResult, hcode]
  rw [timed_run_s]
  show ((x.s.step E (.net c (.data (frame (f % 32767) code data)))).step E (.net c (.resume i))).g.outcome c i = _
  simp only [Gw.outcome, s2, hw2]
  have : i < w1.reqs.length := by rw [hr1]; exact lt_of_getElem? hry
  simp [World.outcome, World.setReq, this]

end

/-! ## Patient histories -/

/-- Whether an event comes too early for the timer it is the end of. -/
def earlyB (x : Timed) (τ : Nat) : Ev → Bool
  | .net c (.timeout i) =>
    match x.s.g.theReq c i with
    | some r =>
      match r.phase with
      | .waiting _ false false => decide (τ < x.req c i + r.dur)
      | _ => false
    | none => false
  | .net c (.wake i) =>
    match x.s.g.theReq c i with
    | some r => decide (r.phase = .sleeping) && decide (τ < x.req c i + r.dur)
    | none => false
  | _ => false

/-- Whether a history is patient, as a computation. -/
def patientB (E : Env) : Timed → List (Nat × Ev) → Bool
  | _, [] => true
  | x, (τ, ev) :: l => decide (x.now ≤ τ) && !earlyB x τ ev && patientB E (x.step E τ ev) l

theorem patientB_sound {E : Env} : ∀ {l : List (Nat × Ev)} {x : Timed}, patientB E x l = true → Patient E x l
  | [], _, _ => trivial
  | (τ, ev) :: l, x, h => by
    simp only [patientB, Bool.and_eq_true, decide_eq_true_eq, Bool.not_eq_true'] at h
    refine ⟨h.1.1, fun c i r hr hring => ?_, patientB_sound h.2⟩
    have h2 := h.1.2
    cases hring with
    | answer f hph => simpa only [earlyB, hr, hph, decide_eq_false_iff_not, Nat.not_lt] using h2
    | pause hph => simpa only [earlyB, hr, hph, decide_true, Bool.true_and, decide_eq_false_iff_not, Nat.not_lt] using h2

/-- An adapter that says nothing: the challenge is sent twice, three seconds apart, and given up after five seconds. -/
theorem C107_witness :
    let l : List (Nat × Ev) := [(0, .call (.connect { ip := some "10.0.0.1" })), (2000, .opened 0 true)];
    let l' := silentEvs.drop 2;
    let x := (Timed.init 0 1).run sampleEnv (l ++ [(2250, .resume 0)] ++ l');
    Patient sampleEnv (.init 0 1) (l ++ [(2250, .resume 0)] ++ l') ∧ MadeAt sampleEnv 0 1 l 2250 (.resume 0) 0 0 ∧ x.now = 2250 + requestTime 1 ∧
    ∃ r, x.s.g.theReq 0 0 = some r ∧ x.s.g.linkUp 0 ∧ x.s.g.unheard 0 r ∧ r.phase = .done (.raised .slConnection) ∧ r.mine.length = 2 := by
  refine ⟨patientB_sound (by decide +kernel), ⟨by decide +kernel, by decide +kernel⟩, by decide +kernel, ?_⟩
  refine ⟨_, rfl, ⟨_, rfl, by decide +kernel⟩, ?_, by decide +kernel, by decide +kernel⟩
  intro x hx f hf m hm
  cases hx
  have h : ∀ s ∈ ((((Timed.init 0 1).run sampleEnv ([(0, Ev.call (.connect { ip := some "10.0.0.1" })), (2000, .opened 0 true)] ++ [(2250, .resume 0)] ++ silentEvs.drop 2)).s.g.conns[0]?.map (·.w.p.futs)).getD []),
      s = .cancelled := by decide +kernel
  cases h _ (List.mem_of_getElem? hm)

/-- An adapter that answers after 1.999 seconds. -/
theorem C107_answered_witness :
    let l : List (Nat × Ev) := [(0, .call (.connect { ip := some "10.0.0.1" })), (2000, .opened 0 true), (2250, .resume 0)];
    let l' : List (Nat × Ev) := [(4249, .net 0 (.data []))];
    let x := (Timed.init 0 1).run sampleEnv (l ++ l');
    Patient sampleEnv (.init 0 1) (l ++ l') ∧ (∃ r, ((Timed.init 0 1).run sampleEnv l).s.g.theReq 0 0 = some r ∧ r.phase = .waiting 0 false false ∧ r.code + 1 = ((15 : Nat) : Int)) ∧
    ((Timed.init 0 1).run sampleEnv l).req 0 0 = 2250 ∧ x.s.g.linkFine 0 ∧ x.s.g.fut 0 0 = some .pending ∧
    (∃ y, x.s.g.conns[0]? = some y ∧ y.w.p.buff = [] ∧ y.w.p.futs.length = 1) ∧
    ((Timed.init 0 1).run sampleEnv (l ++ l' ++ [(4249, .net 0 (.data (frame (0 % 32767) 15 [1, 2]))), (4249, .net 0 (.resume 0))])).s.g.outcome 0 0 = some (.ok (some [1, 2])) := by
  refine ⟨patientB_sound (by decide +kernel), ⟨_, rfl, by decide +kernel, by decide +kernel⟩, by decide +kernel, ⟨_, rfl, by decide +kernel⟩, by decide +kernel,
    ⟨_, rfl, by decide +kernel⟩, by decide +kernel⟩

end SL
