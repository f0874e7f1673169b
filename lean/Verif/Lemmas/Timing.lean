import Verif.Spec.Timing
import Verif.Lemmas.Budget
import Verif.Lemmas.Over
import Verif.Lemmas.Safe
/-!
# How long the requests take
-/
set_option linter.unusedVariables false

namespace SL

/-- What the attempts before attempt `a` take. -/
def before : Nat → Nat
  | 0 => 0
  | a + 1 => before a + 2000 + 1000 * (a + 1)

theorem before_time : ∀ n, requestTime n = before n + 2000
  | 0 => rfl
  | n + 1 => by simp only [requestTime, before, before_time n]

theorem before_mono {a b : Nat} (h : a ≤ b) : before a ≤ before b := by
  obtain ⟨d, rfl⟩ := Nat.exists_eq_add_of_le h
  clear h
  induction d with
  | zero => exact Nat.le_refl _
  | succ d ih => have : before (a + (d + 1)) = before (a + d) + 2000 + 1000 * (a + d + 1) := rfl; omega

/-- The latest time, after its begin, at which a request can come into its state. -/
def Req.stage (n : Nat) (r : Req) : Nat :=
  match r.phase with
  | .start => before r.attempt
  | .waiting _ e c => if e || c then before r.attempt + 2000 else before r.attempt
  | .sleeping => before r.attempt + 2000
  | .done _ => requestTime n

/-- The attempts are within the retries, and these within the limit. -/
structure Req.Within (n : Nat) (r : Req) : Prop where
  lim : r.maxRetries ≤ (n : Int)
  start : r.phase = .start → r.attempt = 0
  waiting : ∀ f e c, r.phase = .waiting f e c → (r.attempt : Int) ≤ r.maxRetries
  sleeping : r.phase = .sleeping → (r.attempt : Int) < r.maxRetries ∧ r.sleeps.getLast? = some (r.attempt + 1)

/-- The request has stayed as it was, or has gone on in time. -/
def Onward (n : Nat) (r r' : Req) : Prop := r'.Within n ∧ (r' = r ∨ r.stage n + r.dur ≤ r'.stage n)

theorem Onward.refl {n : Nat} {r : Req} (h : r.Within n) : Onward n r r := ⟨h, .inl rfl⟩

theorem Onward.trans {n : Nat} {a b c : Req} (h : Onward n a b) (h' : Onward n b c) : Onward n a c := by
  refine ⟨h'.1, ?_⟩
  rcases h'.2 with rfl | h2
  · exact h.2
  · rcases h.2 with rfl | h1
    · exact .inr h2
    · exact .inr (by omega)

theorem onward_done {n : Nat} {r : Req} (h : r.Within n) {r' : Req} (hm : r'.maxRetries = r.maxRetries) {o : Outcome} (hp : r'.phase = .done o)
    (hd : r.stage n + r.dur ≤ requestTime n) : Onward n r r' := by
  refine ⟨⟨by rw [hm]; exact h.lim, ?_, ?_, ?_⟩, .inr ?_⟩
  · intro e; rw [hp] at e; cases e
  · intro f e c e'; rw [hp] at e'; cases e'
  · intro e; rw [hp] at e; cases e
  · simp only [Req.stage, hp] at *; exact hd

/-- Every state leaves time for the end. -/
theorem stage_end {n : Nat} {r : Req} (h : r.Within n) : r.stage n + r.dur ≤ requestTime n := by
  rw [before_time]
  cases hp : r.phase with
  | start => simp only [Req.stage, Req.dur, hp, h.start hp, before]; omega
  | waiting f e c =>
    have h1 := h.waiting f e c hp
    have h2 := h.lim
    have := before_mono (show r.attempt ≤ n by omega)
    simp only [Req.stage, Req.dur, hp, comTimeout]
    split <;> omega
  | sleeping =>
    obtain ⟨h1, h1'⟩ := h.sleeping hp
    have h2 := h.lim
    have := before_mono (show r.attempt + 1 ≤ n by omega)
    simp only [before] at this
    simp only [Req.stage, Req.dur, hp, h1', second, Option.getD_some]
    omega
  | done o => simp only [Req.stage, Req.dur, hp, before_time]; omega

theorem onward_over {n : Nat} {r : Req} (h : r.Within n) {r' : Req} (hm : r'.maxRetries = r.maxRetries) {o : Outcome} (hp : r'.phase = .done o) : Onward n r r' :=
  onward_done h hm hp (stage_end h)

theorem onward_endAttempt {n : Nat} {r : Req} (h : r.Within n) {f : Nat} {e c : Bool} (hp : r.phase = .waiting f e c) (err : PyErr) : Onward n r (r.endAttempt err) := by
  have h1 := h.waiting f e c hp
  simp only [Req.endAttempt]
  split
  · exact onward_over (o := .raised err) h rfl rfl
  · refine ⟨⟨h.lim, (fun e => by cases e), (fun _ _ _ e => by cases e), fun _ => ?_⟩, .inr ?_⟩
    · refine ⟨?_, by simp⟩
      show (r.attempt : Int) < r.maxRetries
      omega
    · simp only [Req.stage, Req.dur, hp, comTimeout]
      split <;> omega

theorem onward_result {n : Nat} {r : Req} (h : r.Within n) {f : Nat} {e c : Bool} (hp : r.phase = .waiting f e c) (m : Msg) : Onward n r (r.onResult m) := by
  simp only [Req.onResult]
  split
  · exact onward_over (o := .ret (some m.data)) h rfl rfl
  · split
    · exact onward_over (o := .raised .slLogin) h rfl rfl
    · exact onward_endAttempt h hp _

theorem onward_timeout {n : Nat} {r : Req} (h : r.Within n) {f : Nat} {e c : Bool} (hp : r.phase = .waiting f e c) (u : Option FutState) : Onward n r (r.onTimeout u) := by
  simp only [Req.onTimeout]
  split
  · exact onward_result h hp _
  · exact onward_endAttempt h hp _

theorem onward_cancelled {n : Nat} {r : Req} (h : r.Within n) (b : Bool) : Onward n r (r.onCancelled b) := by
  cases b
  · exact onward_over (o := .raised .slConnection) h rfl rfl
  · exact onward_over (o := .ret none) h rfl rfl

theorem onward_flag {n : Nat} {r : Req} (h : r.Within n) {f : Nat} {e c : Bool} (hp : r.phase = .waiting f e c) (e' c' : Bool) (hf : (e' || c') = true) :
    Onward n r { r with phase := .waiting f e' c' } := by
  refine ⟨⟨h.lim, (fun e => by cases e), fun _ _ _ _ => h.waiting f e c hp, fun e => by cases e⟩, .inr ?_⟩
  simp only [Req.stage, Req.dur, hp, hf, if_true, comTimeout]
  split <;> omega

theorem setReq_get {w : World} {i : Nat} {r : Req} (hr : w.reqs[i]? = some r) (t : Nat) (q : Req) :
    (w.setReq t q).reqs[i]? = some (if t = i then q else r) := by
  have hl := lt_of_getElem? hr
  simp only [World.setReq, List.getElem?_set]
  by_cases e : t = i
  · subst e; simp [hl]
  · simp [e, hr]

/-- The beginning of an attempt. -/
theorem start_attempt {n : Nat} {w : World} {t : Nat} {q : Req} {r : Req} (hr : w.reqs[t]? = some r) (hw : r.Within n) (hm : q.maxRetries = r.maxRetries)
    (hs : r.stage n + r.dur ≤ before q.attempt) : ∃ r', (w.startAttempt t q).reqs[t]? = some r' ∧ Onward n r r' := by
  have put : ∀ {w' : World} {q' : Req}, w'.reqs = w.reqs → Onward n r q' → ∃ r', (w'.setReq t q').reqs[t]? = some r' ∧ Onward n r r' := by
    intro w' q' e h
    refine ⟨q', ?_, h⟩
    rw [setReq_get (by rw [e]; exact hr)]
    simp
  simp only [World.startAttempt]
  split
  · exact put rfl (onward_over (o := .ret none) hw hm rfl)
  · rename_i hlt
    split
    · exact put rfl (onward_over (o := .raised .slConnection) hw hm rfl)
    · split
      · rename_i e _
        exact put rfl (onward_over (o := .raised e) hw hm rfl)
      · rename_i p f _
        split
        · refine put rfl ?_
          cases p.connected
          · exact onward_over (o := .raised .slConnection) hw hm rfl
          · exact onward_over (o := .ret none) hw hm rfl
        · refine put rfl ⟨⟨by rw [show _ = q.maxRetries from rfl, hm]; exact hw.lim, (fun e => by cases e), fun _ _ _ e => ?_, fun e => by cases e⟩, .inr ?_⟩
          · show (q.attempt : Int) ≤ q.maxRetries
            omega
          · simpa [Req.stage] using hs

theorem step_onward {n : Nat} {w : World} {i : Nat} {r : Req} (hr : w.reqs[i]? = some r) (hw : r.Within n) (e : Event) :
    ∃ r', (w.step e).reqs[i]? = some r' ∧ Onward n r r' := by
  have same : ∀ {w' : World}, w'.reqs = w.reqs → ∃ r', w'.reqs[i]? = some r' ∧ Onward n r r' := fun e => ⟨r, by rw [e]; exact hr, .refl hw⟩
  have set : ∀ {w' : World} {t : Nat} {q q' : Req}, w'.reqs = w.reqs → w.reqs[t]? = some q → (q.Within n → Onward n q q') →
      ∃ r', (w'.setReq t q').reqs[i]? = some r' ∧ Onward n r r' := by
    intro w' t q q' e hq h
    refine ⟨_, setReq_get (by rw [e]; exact hr) t q', ?_⟩
    by_cases ht : t = i
    · subst ht
      rw [hr] at hq; cases hq
      rw [if_pos rfl]; exact h hw
    · rw [if_neg ht]; exact .refl hw
  have att : ∀ {t : Nat} {q q' : Req}, w.reqs[t]? = some q → q'.maxRetries = q.maxRetries → (q.Within n → q.stage n + q.dur ≤ before q'.attempt) →
      ∃ r', (w.startAttempt t q').reqs[i]? = some r' ∧ Onward n r r' := by
    intro t q q' hq hm h
    by_cases ht : t = i
    · subst ht
      rw [hr] at hq; cases hq
      exact start_attempt hr hw hm (h hw)
    · refine ⟨r, ?_, .refl hw⟩
      have st : ∀ {w' : World} {q' : Req}, w'.reqs = w.reqs → (w'.setReq t q').reqs[i]? = some r := by
        intro w' q' e
        rw [setReq_get (by rw [e]; exact hr), if_neg ht]
      simp only [World.startAttempt]
      split
      · exact st rfl
      · split
        · exact st rfl
        · split
          · exact st rfl
          · split <;> exact st rfl
  cases e with
  | call code data m =>
    refine ⟨r, ?_, .refl hw⟩
    simp only [World.step]
    rw [List.getElem?_append_left (lt_of_getElem? hr)]; exact hr
  | run t =>
    simp only [World.step]
    split
    · rename_i q hq
      split
      · rename_i hp
        refine att hq rfl (fun h => ?_)
        simp only [Req.stage, Req.dur, hp]; omega
      · exact same rfl
    · exact same rfl
  | resume t =>
    simp only [World.step]
    split
    · rename_i q hq
      split
      · rename_i f ex ca hp
        split
        · exact same rfl
        · split
          · exact set rfl hq (fun h => onward_cancelled h _)
          · split
            · exact set rfl hq (fun h => onward_timeout h hp _)
            · split
              · exact set rfl hq (fun h => onward_result h hp _)
              · exact set rfl hq (fun h => onward_cancelled h _)
      · exact same rfl
    · exact same rfl
  | timeout t =>
    simp only [World.step]
    split
    · rename_i q hq
      split
      · rename_i f ca hp
        exact set rfl hq (fun h => onward_flag h hp true ca (by simp))
      · exact same rfl
    · exact same rfl
  | cancel t =>
    simp only [World.step]
    split
    · rename_i q hq
      split
      · exact set rfl hq (fun h => onward_over (o := .raised .cancelled) h rfl rfl)
      · rename_i f ex ca hp
        exact set rfl hq (fun h => onward_flag h hp ex true (by simp))
      · exact set rfl hq (fun h => onward_over (o := .raised .cancelled) h rfl rfl)
      · exact same rfl
    · exact same rfl
  | wake t =>
    simp only [World.step]
    split
    · rename_i q hq
      split
      · rename_i hp
        refine att hq rfl (fun h => ?_)
        simp only [Req.stage, Req.dur, hp, before, (h.sleeping hp).2, second, Option.getD_some]; omega
      · exact same rfl
    · exact same rfl
  | close force =>
    simp only [World.step, World.closeTail]
    split <;> exact same rfl
  | closeResume c =>
    simp only [World.step, World.closeTail]
    split
    · split <;> exact same rfl
    · exact same rfl
  | closeFinish c =>
    simp only [World.step]
    split
    · split
      · exact same rfl
      · split <;> exact same rfl
    · exact same rfl
  | closeCancel c =>
    simp only [World.step]
    split <;> exact same rfl
  | lost => simp only [World.step]; split <;> exact same rfl
  | cleanup => simp only [World.step]; split <;> exact same rfl
  | _ => exact same rfl

theorem run_onward {n : Nat} {i : Nat} : ∀ (es : List Event) {w : World} {r : Req}, w.reqs[i]? = some r → r.Within n →
    ∃ r', (w.run es).reqs[i]? = some r' ∧ Onward n r r'
  | [], w, r, hr, hw => ⟨r, hr, .refl hw⟩
  | e :: es, w, r, hr, hw => by
    obtain ⟨r1, h1, o1⟩ := step_onward hr hw e
    obtain ⟨r2, h2, o2⟩ := run_onward es h1 o1.1
    exact ⟨r2, h2, o1.trans o2⟩

theorem grows_onward {n : Nat} {g g' : Gw} (hg : Grows g g') {c i : Nat} {r : Req} (hr : g.theReq c i = some r) (hw : r.Within n) :
    ∃ r', g'.theReq c i = some r' ∧ Onward n r r' := by
  simp only [Gw.theReq] at hr ⊢
  cases hx : g.conns[c]? with
  | none => rw [hx] at hr; cases hr
  | some x =>
    rw [hx] at hr
    obtain ⟨x', es, h1, h2, -⟩ := hg.keep c x hx
    obtain ⟨r', h3, h4⟩ := run_onward es hr hw
    refine ⟨r', ?_, h4⟩
    rw [h1]
    show x'.w.reqs[i]? = some r'
    rw [h2]; exact h3

/-- A new request is within the limit. -/
theorem ask_within {n : Nat} (g : Gw) (t c : Nat) (code : Int) (data : Bytes) {m : Int} (hm : m ≤ (n : Int)) {r : Req}
    (hr : (g.ask t c code data m).2.theReq c (g.ask t c code data m).1 = some r) : r.Within n := by
  simp only [Gw.ask, Gw.theReq, Gw.note, Gw.net, List.getElem?_modify] at hr
  cases hx : g.conns[c]? with
  | none => simp [hx] at hr
  | some x =>
    simp only [hx, if_true, Option.map_some, Option.bind_some] at hr
    have h0 : (x.w.step (.call code data m)).reqs[x.w.reqs.length]? = some { code := code, data := data, maxRetries := m } := by
      simp [World.step]
    obtain ⟨r', h1, h2⟩ := step_onward (n := n) h0 ⟨hm, fun _ => rfl, (fun _ _ _ e => by cases e), (fun e => by cases e)⟩ (.run x.w.reqs.length)
    have hr : ((x.w.step (.call code data m)).step (.run x.w.reqs.length)).reqs[x.w.reqs.length]? = some r := hr
    have : r = r' := by
      rw [h1] at hr; cases hr; rfl
    rw [this]; exact h2.1

/-- The prices of a call's time, in milliseconds. -/
def timing (n : Nat) : Prices := ⟨2000, requestTime n, 0, 250, extraTime n, fun m => m ≤ (n : Int), by omega⟩

theorem timing_ample (n : Nat) : (timing n).Ample := by
  simp only [Prices.Ample, timing, extraTime]; omega

/-- How long the wait of a task takes at most, where the code sets a limit. -/
def Prices.hold (P : Prices) : Task → Nat
  | .request _ _ _ => P.wa
  | .opening _ _ => P.wo
  | .sleeping _ => P.ws
  | _ => 0

def Act.returns (l : List Act) : Nat := l.countP Act.isReturn

theorem returns_got (l : List Act) (P : Prices) (o : Except PyErr (Option Bytes)) :
    P.gain * Act.returns (l ++ [.got o]) = P.gain * Act.returns l + P.credit o := by
  cases o <;> simp [Act.returns, List.countP_append, List.countP_singleton, Act.isReturn, Prices.credit, Nat.mul_add]

theorem returns_ask (l : List Act) (c : Nat) (code : Int) (data : Bytes) : Act.returns (l ++ [.ask c code data]) = Act.returns l := by
  simp [Act.returns, List.countP_append, List.countP_singleton, Act.isReturn]
theorem returns_opn (l : List Act) (h : String) (p : Int) : Act.returns (l ++ [.opn h p]) = Act.returns l := by
  simp [Act.returns, List.countP_append, List.countP_singleton, Act.isReturn]
theorem returns_cls (l : List Act) (c : Nat) (f : Bool) : Act.returns (l ++ [.cls c f]) = Act.returns l := by
  simp [Act.returns, List.countP_append, List.countP_singleton, Act.isReturn]

/-- The request the task waits for is within the limit. -/
def Task.Fit (n : Nat) (g : Gw) : Task → Prop
  | .request c i _ => ∀ r, g.theReq c i = some r → r.Within n
  | _ => True

theorem settle_time {n : Nat} (t : Nat) : ∀ (co : Co Res) (g : Gw) (b : Nat), g.maxRetries ≤ (n : Int) → co.Pays (timing n) (fun _ _ => True) b →
    ∃ b', (settle t co g).1.Pays (timing n) b' ∧ (settle t co g).1.Fit n (settle t co g).2 ∧
      b' + (timing n).hold (settle t co g).1 + (timing n).gain * Act.returns (g.acts t) ≤ b + (timing n).gain * Act.returns ((settle t co g).2.acts t)
  | .ret a, g, b, hg, h => ⟨b, trivial, trivial, by simp [settle, Prices.hold]⟩
  | .throw e, g, b, hg, h => ⟨b, trivial, trivial, by simp [settle, Prices.hold]⟩
  | .get k, g, b, hg, h => settle_time t (k g) g b hg (h g hg)
  | .upd u k, g, b, hg, h => settle_time t k (g.apply u) b (by rw [show (g.apply u).maxRetries = (u g).maxRetries from rfl, h.1]; exact hg) h.2
  | .request c code data r k, g, b, hg, h => by
    have ha := acts_ask_same g t c code data r
    have hb := h.1.2
    simp only [settle]
    split
    · rename_i o _
      obtain ⟨b', h1, h2, h3⟩ := settle_time t (k o) ((g.ask t c code data r).2.note t (.got o)) _ hg (h.2 o)
      refine ⟨b', h1, h2, ?_⟩
      rw [acts_note_same, returns_got, ha, returns_ask] at h3
      omega
    · refine ⟨b - (timing n).wa, h.2, fun q hq => ask_within g t c code data h.1.1 hq, ?_⟩
      simp only [Prices.hold, ha, returns_ask]
      omega
  | .openConn r k, g, b, hg, h => by
    have := h.1.2.2
    refine ⟨b - (timing n).wo, ⟨⟨h.1.1, h.1.2.1, by omega⟩, h.2⟩, trivial, ?_⟩
    simp only [settle, Prices.hold, acts_note_same, returns_opn]
    omega
  | .sleep k, g, b, hg, h => ⟨b - (timing n).ws, h.2, trivial, by have := h.1; simp only [settle, Prices.hold]; omega⟩
  | .close c force k, g, b, hg, h => by
    have ha := acts_close_same g t c force
    simp only [settle]
    split
    · obtain ⟨b', h1, h2, h3⟩ := settle_time t _ (g.startClose t c force).2 _ hg (h.2 _)
      refine ⟨b', h1, h2, ?_⟩
      rw [ha, returns_cls] at h3
      omega
    · refine ⟨_, h.2, trivial, ?_⟩
      simp only [Prices.hold, ha, returns_cls]
      omega
  | .acquire k, g, b, hg, h => by
    simp only [settle]
    split
    · exact settle_time t _ (g.take t) _ hg (h _)
    · exact ⟨b, h, trivial, by simp only [Prices.hold]; exact Nat.le_refl _⟩

theorem moves_own {s : Sys} {t : Nat} {ev : Ev} (h : s.moves t ev = true) : ev.own t = true := by
  simp only [Sys.moves] at h
  split at h <;> simp_all [Ev.own]

/-- A task that does not go on stays as it is; one that goes on has what it had, and what it earned. -/
theorem moves_cases (E : Env) {P : Prices} {s : Sys} {t : Nat} {y : Task} (hy : s.tasks[t]? = some y) (ev : Ev) :
    (s.moves t ev = false ∧ (s.step E ev).tasks[t]? = some y ∧ (s.step E ev).g.acts t = s.g.acts t) ∨
    (s.moves t ev = true ∧ ∃ co g0, s.step E ev = s.put t (settle t co g0) ∧ g0.maxRetries = s.g.maxRetries ∧
      ∀ b, y.Pays P b → ∃ b0, co.Pays P (fun _ _ => True) b0 ∧ b0 + P.gain * Act.returns (s.g.acts t) ≤ b + P.gain * Act.returns (g0.acts t)) := by
  have ht := lt_of_getElem? hy
  have same : s.moves t ev = false → s.step E ev = s →
    (s.moves t ev = false ∧ (s.step E ev).tasks[t]? = some y ∧ (s.step E ev).g.acts t = s.g.acts t) := fun h e => ⟨h, by rw [e]; exact hy, by rw [e]⟩
  cases hown : ev.own t with
  | false =>
    obtain ⟨h1, h2⟩ := step_other_task E s ev ht hown
    refine .inl ⟨?_, h1.trans hy, h2⟩
    cases hm : s.moves t ev with
    | false => rfl
    | true => rw [moves_own hm] at hown; cases hown
  | true =>
    have ev_eq : (∃ ok, ev = .opened t ok) ∨ ev = .resume t ∨ ev = .cancel t := by
      cases ev <;> simp_all [Ev.own]
    cases y with
    | done r => exact .inl (same (by simp only [Sys.moves, hy]) (by rcases ev_eq with ⟨ok, rfl⟩ | rfl | rfl <;> simp only [Sys.step, hy]))
    | request c i k =>
      rcases ev_eq with ⟨ok, rfl⟩ | rfl | rfl
      · exact .inl (same (by simp only [Sys.moves, hy]) (by simp only [Sys.step, hy]))
      · cases h : s.g.outcome c i with
        | none => exact .inl (same (by simp [Sys.moves, hy, h]) (by simp only [Sys.step, hy, h]))
        | some o =>
          refine .inr ⟨by simp [Sys.moves, hy, h], k o, s.g.note t (.got o), by simp only [Sys.step, hy, h], rfl, fun b hb => ⟨_, hb o, ?_⟩⟩
          rw [acts_note_same, returns_got]
          omega
      · exact .inl (same (by simp only [Sys.moves, hy]) (by simp only [Sys.step, hy]))
    | opening r k =>
      rcases ev_eq with ⟨ok, rfl⟩ | rfl | rfl
      · cases ok with
        | false =>
          exact .inr ⟨by simp [Sys.moves, hy], k (.error .slConnection), s.g, by simp only [Sys.step, hy, Bool.false_eq_true, if_false], rfl,
            fun b hb => ⟨b - P.ws - P.wa, hb.2 _ _ (by simp [Prices.made]), by omega⟩⟩
        | true =>
          refine .inr ⟨by simp [Sys.moves, hy], (afterOpen E r s.g.conns.length).bindE k, s.g.addConn, by simp only [Sys.step, hy, if_true], rfl,
            fun b hb => ⟨b, ?_, Nat.le_refl _⟩⟩
          refine Co.pays_bindE (Q := fun n x => b - P.ws - P.wa + P.made x ≤ n) (fun n x hn => hb.2 x n hn) _ _ ?_
          have := pays_afterOpen E hb.1.1 hb.1.2.1 s.g.conns.length (b - P.ws - P.wa)
          rwa [show b - P.ws - P.wa + P.ws + P.wa = b by have := hb.1.2.2; omega] at this
      · exact .inl (same (by simp only [Sys.moves, hy]) (by simp only [Sys.step, hy]))
      · exact .inr ⟨by simp [Sys.moves, hy], k (.error .cancelled), s.g, by simp only [Sys.step, hy], rfl,
            fun b hb => ⟨b - P.ws - P.wa, hb.2 _ _ (by simp [Prices.made]), by omega⟩⟩
    | sleeping k =>
      rcases ev_eq with ⟨ok, rfl⟩ | rfl | rfl
      · exact .inl (same (by simp only [Sys.moves, hy]) (by simp only [Sys.step, hy]))
      · exact .inr ⟨by simp [Sys.moves, hy], k (.ok ()), s.g, by simp only [Sys.step, hy], rfl, fun b hb => ⟨b, hb _, Nat.le_refl _⟩⟩
      · exact .inr ⟨by simp [Sys.moves, hy], k (.error .cancelled), s.g, by simp only [Sys.step, hy], rfl, fun b hb => ⟨b, hb _, Nat.le_refl _⟩⟩
    | closing c i k =>
      rcases ev_eq with ⟨ok, rfl⟩ | rfl | rfl
      · exact .inl (same (by simp only [Sys.moves, hy]) (by simp only [Sys.step, hy]))
      · by_cases h : s.g.closeEnded c i = true
        · exact .inr ⟨by simp [Sys.moves, hy, h], k (s.g.closeResult c i), s.g, by simp only [Sys.step, hy, h, if_true], rfl, fun b hb => ⟨b, hb _, Nat.le_refl _⟩⟩
        · exact .inl (same (by simp [Sys.moves, hy, h]) (by simp only [Sys.step, hy, h]; rfl))
      · exact .inl (same (by simp only [Sys.moves, hy]) (by simp only [Sys.step, hy]))
    | locked k =>
      rcases ev_eq with ⟨ok, rfl⟩ | rfl | rfl
      · exact .inl (same (by simp only [Sys.moves, hy]) (by simp only [Sys.step, hy]))
      · by_cases h : s.g.lock = none ∧ s.g.waiters.head? = some t
        · exact .inr ⟨by simp [Sys.moves, hy, h], k (.ok ()), (s.g.setWaiters s.g.waiters.tail).take t, by simp only [Sys.step, hy]; exact if_pos h, rfl,
            fun b hb => ⟨b, hb _, Nat.le_refl _⟩⟩
        · exact .inl (same (by simp only [Sys.moves, hy]; simp; exact fun a b => h ⟨a, b⟩) (by simp only [Sys.step, hy]; exact if_neg h))
      · exact .inr ⟨by simp [Sys.moves, hy], k (.error .cancelled), s.g.setWaiters (s.g.waiters.filter (· ≠ t)), by simp only [Sys.step, hy], rfl,
          fun b hb => ⟨b, hb _, Nat.le_refl _⟩⟩

/-- The clocks show the past. -/
structure Timed.Past (x : Timed) : Prop where
  req : ∀ c i, x.req c i ≤ x.now
  task : ∀ t, t < x.s.tasks.length → x.task t ≤ x.now

theorem Timed.Past.step {E : Env} {x : Timed} (h : x.Past) {τ : Nat} (hτ : x.now ≤ τ) (ev : Ev) : (x.step E τ ev).Past := by
  refine ⟨fun c i => ?_, fun t ht => ?_⟩
  · simp only [Timed.step]
    have := h.req c i
    split <;> omega
  · simp only [Timed.step]
    split
    · omega
    · rename_i hn
      have := h.task t (by omega)
      omega

/-- When the wait of the task is over at the latest, or, if there is no limit, the time. -/
def Timed.until (n : Nat) (x : Timed) (t : Nat) : Task → Nat
  | .locked _ => x.now
  | .closing _ _ _ => x.now
  | y => x.task t + (timing n).hold y

/-- The request the task waits for is in time. -/
def Timed.InTime (n : Nat) (x : Timed) (t : Nat) : Task → Prop
  | .request c i _ => ∃ r, x.s.g.theReq c i = some r ∧ r.Within n ∧ x.req c i ≤ x.task t + r.stage n
  | _ => True

/-- The task is in time: it began at `τ0` with `p`. -/
structure Timed.Keeps (n τ0 p t : Nat) (x : Timed) (y : Task) (b : Nat) : Prop where
  task : x.s.tasks[t]? = some y
  pays : y.Pays (timing n) b
  req : x.InTime n t y
  bound : b + x.until n t y ≤ τ0 + p + extraTime n * Act.returns (x.s.g.acts t) + x.idle t
  now : x.ended t = false → x.now ≤ τ0 + p + extraTime n * Act.returns (x.s.g.acts t) + x.idle t

theorem due_until {n : Nat} {x : Timed} {t : Nat} {y : Task} {b τ0 p : Nat} (h : x.Keeps n τ0 p t y b) {τ : Nat} (hd : ∀ d, x.due t = some d → τ ≤ d)
    (hn : x.now ≤ τ) : x.ended t = true ∨ τ ≤ x.until n t y + (if x.s.idles t then τ - x.now else 0) := by
  have ht := h.task
  cases y with
  | done r => left; simp only [Timed.ended, ht]
  | request c i k =>
    right
    obtain ⟨r, h1, h2, h3⟩ := h.req
    have : τ ≤ x.req c i + r.dur := hd _ (by simp only [Timed.due, ht, h1]; rfl)
    have := stage_end h2
    simp only [Timed.until, Prices.hold, timing]
    omega
  | opening r k =>
    right
    have := hd _ (by simp only [Timed.due, ht]; rfl)
    simp only [Timed.until, Prices.hold, timing, comTimeout, connectPause] at this ⊢
    omega
  | sleeping k =>
    right
    have := hd _ (by simp only [Timed.due, ht]; rfl)
    simp only [Timed.until, Prices.hold, timing, comTimeout, connectPause] at this ⊢
    omega
  | closing c i k =>
    right
    simp only [Timed.until, Sys.idles, ht, if_true]
    omega
  | locked k =>
    right
    simp only [Timed.until, Sys.idles, ht, if_true]
    omega

theorem until_moved {n : Nat} {x : Timed} {t : Nat} {y : Task} (h : x.task t = x.now) : x.until n t y = x.now + (timing n).hold y := by
  cases y <;> simp only [Timed.until, Prices.hold, h] <;> rfl

section
variable {E : Env} {clientId maxRetries : Int}

/-- The task goes on, or begins. -/
theorem intime_new {n τ0 p t b : Nat} {x : Timed} {τ : Nat} {ev : Ev} {es : List Ev} (he : x.s.step E ev = after E clientId maxRetries es)
    (hp : x.Past) (hn : x.now ≤ τ) (hm : x.s.tasks.length ≤ t ∨ x.s.moves t ev = true) {co : Co Res} {g0 : Gw}
    (hy : (x.s.step E ev).tasks[t]? = some (settle t co g0).1) (hg : (x.s.step E ev).g = (settle t co g0).2) (hr : g0.maxRetries ≤ (n : Int))
    (hc : co.Pays (timing n) (fun _ _ => True) b)
    (hb : b + τ ≤ τ0 + p + extraTime n * Act.returns (g0.acts t) + (x.step E τ ev).idle t) :
    ∃ y b', (x.step E τ ev).Keeps n τ0 p t y b' := by
  obtain ⟨b', h1, h2, h3⟩ := settle_time t co g0 b hr hc
  have ht : (x.step E τ ev).task t = τ := by
    simp only [Timed.step]
    exact if_pos hm
  have hu := until_moved (n := n) (y := (settle t co g0).1) (show (x.step E τ ev).task t = (x.step E τ ev).now from ht)
  have hs : (x.step E τ ev).s.g = (settle t co g0).2 := hg
  have hnow : (x.step E τ ev).now = τ := rfl
  have hgain : (timing n).gain = extraTime n := rfl
  rw [hgain] at h3
  refine ⟨_, b', hy, h1, ?_, ?_, fun _ => ?_⟩
  · generalize hz : (settle t co g0).1 = z at *
    cases z with
    | request c i k =>
      have hw : ∃ q, (x.step E τ ev).s.g.theReq c i = some q := by
        have hy' := hy
        rw [he] at hy'
        obtain ⟨_, _, _, w, q, _, e1, e2, _⟩ := reach_waiting E clientId maxRetries es t c i ⟨k, hy'⟩
        refine ⟨q, ?_⟩
        show (x.s.step E ev).g.theReq c i = some q
        rw [he]
        simp only [Gw.theReq, e1]
        exact e2
      obtain ⟨q, hq⟩ := hw
      refine ⟨q, hq, ?_, ?_⟩
      · rw [hs] at hq
        exact h2 q hq
      · have := (hp.step (E := E) hn ev).req c i
        rw [ht]
        rw [hnow] at this
        omega
    | _ => trivial
  · rw [hu, hs, hnow]; omega
  · rw [hs, hnow]; omega

theorem intime_step {n τ0 p t b : Nat} {x : Timed} {y : Task} {es : List Ev} (hx : x.s = after E clientId maxRetries es) (hr : x.s.g.maxRetries ≤ (n : Int))
    (hp : x.Past) (h : x.Keeps n τ0 p t y b) {τ : Nat} (hn : x.now ≤ τ) (hd : ∀ t d, x.due t = some d → τ ≤ d) (ev : Ev) :
    ∃ y' b', (x.step E τ ev).Keeps n τ0 p t y' b' := by
  have hok : SysOk E False x.s := by rw [hx]; exact .run es (.init ..) (fun u => u.elim)
  have hgr : Grows x.s.g (x.s.step E ev).g := star_grows (step_micro hok ev (fun u => u.elim))
  have hes : x.s.step E ev = after E clientId maxRetries (es ++ [ev]) := by rw [after_snoc, hx]
  have ht := lt_of_getElem? h.task
  have hdu := due_until h (hd t) hn
  have hbd := h.bound
  rcases moves_cases E (P := timing n) h.task ev with ⟨hm, h1, h2⟩ | ⟨hm, co, g0, he, hg0, hb0⟩
  · have hts : (x.step E τ ev).task t = x.task t := by
      simp only [Timed.step]
      exact if_neg (by simp [hm]; omega)
    have hacts : (x.step E τ ev).s.g.acts t = x.s.g.acts t := h2
    have hidle : (x.step E τ ev).idle t = x.idle t + if x.s.idles t then τ - x.now else 0 := rfl
    have hnow : (x.step E τ ev).now = τ := rfl
    have hut : (x.step E τ ev).until n t y = x.until n t y + if x.s.idles t then τ - x.now else 0 := by
      cases y <;> simp only [Timed.until, Sys.idles, h.task, hts, if_true, Bool.false_eq_true, if_false, hnow] <;> omega
    have hen : (x.step E τ ev).ended t = x.ended t := by
      simp only [Timed.ended, h.task]
      rw [show (x.step E τ ev).s.tasks[t]? = some y from h1]
    refine ⟨y, b, h1, h.pays, ?_, ?_, fun he => ?_⟩
    · cases y with
      | request c i k =>
        obtain ⟨r, e1, e2, e3⟩ := h.req
        obtain ⟨r', e4, e5⟩ := grows_onward hgr e1 e2
        refine ⟨r', e4, e5.1, ?_⟩
        rw [hts]
        simp only [Timed.step, e4, e1, Option.some.injEq]
        split
        · rename_i e; rw [e]; exact e3
        · rename_i e
          have : τ ≤ x.req c i + r.dur := hd t _ (by simp only [Timed.due, h.task, e1]; rfl)
          have := e5.2.resolve_left e
          omega
      | _ => trivial
    · rw [hacts, hut, hidle]; omega
    · rw [hen] at he
      rw [hacts, hidle, hnow]
      rcases hdu with hdu | hdu
      · rw [he] at hdu; cases hdu
      · omega
  · obtain ⟨b0, hb1, hb2⟩ := hb0 b h.pays
    refine intime_new hes hp hn (.inr hm) (co := co) (g0 := g0) (by rw [he]; exact put_task h.task _) (by rw [he]; rfl) (by rw [hg0]; exact hr) hb1 ?_
    have hgain : (timing n).gain = extraTime n := rfl
    rw [hgain] at hb2
    have hidle : (x.step E τ ev).idle t = x.idle t + if x.s.idles t then τ - x.now else 0 := rfl
    rw [hidle]
    rcases hdu with hdu | hdu
    · exfalso
      simp only [Timed.ended, h.task] at hdu
      split at hdu
      · rename_i r hk
        cases hk
        simp only [Sys.moves, h.task] at hm
        cases hm
      · cases hdu
    · omega

end

end SL
