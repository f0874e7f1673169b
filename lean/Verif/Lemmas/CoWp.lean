import Verif.Model.Gateway
/-!
# Reasoning about the gateway's coroutines

`Co.wp` : what has to be shown of a coroutine so that, whatever the rest of the world does between its
suspension points, its actions and state changes are as described by a monitor.  `task_step` is the soundness
theorem.
-/
set_option linter.unusedVariables false

namespace SL

/-- A monitor. -/
structure Mon where
  /-- rely: how the state may change while task `t` is suspended -/
  R : Nat → Gw → Gw → Prop := fun _ _ _ => True
  /-- what a whole connection attempt made by task `t` may do: history and state before, after, and its result -/
  K : Nat → List Act → Gw → List Act → Gw → Except PyErr Bool → Prop := fun _ _ _ _ _ _ => True
  /-- to be shown of the history of actions, at all times -/
  I : List Act → Prop := fun _ => True
  /-- to be shown at each action, with the history before and the state in which it is taken -/
  A : Nat → List Act → Act → Gw → Prop := fun _ _ _ _ => True
  /-- to be shown for each change of the state -/
  G : Nat → List Act → Gw → Gw → Prop := fun _ _ _ _ => True

namespace Co

variable {α β : Type}

/-- See the module comment.  `h` is the history of actions so far, `g` the current state. -/
def wp (M : Mon) (t : Nat) (Q : List Act → Except PyErr α → Gw → Prop) : Co α → List Act → Gw → Prop
  | .ret a, h, g => Q h (.ok a) g
  | .throw e, h, g => Q h (.error e) g
  | .get k, h, g => (k g).wp M t Q h g
  | .upd f k, h, g => M.G t h g (g.apply f) ∧ k.wp M t Q h (g.apply f)
  | .request c code data r k, h, g =>
    M.A t h (.ask c code data) g ∧ M.I (h ++ [.ask c code data]) ∧
    ∀ g' o, M.R t (g.ask t c code data r).2 g' → M.I (h ++ [.ask c code data, .got o]) ∧
      (k o).wp M t Q (h ++ [.ask c code data, .got o]) (g'.note t (.got o))
  | .openConn _ k, h, g =>
    M.A t h (.opn (g.ip.getD "") g.port) g ∧ M.I (h ++ [.opn (g.ip.getD "") g.port]) ∧
    ∀ h' g' o, M.I h' → M.K t (h ++ [.opn (g.ip.getD "") g.port]) (g.note t (.opn (g.ip.getD "") g.port)) h' g' o →
      (k o).wp M t Q h' g'
  | .sleep k, h, g => ∀ g' o, M.R t g g' → (k o).wp M t Q h g'
  | .close c force k, h, g =>
    M.A t h (.cls c force) g ∧ M.I (h ++ [.cls c force]) ∧
    ∀ g' o, M.R t (g.startClose t c force).2 g' → (k o).wp M t Q (h ++ [.cls c force]) g'
  | .acquire k, h, g =>
    (∀ x g' w, M.R t (g.setWaiters x) g' → g'.lock = none →
      (k (.ok ())).wp M t Q h ((g'.setWaiters w).take t)) ∧
    (∀ x g' w, M.R t (g.setWaiters x) g' → (k (.error .cancelled)).wp M t Q h (g'.setWaiters w))

theorem wp_mono {M : Mon} {t : Nat} {Q Q' : List Act → Except PyErr α → Gw → Prop} (hQ : ∀ h r g, Q h r g → Q' h r g) :
    ∀ (x : Co α) (h : List Act) (g : Gw), x.wp M t Q h g → x.wp M t Q' h g
  | .ret a, h, g, w => hQ _ _ _ w
  | .throw e, h, g, w => hQ _ _ _ w
  | .get k, h, g, w => wp_mono hQ (k g) h g w
  | .upd f k, h, g, w => ⟨w.1, wp_mono hQ k h _ w.2⟩
  | .request c code data r k, h, g, w => ⟨w.1, w.2.1, fun g' o hr => ⟨(w.2.2 g' o hr).1, wp_mono hQ (k o) _ _ (w.2.2 g' o hr).2⟩⟩
  | .openConn r k, h, g, w => ⟨w.1, w.2.1, fun h' g' o he hz => wp_mono hQ (k o) _ _ (w.2.2 h' g' o he hz)⟩
  | .sleep k, h, g, w => fun g' o hr => wp_mono hQ (k o) _ _ (w g' o hr)
  | .close c force k, h, g, w => ⟨w.1, w.2.1, fun g' o hr => wp_mono hQ (k o) _ _ (w.2.2 g' o hr)⟩
  | .acquire k, h, g, w =>
    ⟨fun x g' ws hr hl => wp_mono hQ _ _ _ (w.1 x g' ws hr hl), fun x g' ws hr => wp_mono hQ _ _ _ (w.2 x g' ws hr)⟩

theorem wp_bindE {M : Mon} {t : Nat} {Q : List Act → Except PyErr β → Gw → Prop} (f : Except PyErr α → Co β) :
    ∀ (x : Co α) (h : List Act) (g : Gw), x.wp M t (fun h r g => (f r).wp M t Q h g) h g → (x.bindE f).wp M t Q h g
  | .ret a, h, g, w => w
  | .throw e, h, g, w => w
  | .get k, h, g, w => wp_bindE f (k g) h g w
  | .upd u k, h, g, w => ⟨w.1, wp_bindE f k h _ w.2⟩
  | .request c code data r k, h, g, w => ⟨w.1, w.2.1, fun g' o hr => ⟨(w.2.2 g' o hr).1, wp_bindE f (k o) _ _ (w.2.2 g' o hr).2⟩⟩
  | .openConn r k, h, g, w => ⟨w.1, w.2.1, fun h' g' o he hz => wp_bindE f (k o) _ _ (w.2.2 h' g' o he hz)⟩
  | .sleep k, h, g, w => fun g' o hr => wp_bindE f (k o) _ _ (w g' o hr)
  | .close c force k, h, g, w => ⟨w.1, w.2.1, fun g' o hr => wp_bindE f (k o) _ _ (w.2.2 g' o hr)⟩
  | .acquire k, h, g, w =>
    ⟨fun x g' ws hr hl => wp_bindE f _ _ _ (w.1 x g' ws hr hl), fun x g' ws hr => wp_bindE f _ _ _ (w.2 x g' ws hr)⟩

/-- The postcondition of the first part of a sequence. -/
def seqPost (M : Mon) (t : Nat) (Q : List Act → Except PyErr β → Gw → Prop) (f : α → Co β) :
    List Act → Except PyErr α → Gw → Prop
  | h, .ok a, g => (f a).wp M t Q h g
  | h, .error e, g => Q h (.error e) g

theorem wp_bind {M : Mon} {t : Nat} {Q : List Act → Except PyErr β → Gw → Prop} (x : Co α) (f : α → Co β) (h : List Act)
    (g : Gw) (w : x.wp M t (seqPost M t Q f) h g) : (x.bind f).wp M t Q h g := by
  refine wp_bindE _ x h g (wp_mono ?_ x h g w)
  intro h r g hq
  cases r with
  | ok a => exact hq
  | error e => exact hq

theorem wp_bind' {M : Mon} {t : Nat} {Q : List Act → Except PyErr β → Gw → Prop} (x : Co α) (f : α → Co β) (h : List Act)
    (g : Gw) (w : x.wp M t (seqPost M t Q f) h g) : (x >>= f).wp M t Q h g := wp_bind x f h g w

theorem wp_tryExcept {M : Mon} {t : Nat} {Q : List Act → Except PyErr α → Gw → Prop} (x : Co α) (f : PyErr → Co α)
    (h : List Act) (g : Gw)
    (w : x.wp M t (fun h r g => match r with | .ok a => Q h (.ok a) g | .error e => (f e).wp M t Q h g) h g) :
    (tryExcept x f).wp M t Q h g := by
  refine wp_bindE _ x h g (wp_mono ?_ x h g w)
  intro h r g hq
  cases r with
  | ok a => exact hq
  | error e => exact hq

end Co

/-! ## Soundness -/

/-- What a monitored task that has not ended satisfies: it will go on as described. -/
def TaskGoes (M : Mon) (Q : List Act → Except PyErr Res → Gw → Prop) (t : Nat) (x : Task) (g : Gw) : Prop :=
  match x with
  | .request _ _ k => ∀ g' o, M.R t g g' → M.I (g.acts t ++ [.got o]) ∧
      (k o).wp M t Q (g.acts t ++ [.got o]) (g'.note t (.got o))
  | .opening _ k => ∀ h' g' o, M.I h' → M.K t (g.acts t) g h' g' o → (k o).wp M t Q h' g'
  | .sleeping k => ∀ g' o, M.R t g g' → (k o).wp M t Q (g.acts t) g'
  | .closing _ _ k => ∀ g' o, M.R t g g' → (k o).wp M t Q (g.acts t) g'
  | .locked k =>
    (∀ g' w, M.R t g g' → g'.lock = none →
      (k (.ok ())).wp M t Q (g.acts t) ((g'.setWaiters w).take t)) ∧
    (∀ g' w, M.R t g g' → (k (.error .cancelled)).wp M t Q (g.acts t) (g'.setWaiters w))
  | .done r => ∃ g0, Q (g.acts t) r g0

/-- What a monitored task satisfies at any time: its history is fine, and it will go on as described. -/
def TaskOk (M : Mon) (Q : List Act → Except PyErr Res → Gw → Prop) (t : Nat) (s : Sys) : Prop :=
  M.I (s.g.acts t) ∧ ∀ x, s.tasks[t]? = some x → TaskGoes M Q t x s.g

theorem acts_note_same (g : Gw) (t : Nat) (a : Act) : (g.note t a).acts t = g.acts t ++ [a] := by
  simp [Gw.note, Gw.acts]

theorem acts_note_other (g : Gw) {t t' : Nat} (h : t' ≠ t) (a : Act) : (g.note t' a).acts t = g.acts t := by
  simp [Gw.note, Gw.acts, h]

theorem acts_net (g : Gw) (c : Nat) (e : Event) (t : Nat) : (g.net c e).acts t = g.acts t := rfl

theorem acts_ask_same (g : Gw) (t c : Nat) (code : Int) (data : Bytes) (r : Int) :
    (g.ask t c code data r).2.acts t = g.acts t ++ [.ask c code data] := by
  simp only [Gw.ask, acts_note_same, acts_net]

theorem acts_close_same (g : Gw) (t c : Nat) (force : Bool) :
    (g.startClose t c force).2.acts t = g.acts t ++ [.cls c force] := by
  simp only [Gw.startClose, acts_note_same, acts_net]

/-- The relations of a monitor that soundness needs. -/
structure Mon.Good (M : Mon) : Prop where
  refl : ∀ t g, M.R t g g
  trans : ∀ t a b c, M.R t a b → M.R t b c → M.R t a c
  kfail : ∀ t h g e, M.K t h g h g (.error e)
  rk : ∀ t h a b h' c o, M.R t a b → M.K t h b h' c o → M.K t h a h' c o

/-- All the states of one uninterrupted piece of execution of task `t`, with the histories: the changes made
satisfy the monitor's guarantee, and the actions its condition on actions. -/
def Steps (M : Mon) (t : Nat) : Co Res → Gw → Prop
  | .ret _, _ => True
  | .throw _, _ => True
  | .get k, g => Steps M t (k g) g
  | .upd f k, g => M.G t (g.acts t) g (g.apply f) ∧ Steps M t k (g.apply f)
  | .request c code data r k, g =>
    M.A t (g.acts t) (.ask c code data) g ∧
    ∀ o, (g.ask t c code data r).2.outcome c (g.ask t c code data r).1 = some o →
      Steps M t (k o) ((g.ask t c code data r).2.note t (.got o))
  | .openConn _ _, g => M.A t (g.acts t) (.opn (g.ip.getD "") g.port) g
  | .sleep _, _ => True
  | .close c force k, g =>
    M.A t (g.acts t) (.cls c force) g ∧
    ((g.startClose t c force).2.closeEnded c (g.startClose t c force).1 = true →
      Steps M t (k ((g.startClose t c force).2.closeResult c (g.startClose t c force).1)) (g.startClose t c force).2)
  | .acquire k, g => g.lock = none ∧ g.waiters = [] → Steps M t (k (.ok ())) (g.take t)

theorem settle_ok {M : Mon} (hM : M.Good) {Q : List Act → Except PyErr Res → Gw → Prop} {t : Nat} :
    ∀ (co : Co Res) (g : Gw), M.I (g.acts t) → co.wp M t Q (g.acts t) g →
      (M.I ((settle t co g).2.acts t) ∧ TaskGoes M Q t (settle t co g).1 (settle t co g).2) ∧ Steps M t co g
  | .ret a, g, hI, w => ⟨⟨hI, _, w⟩, trivial⟩
  | .throw e, g, hI, w => ⟨⟨hI, _, w⟩, trivial⟩
  | .get k, g, hI, w => settle_ok hM (k g) g hI w
  | .upd f k, g, hI, w => by
    have := settle_ok hM k (g.apply f) hI w.2
    exact ⟨this.1, w.1, this.2⟩
  | .request c code data r k, g, hI, w => by
    have hh : ∀ o, g.acts t ++ [.ask c code data] ++ [Act.got o] = g.acts t ++ [.ask c code data, .got o] := by simp
    have key : ∀ o, (M.I ((settle t (k o) ((g.ask t c code data r).2.note t (.got o))).2.acts t) ∧
        TaskGoes M Q t (settle t (k o) ((g.ask t c code data r).2.note t (.got o))).1
          (settle t (k o) ((g.ask t c code data r).2.note t (.got o))).2) ∧
        Steps M t (k o) ((g.ask t c code data r).2.note t (.got o)) := by
      intro o
      refine settle_ok hM (k o) _ ?_ ?_
      · rw [acts_note_same, acts_ask_same, hh]
        exact (w.2.2 _ o (hM.refl _ _)).1
      · rw [acts_note_same, acts_ask_same, hh]
        exact (w.2.2 _ o (hM.refl _ _)).2
    refine ⟨?_, w.1, fun o _ => (key o).2⟩
    simp only [settle]
    split
    · rename_i o _; exact (key o).1
    · refine ⟨?_, ?_⟩
      · rw [acts_ask_same]; exact w.2.1
      · simp only [TaskGoes]
        intro g' o hr
        rw [acts_ask_same, hh]
        exact w.2.2 g' o hr
  | .openConn r k, g, hI, w => by
    refine ⟨⟨?_, ?_⟩, w.1⟩
    · simp only [settle]; rw [acts_note_same]; exact w.2.1
    · simp only [TaskGoes, settle]
      intro h' g' o he hz
      rw [acts_note_same] at hz
      exact w.2.2 h' g' o he hz
  | .sleep k, g, hI, w => ⟨⟨hI, w⟩, trivial⟩
  | .close c force k, g, hI, w => by
    have key : ∀ o, (M.I ((settle t (k o) (g.startClose t c force).2).2.acts t) ∧
        TaskGoes M Q t (settle t (k o) (g.startClose t c force).2).1
          (settle t (k o) (g.startClose t c force).2).2) ∧
        Steps M t (k o) (g.startClose t c force).2 := by
      intro o
      refine settle_ok hM (k o) _ ?_ ?_
      · rw [acts_close_same]; exact w.2.1
      · rw [acts_close_same]; exact w.2.2 _ _ (hM.refl _ _)
    refine ⟨?_, w.1, fun _ => (key _).2⟩
    simp only [settle]
    split
    · exact (key _).1
    · refine ⟨?_, ?_⟩
      · rw [acts_close_same]; exact w.2.1
      · simp only [TaskGoes]
        intro g' o hr
        rw [acts_close_same]
        exact w.2.2 g' o hr
  | .acquire k, g, hI, w => by
    have key : g.lock = none ∧ g.waiters = [] →
        (M.I ((settle t (k (.ok ())) (g.take t)).2.acts t) ∧
        TaskGoes M Q t (settle t (k (.ok ())) (g.take t)).1
          (settle t (k (.ok ())) (g.take t)).2) ∧
        Steps M t (k (.ok ())) (g.take t) := by
      intro hc
      refine settle_ok hM (k (.ok ())) _ hI ?_
      exact w.1 g.waiters g g.waiters (hM.refl _ _) hc.1
    refine ⟨?_, fun hc => (key hc).2⟩
    simp only [settle]
    split
    · rename_i hc; exact (key hc).1
    · refine ⟨hI, ?_⟩
      simp only [TaskGoes]
      exact ⟨fun g' ws hr hl => w.1 _ g' ws hr hl, fun g' ws hr => w.2 _ g' ws hr⟩

/-- When the task ends, the postcondition holds in the state of that moment. -/
theorem settle_end {M : Mon} (hM : M.Good) {Q : List Act → Except PyErr Res → Gw → Prop} {t : Nat} {r : Except PyErr Res} :
    ∀ (co : Co Res) (g : Gw), co.wp M t Q (g.acts t) g → (settle t co g).1 = .done r →
      Q ((settle t co g).2.acts t) r (settle t co g).2
  | .ret a, g, w, h => by cases h; exact w
  | .throw e, g, w, h => by cases h; exact w
  | .get k, g, w, h => settle_end hM (k g) g w h
  | .upd f k, g, w, h => settle_end hM k (g.apply f) w.2 h
  | .request c code data rr k, g, w, h => by
    have hh : ∀ o, g.acts t ++ [.ask c code data] ++ [Act.got o] = g.acts t ++ [.ask c code data, .got o] := by simp
    simp only [settle] at h ⊢
    split at h
    · rename_i o ho
      refine settle_end hM (k o) _ ?_ h
      rw [acts_note_same, acts_ask_same, hh]
      exact (w.2.2 _ o (hM.refl _ _)).2
    · cases h
  | .openConn rr k, g, w, h => by cases h
  | .sleep k, g, w, h => by cases h
  | .close c force k, g, w, h => by
    simp only [settle] at h ⊢
    split at h
    · rename_i hc
      simp only [hc, if_true]
      refine settle_end hM (k _) _ ?_ h
      rw [acts_close_same]; exact w.2.2 _ _ (hM.refl _ _)
    · cases h
  | .acquire k, g, w, h => by
    simp only [settle] at h ⊢
    split at h
    · rename_i hc
      simp only [hc, and_self, if_true]
      refine settle_end hM (k (.ok ())) _ ?_ h
      exact w.1 g.waiters g g.waiters (hM.refl _ _) hc.1
    · cases h

theorem settle_acts_other {t t' : Nat} (hne : t' ≠ t) : ∀ (co : Co Res) (g : Gw), (settle t' co g).2.acts t = g.acts t
  | .ret _, _ => rfl
  | .throw _, _ => rfl
  | .get k, g => settle_acts_other hne (k g) g
  | .upd f k, g => (settle_acts_other hne k (g.apply f)).trans rfl
  | .request c code data r k, g => by
    have ha : (g.ask t' c code data r).2.acts t = g.acts t := by simp only [Gw.ask, acts_note_other _ hne, acts_net]
    simp only [settle]
    split
    · rw [settle_acts_other hne, acts_note_other _ hne, ha]
    · exact ha
  | .openConn r k, g => acts_note_other _ hne _
  | .sleep k, g => rfl
  | .close c force k, g => by
    have ha : (g.startClose t' c force).2.acts t = g.acts t := by simp only [Gw.startClose, acts_note_other _ hne, acts_net]
    simp only [settle]
    split
    · rw [settle_acts_other hne, ha]
    · exact ha
  | .acquire k, g => by
    simp only [settle]
    split
    · exact (settle_acts_other hne _ _).trans rfl
    · rfl

/-- The event is a step of task `t`. -/
def Ev.own (t : Nat) : Ev → Bool
  | .opened t' _ => t' == t
  | .resume t' => t' == t
  | .cancel t' => t' == t
  | _ => false

theorem TaskOk.other {M : Mon} (hM : M.Good) {Q : List Act → Except PyErr Res → Gw → Prop} {t : Nat} {s s' : Sys}
    (h : TaskOk M Q t s) (h1 : s'.tasks[t]? = s.tasks[t]?) (h2 : s'.g.acts t = s.g.acts t) (h3 : M.R t s.g s'.g) :
    TaskOk M Q t s' := by
  refine ⟨h2 ▸ h.1, fun x hx => ?_⟩
  have h := h.2 x (h1 ▸ hx)
  simp only [TaskGoes, h2] at h ⊢
  split <;> simp only at h ⊢
  · exact fun g' o hr => h g' o (hM.trans _ _ _ _ h3 hr)
  · exact fun h' g' o he hz => h h' g' o he (hM.rk _ _ _ _ _ _ _ h3 hz)
  · exact fun g' o hr => h g' o (hM.trans _ _ _ _ h3 hr)
  · exact fun g' o hr => h g' o (hM.trans _ _ _ _ h3 hr)
  · exact ⟨fun g' w hr => h.1 g' w (hM.trans _ _ _ _ h3 hr), fun g' w hr => h.2 g' w (hM.trans _ _ _ _ h3 hr)⟩
  · exact h

/-- Task `t` waits for request `r` of connection `c`. -/
def Sys.waits (s : Sys) (t c r : Nat) : Prop := ∃ k, s.tasks[t]? = some (.request c r k)

/-- What the scheduler does to the state when task `t` goes on (`W`: which requests it waits for). -/
inductive Resumed (W : Nat → Nat → Prop) (t : Nat) (g : Gw) : Gw → Prop
  | same : Resumed W t g g
  | got (o : Except PyErr (Option Bytes)) (ho : ∃ c r, g.outcome c r = some o ∧ W c r) : Resumed W t g (g.note t (.got o))
  | opened : Resumed W t g g.addConn
  | granted (w : List Nat) (h : g.lock = none) : Resumed W t g ((g.setWaiters w).take t)
  | left (w : List Nat) : Resumed W t g (g.setWaiters w)

/-- A new task: its coroutine, and what its start does to the state. -/
inductive Spawned (E : Env) (g : Gw) : Ev → Co Res → Gw → Prop
  | call (a : Call) : Spawned E g (.call a) (a.co E) g
  | ping (c : Nat) : Spawned E g (.ping c) pingCo (g.countPing c)
  | unsub (h : 0 < g.unsubs) : Spawned E g .runUnsub unsubCo g.takeUnsub

/-- What happens outside the tasks. -/
inductive EnvStep (E : Env) (g : Gw) : Gw → Prop
  | nothing : EnvStep E g g
  | setMaxRetries (n : Int) : EnvStep E g (g.setMaxRetries n).2
  | unsubscribe (u : Sub) : EnvStep E g (g.unsubscribe u)
  | register (c code h : Nat) : EnvStep E g (g.net c (.register code (userHandler h)))
  | unregister (c code : Nat) : EnvStep E g (g.net c (.unregister code))
  | net (c : Nat) (e : Event) (h : e.external = true) : EnvStep E g ((g.lostCallback c e).net c e)
  | handle (c : Nat) : EnvStep E g (g.runHandler E c)
  | tick (now : Rat) : EnvStep E g (g.setNow now)

theorem EnvStep.log {E : Env} {g g' : Gw} (h : EnvStep E g g') : g'.log = g.log := by
  cases h with
  | nothing => rfl
  | setMaxRetries n =>
    simp only [Gw.setMaxRetries]
    split <;> rfl
  | unsubscribe u =>
    simp only [Gw.unsubscribe]
    split
    · split
      · split
        · split
          · simp only [Gw.dropCode]
            split
            · split
              · split <;> rfl
              · rfl
            · rfl
          · rfl
        · rfl
      · rfl
    · rfl
  | register => rfl
  | unregister => rfl
  | net c e =>
    simp only [Gw.lostCallback, Gw.net]
    split
    · split <;> rfl
    · rfl
  | handle c =>
    simp only [Gw.runHandler]
    split
    · split
      · split
        · simp only [Gw.commonCallback]
          split
          · split
            · simp only [Gw.commonCallback.notify]; split <;> rfl
            · rfl
          · simp only [Gw.commonCallback.notify]; split <;> rfl
        · rfl
      · rfl
    · rfl
  | tick => rfl

theorem EnvStep.acts {E : Env} {g g' : Gw} (h : EnvStep E g g') (t : Nat) : g'.acts t = g.acts t := by
  simp only [Gw.acts, h.log]

theorem Spawned.log {E : Env} {g g' : Gw} {ev : Ev} {co : Co Res} (h : Spawned E g ev co g') : g'.log = g.log := by
  cases h <;> rfl

/-- Every event is a step of a task, the start of a new one, or something else that leaves the tasks alone. -/
theorem step_cases (E : Env) (s : Sys) (ev : Ev) :
    (∃ t co g0, ev.own t = true ∧ t < s.tasks.length ∧ Resumed (s.waits t) t s.g g0 ∧ s.step E ev = s.put t (settle t co g0)) ∨
    (∃ co g0, Spawned E s.g ev co g0 ∧ s.step E ev = { s with g := g0 }.spawn co) ∨
    (∃ g', EnvStep E s.g g' ∧ s.step E ev = { s with g := g' }) := by
  have lt : ∀ {t : Nat} {x : Task}, s.tasks[t]? = some x → t < s.tasks.length := by
    intro t x h
    exact (List.getElem?_eq_some_iff.1 h).1
  have no : ∃ g', EnvStep E s.g g' ∧ s = { s with g := g' } := ⟨s.g, .nothing, rfl⟩
  cases ev with
  | call a => exact .inr (.inl ⟨_, s.g, .call a, rfl⟩)
  | setMaxRetries n => exact .inr (.inr ⟨_, .setMaxRetries n, rfl⟩)
  | unsubscribe u => exact .inr (.inr ⟨_, .unsubscribe u, rfl⟩)
  | registerHandler code h =>
    simp only [Sys.step]
    split
    · exact .inr (.inr ⟨_, .register _ code h, rfl⟩)
    · exact .inr (.inr no)
  | removeHandler code =>
    simp only [Sys.step]
    split
    · exact .inr (.inr ⟨_, .unregister _ code, rfl⟩)
    · exact .inr (.inr no)
  | opened t' ok =>
    simp only [Sys.step]
    split
    · rename_i h
      left
      split
      · exact ⟨t', _, _, by simp [Ev.own], lt h, .opened, rfl⟩
      · exact ⟨t', _, _, by simp [Ev.own], lt h, .same, rfl⟩
    · exact .inr (.inr no)
  | resume t' =>
    simp only [Sys.step]
    split
    · rename_i h
      split
      · rename_i ho
        exact .inl ⟨t', _, _, by simp [Ev.own], lt h, .got _ ⟨_, _, ho, _, h⟩, rfl⟩
      · exact .inr (.inr no)
    · rename_i h
      exact .inl ⟨t', _, _, by simp [Ev.own], lt h, .same, rfl⟩
    · rename_i h
      split
      · exact .inl ⟨t', _, _, by simp [Ev.own], lt h, .same, rfl⟩
      · exact .inr (.inr no)
    · rename_i h
      split
      · rename_i hc
        exact .inl ⟨t', _, _, by simp [Ev.own], lt h, .granted _ hc.1, rfl⟩
      · exact .inr (.inr no)
    · exact .inr (.inr no)
  | cancel t' =>
    simp only [Sys.step]
    split
    · rename_i h
      exact .inl ⟨t', _, _, by simp [Ev.own], lt h, .same, rfl⟩
    · rename_i h
      exact .inl ⟨t', _, _, by simp [Ev.own], lt h, .same, rfl⟩
    · rename_i h
      exact .inl ⟨t', _, _, by simp [Ev.own], lt h, .left _, rfl⟩
    · exact .inr (.inr no)
  | net c e =>
    simp only [Sys.step]
    split
    · rename_i h
      exact .inr (.inr ⟨_, .net c e h, rfl⟩)
    · exact .inr (.inr no)
  | handle c => exact .inr (.inr ⟨_, .handle c, rfl⟩)
  | ping c =>
    simp only [Sys.step]
    split
    · split
      · exact .inr (.inl ⟨_, _, .ping c, rfl⟩)
      · exact .inr (.inr no)
    · exact .inr (.inr no)
  | runUnsub =>
    simp only [Sys.step]
    split
    · rename_i h
      exact .inr (.inl ⟨_, _, .unsub h, rfl⟩)
    · exact .inr (.inr no)
  | tick now => exact .inr (.inr ⟨_, .tick now, rfl⟩)

/-- An event that is not a step of `t` leaves the task where it is. -/
theorem step_other_task (E : Env) (s : Sys) (ev : Ev) {t : Nat} (ht : t < s.tasks.length) (hne : ev.own t = false) :
    (s.step E ev).tasks[t]? = s.tasks[t]? ∧ (s.step E ev).g.acts t = s.g.acts t := by
  rcases step_cases E s ev with ⟨t', co, g0, ho, ht', hr, he⟩ | ⟨co, g0, hs, he⟩ | ⟨g', hg, he⟩
  · have hn : t' ≠ t := by
      intro h
      rw [h, hne] at ho
      cases ho
    rw [he]
    refine ⟨List.getElem?_set_ne hn, (settle_acts_other hn _ _).trans ?_⟩
    cases hr with
    | got o ho => exact acts_note_other _ hn _
    | _ => rfl
  · rw [he]
    refine ⟨List.getElem?_append_left ht, (settle_acts_other (by simp only; omega) _ _).trans ?_⟩
    simp only [Gw.acts, hs.log]
  · rw [he]
    exact ⟨rfl, hg.acts t⟩

theorem taskOk_put {M : Mon} {Q : List Act → Except PyErr Res → Gw → Prop} {t : Nat} {s : Sys} {r : Task × Gw}
    (h : M.I (r.2.acts t) ∧ TaskGoes M Q t r.1 r.2) : TaskOk M Q t (s.put t r) := by
  refine ⟨h.1, fun x hx => ?_⟩
  simp only [Sys.put, List.getElem?_set_self'] at hx
  cases hs : s.tasks[t]? with
  | none => rw [hs] at hx; cases hx
  | some y => rw [hs] at hx; cases hx; exact h.2

/-- What task `t` may go on with. -/
inductive Sys.Next (E : Env) (s : Sys) (t : Nat) : Co Res → Prop
  | opened {r : Int} {k : Except PyErr Bool → Co Res} {c : Nat} : s.tasks[t]? = some (.opening r k) → s.Next E t ((afterOpen E r c).bindE k)
  | opening {r : Int} {k : Except PyErr Bool → Co Res} {o : Except PyErr Bool} : s.tasks[t]? = some (.opening r k) → s.Next E t (k o)
  | request {c r : Nat} {k : Except PyErr (Option Bytes) → Co Res} {o : Except PyErr (Option Bytes)} :
      s.tasks[t]? = some (.request c r k) → s.Next E t (k o)
  | sleeping {k : Except PyErr Unit → Co Res} {o : Except PyErr Unit} : s.tasks[t]? = some (.sleeping k) → s.Next E t (k o)
  | closing {c i : Nat} {k : Except PyErr Unit → Co Res} {o : Except PyErr Unit} : s.tasks[t]? = some (.closing c i k) → s.Next E t (k o)
  | locked {k : Except PyErr Unit → Co Res} {o : Except PyErr Unit} : s.tasks[t]? = some (.locked k) → s.Next E t (k o)

/-- A step of task `t` itself. -/
theorem own_step_next (E : Env) {M : Mon} (hM : M.Good) {Q : List Act → Except PyErr Res → Gw → Prop} {t : Nat} {s : Sys} (ev : Ev)
    (hA : ∀ r, M.I (s.g.acts t) → (afterOpen E r s.g.conns.length).wp M t
      (fun h' o g' => M.I h' ∧ M.K t (s.g.acts t) s.g h' g' o) (s.g.acts t) s.g.addConn)
    (ho : ev.own t = true) (h : TaskOk M Q t s) :
    s.step E ev = s ∨ ∃ co g0, Resumed (s.waits t) t s.g g0 ∧ s.step E ev = s.put t (settle t co g0) ∧ M.I (g0.acts t) ∧
      co.wp M t Q (g0.acts t) g0 ∧ s.Next E t co := by
  obtain ⟨hI, h⟩ := h
  cases ev with
  | opened t' ok =>
    have : t' = t := by simpa [Ev.own] using ho
    subst this
    simp only [Sys.step]
    split
    · rename_i r k hk
      right
      have h := h _ hk
      simp only [TaskGoes] at h
      split
      · refine ⟨_, _, .opened, rfl, hI, ?_, .opened hk⟩
        refine Co.wp_bindE _ _ _ _ (Co.wp_mono ?_ _ _ _ (hA r hI))
        intro h' r' g' hq
        exact h h' g' r' hq.1 hq.2
      · exact ⟨_, _, .same, rfl, hI, h _ _ _ hI (hM.kfail _ _ _ _), .opening hk⟩
    · exact .inl rfl
  | resume t' =>
    have : t' = t := by simpa [Ev.own] using ho
    subst this
    simp only [Sys.step]
    split
    · rename_i c r k hk
      split
      · rename_i o ho
        right
        have h := h _ hk
        simp only [TaskGoes] at h
        refine ⟨_, _, .got o ⟨_, _, ho, _, hk⟩, rfl, ?_, ?_, .request hk⟩
        · rw [acts_note_same]
          exact (h _ _ (hM.refl _ _)).1
        · rw [acts_note_same]
          exact (h _ _ (hM.refl _ _)).2
      · exact .inl rfl
    · rename_i k hk
      right
      have h := h _ hk
      simp only [TaskGoes] at h
      exact ⟨_, _, .same, rfl, hI, h _ _ (hM.refl _ _), .sleeping hk⟩
    · rename_i c i k hk
      split
      · right
        have h := h _ hk
        simp only [TaskGoes] at h
        exact ⟨_, _, .same, rfl, hI, h _ _ (hM.refl _ _), .closing hk⟩
      · exact .inl rfl
    · rename_i k hk
      split
      · rename_i hc
        right
        have h := h _ hk
        simp only [TaskGoes] at h
        exact ⟨_, _, .granted _ hc.1, rfl, hI, h.1 _ _ (hM.refl _ _) hc.1, .locked hk⟩
      · exact .inl rfl
    · exact .inl rfl
  | cancel t' =>
    have : t' = t := by simpa [Ev.own] using ho
    subst this
    simp only [Sys.step]
    split
    · rename_i r k hk
      right
      have h := h _ hk
      simp only [TaskGoes] at h
      exact ⟨_, _, .same, rfl, hI, h _ _ _ hI (hM.kfail _ _ _ _), .opening hk⟩
    · rename_i k hk
      right
      have h := h _ hk
      simp only [TaskGoes] at h
      exact ⟨_, _, .same, rfl, hI, h _ _ (hM.refl _ _), .sleeping hk⟩
    · rename_i k hk
      right
      have h := h _ hk
      simp only [TaskGoes] at h
      exact ⟨_, _, .left _, rfl, hI, h.2 s.g (s.g.waiters.filter (· ≠ t')) (hM.refl _ _), .locked hk⟩
    · exact .inl rfl
  | _ => simp [Ev.own] at ho

theorem own_step (E : Env) {M : Mon} (hM : M.Good) {Q : List Act → Except PyErr Res → Gw → Prop} {t : Nat} {s : Sys} (ev : Ev)
    (hA : ∀ r, M.I (s.g.acts t) → (afterOpen E r s.g.conns.length).wp M t
      (fun h' o g' => M.I h' ∧ M.K t (s.g.acts t) s.g h' g' o) (s.g.acts t) s.g.addConn)
    (ho : ev.own t = true) (h : TaskOk M Q t s) :
    s.step E ev = s ∨ ∃ co g0, Resumed (s.waits t) t s.g g0 ∧ s.step E ev = s.put t (settle t co g0) ∧ M.I (g0.acts t) ∧
      co.wp M t Q (g0.acts t) g0 := by
  rcases own_step_next E hM ev hA ho h with he | ⟨co, g0, h1, h2, h3, h4, -⟩
  · exact .inl he
  · exact .inr ⟨co, g0, h1, h2, h3, h4⟩

/-- Soundness: a task described by `wp` stays so over every event, provided the rest of the world respects the
rely of the monitor.  `hA` is what has to be known of a connection sequence. -/
theorem task_step (E : Env) {M : Mon} (hM : M.Good) {Q : List Act → Except PyErr Res → Gw → Prop} {t : Nat} {s : Sys} (ev : Ev)
    (ht : t < s.tasks.length)
    (hA : ∀ r, M.I (s.g.acts t) → (afterOpen E r s.g.conns.length).wp M t
      (fun h' o g' => M.I h' ∧ M.K t (s.g.acts t) s.g h' g' o) (s.g.acts t) s.g.addConn)
    (hR : ev.own t = false → M.R t s.g (s.step E ev).g) (h : TaskOk M Q t s) : TaskOk M Q t (s.step E ev) := by
  cases ho : ev.own t with
  | false =>
    obtain ⟨h1, h2⟩ := step_other_task E s ev ht ho
    exact h.other hM h1 h2 (hR ho)
  | true =>
    rcases own_step E hM ev hA ho h with he | ⟨co, g0, _, he, hI, hw⟩
    · rw [he]; exact h
    · rw [he]; exact taskOk_put (settle_ok hM _ _ hI hw).1

/-! ## New tasks have no history -/

/-- Only tasks that exist have done something. -/
def LogOk (s : Sys) : Prop := ∀ x ∈ s.g.log, x.1 < s.tasks.length

theorem LogOk.fresh {s : Sys} (h : LogOk s) : s.g.acts s.tasks.length = [] := by
  simp only [Gw.acts, List.map_eq_nil_iff, List.filter_eq_nil_iff]
  intro x hx
  have := h x hx
  simp
  omega

theorem settle_log (t : Nat) : ∀ (co : Co Res) (g : Gw), ∀ x ∈ (settle t co g).2.log, x ∈ g.log ∨ x.1 = t
  | .ret a, g => fun x hx => .inl hx
  | .throw e, g => fun x hx => .inl hx
  | .get k, g => settle_log t (k g) g
  | .upd f k, g => settle_log t k (g.apply f)
  | .request c code data r k, g => by
    intro x hx
    simp only [settle] at hx
    have h1 : ∀ y ∈ (g.ask t c code data r).2.log, y ∈ g.log ∨ y.1 = t := by
      intro y hy
      rcases List.mem_append.1 hy with hy | hy
      · exact .inl hy
      · right; simp only [List.mem_singleton] at hy; rw [hy]
    split at hx
    · rcases settle_log t _ _ x hx with hx | hx
      · rcases List.mem_append.1 hx with hx | hx
        · exact h1 x hx
        · right; simp only [List.mem_singleton] at hx; rw [hx]
      · exact .inr hx
    · exact h1 x hx
  | .openConn r k, g => by
    intro x hx
    rcases List.mem_append.1 hx with hx | hx
    · exact .inl hx
    · right; simp only [List.mem_singleton] at hx; rw [hx]
  | .sleep k, g => fun x hx => .inl hx
  | .close c force k, g => by
    intro x hx
    simp only [settle] at hx
    have h1 : ∀ y ∈ (g.startClose t c force).2.log, y ∈ g.log ∨ y.1 = t := by
      intro y hy
      rcases List.mem_append.1 hy with hy | hy
      · exact .inl hy
      · right; simp only [List.mem_singleton] at hy; rw [hy]
    split at hx
    · rcases settle_log t _ _ x hx with hx | hx
      · exact h1 x hx
      · exact .inr hx
    · exact h1 x hx
  | .acquire k, g => by
    intro x hx
    simp only [settle] at hx
    split at hx
    · exact settle_log t (k (.ok ())) (g.take t) x hx
    · exact .inl hx

theorem LogOk.step {s : Sys} (E : Env) (ev : Ev) (h : LogOk s) : LogOk (s.step E ev) := by
  rcases step_cases E s ev with ⟨t, co, g0, _, ht, hr, he⟩ | ⟨co, g0, hs, he⟩ | ⟨g', hg, he⟩
  · rw [he]
    intro x hx
    simp only [Sys.put, List.length_set] at hx ⊢
    rcases settle_log t co g0 x hx with hx | hx
    · cases hr with
      | same => exact h x hx
      | got o =>
        rcases List.mem_append.1 hx with hx | hx
        · exact h x hx
        · simp only [List.mem_singleton] at hx; rw [hx]; exact ht
      | opened => exact h x hx
      | granted w hw => exact h x hx
      | left w => exact h x hx
    · rw [hx]; exact ht
  · rw [he]
    intro x hx
    simp only [Sys.spawn, List.length_append, List.length_singleton] at hx ⊢
    rcases settle_log _ co _ x hx with hx | hx
    · have := h x (hs.log ▸ hx); omega
    · omega
  · rw [he]
    intro x hx
    exact h x (hg.log ▸ hx)

theorem LogOk.run {E : Env} : ∀ (es : List Ev) {s : Sys}, LogOk s → LogOk (s.run E es)
  | [], _, h => h
  | ev :: es, _, h => LogOk.run es (h.step E ev)

theorem step_length (E : Env) (s : Sys) (ev : Ev) : s.tasks.length ≤ (s.step E ev).tasks.length := by
  rcases step_cases E s ev with ⟨t, co, g0, _, ht, hr, he⟩ | ⟨co, g0, hs, he⟩ | ⟨g', hg, he⟩
  · rw [he]; simp [Sys.put]
  · rw [he]; simp [Sys.spawn]
  · rw [he]; exact Nat.le_refl _

/-- A new task starts as described. -/
theorem taskOk_spawn {M : Mon} (hM : M.Good) {Q : List Act → Except PyErr Res → Gw → Prop} {s : Sys} (h : LogOk s) {co : Co Res}
    (hI : M.I []) (w : co.wp M s.tasks.length Q [] s.g) :
    TaskOk M Q s.tasks.length (s.spawn co) := by
  have hf := h.fresh
  have hk := (settle_ok hM co s.g (hf ▸ hI) (hf ▸ w)).1
  refine ⟨hk.1, fun x hx => ?_⟩
  simp only [Sys.spawn, List.getElem?_concat_length, Option.some.injEq] at hx
  subst hx
  exact hk.2

end SL
