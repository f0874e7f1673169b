import Verif.Spec.Reg
import Verif.Props.ServeProps
/-!
# C50: client registration is serialised
-/
set_option linter.unusedVariables false

namespace SL

/-- The task waits for the outcome of a request. -/
def Asking (h : List Act) : Prop := ∃ h0 c code p, h = h0 ++ [.ask c code p]

theorem Asking.got {h : List Act} {o : Except PyErr (Option Bytes)} : ¬ Asking (h ++ [.got o]) := by
  rintro ⟨h0, c, code, p, e⟩
  have := (List.append_inj' e rfl).2
  cases this

theorem Asking.opn {h : List Act} {i : String} {p : Int} : ¬ Asking (h ++ [.opn i p]) := by
  rintro ⟨h0, c, code, p, e⟩
  have := (List.append_inj' e rfl).2
  cases this

theorem Asking.cls {h : List Act} {c : Nat} {f : Bool} : ¬ Asking (h ++ [.cls c f]) := by
  rintro ⟨h0, c, code, p, e⟩
  have := (List.append_inj' e rfl).2
  cases this

/-- An atomic change of task `t`, which either is the outcome of its request or is made while it waits for none. -/
def AwakeStep (E : Env) (U : Prop) (t : Nat) (a b : Gw) : Prop :=
  OwnStep E U t a b ∧ (¬ Asking (a.acts t) ∨ ∃ o, b = a.note t (.got o))

theorem Upd.acts {E : Env} {t : Nat} {h : List Act} {g g' : Gw} (hu : Upd E t h g g') (t' : Nat) : g'.acts t' = g.acts t' := by
  cases hu with
  | listen cb code =>
    simp only [Gw.addListener]
    split <;> rfl
  | _ => rfl

theorem settle_awake {E : Env} {U : Prop} {X : List Act → Val → Prop} {I : List Act → Prop} {t : Nat} :
    ∀ (co : Co Res) (g : Gw), Steps (mon E U X I) t co g → ¬ Asking (g.acts t) →
      Star (AwakeStep E U t) g (settle t co g).2 ∧
      (Asking ((settle t co g).2.acts t) → ∃ c r k, (settle t co g).1 = .request c r k)
  | .ret a, g, _, n => ⟨.refl g, fun h => absurd h n⟩
  | .throw e, g, _, n => ⟨.refl g, fun h => absurd h n⟩
  | .get k, g, h, n => settle_awake (k g) g h n
  | .upd f k, g, h, n => by
    have ih := settle_awake k (g.apply f) h.2 (by rw [(h.1 : Upd E t _ _ _).acts]; exact n)
    exact ⟨(Star.single ⟨own_upd h.1, .inl n⟩).trans ih.1, ih.2⟩
  | .request c code data r k, g, h, n => by
    simp only [settle]
    have h1 : Star (AwakeStep E U t) g (g.ask t c code data r).2 := .single ⟨own_ask h.1, .inl n⟩
    split
    · rename_i o ho
      have ih := settle_awake (k o) _ (h.2 o ho) (by rw [acts_note_same]; exact Asking.got)
      exact ⟨(h1.tail ⟨own_got t o _ ⟨_, _, ho⟩, .inr ⟨o, rfl⟩⟩).trans ih.1, ih.2⟩
    · exact ⟨h1, fun _ => ⟨_, _, _, rfl⟩⟩
  | .openConn r k, g, h, n => by
    refine ⟨.single ⟨own_opn t g, .inl n⟩, fun ha => ?_⟩
    simp only [settle] at ha
    rw [acts_note_same] at ha
    exact absurd ha Asking.opn
  | .sleep k, g, h, n => ⟨.refl g, fun h => absurd h n⟩
  | .close c force k, g, h, n => by
    simp only [settle]
    have h1 : Star (AwakeStep E U t) g (g.startClose t c force).2 := .single ⟨own_cls t c force g, .inl n⟩
    have n1 : ¬ Asking ((g.startClose t c force).2.acts t) := by rw [acts_close_same]; exact Asking.cls
    split
    · rename_i hc
      have ih := settle_awake _ _ (h.2 hc) n1
      exact ⟨h1.trans ih.1, ih.2⟩
    · exact ⟨h1, fun ha => absurd ha n1⟩
  | .acquire k, g, h, n => by
    simp only [settle]
    split
    · rename_i hc
      have ih := settle_awake _ _ (h hc) (show ¬ Asking ((g.take t).acts t) from n)
      exact ⟨(Star.single ⟨own_take t g hc.1, .inl n⟩).trans ih.1, ih.2⟩
    · exact ⟨.single ⟨own_waiters t _ g, .inl n⟩, fun ha => absurd ha n⟩

theorem resumed_awake {E : Env} {U : Prop} {W : Nat → Nat → Prop} {t : Nat} {g g0 : Gw} (h : Resumed W t g g0) (n : ¬ Asking (g.acts t)) :
    Star (AwakeStep E U t) g g0 ∧ ¬ Asking (g0.acts t) := by
  cases h with
  | same => exact ⟨.refl g, n⟩
  | got o ho =>
    obtain ⟨c, r, ho, _⟩ := ho
    exact ⟨.single ⟨own_got t o g ⟨c, r, ho⟩, .inl n⟩, by rw [acts_note_same]; exact Asking.got⟩
  | opened => exact ⟨.single ⟨own_conn t g, .inl n⟩, n⟩
  | granted w hl => exact ⟨(Star.single ⟨own_waiters t w g, .inl n⟩).tail ⟨own_take t _ hl, .inl n⟩, n⟩
  | left w => exact ⟨.single ⟨own_waiters t w g, .inl n⟩, n⟩

/-- A step of a task that waits for a request is its outcome. -/
theorem request_step (E : Env) {M : Mon} (hM : M.Good) {Q : List Act → Except PyErr Res → Gw → Prop} {t : Nat} {s : Sys} (ev : Ev)
    (ho : ev.own t = true) (h : TaskOk M Q t s) {c r : Nat} {k : Except PyErr (Option Bytes) → Co Res}
    (hk : s.tasks[t]? = some (.request c r k)) :
    s.step E ev = s ∨ ∃ o co, (∃ c r, s.g.outcome c r = some o) ∧ s.step E ev = s.put t (settle t co (s.g.note t (.got o))) ∧
      M.I ((s.g.note t (.got o)).acts t) ∧ co.wp M t Q ((s.g.note t (.got o)).acts t) (s.g.note t (.got o)) := by
  cases ev with
  | opened t' ok =>
    have : t' = t := by simpa [Ev.own] using ho
    subst this
    left
    simp only [Sys.step, hk]
  | resume t' =>
    have : t' = t := by simpa [Ev.own] using ho
    subst this
    simp only [Sys.step, hk]
    split
    · rename_i o ho
      right
      have h := h.2 _ hk
      simp only [TaskGoes] at h
      refine ⟨o, _, ⟨_, _, ho⟩, rfl, ?_, ?_⟩
      · rw [acts_note_same]
        exact (h _ _ (hM.refl _ _)).1
      · rw [acts_note_same]
        exact (h _ _ (hM.refl _ _)).2
    · exact .inl rfl
  | cancel t' =>
    have : t' = t := by simpa [Ev.own] using ho
    subst this
    left
    simp only [Sys.step, hk]
  | _ => simp [Ev.own] at ho

/-- The tasks that wait for the outcome of a request are those that say so. -/
def AskersWait (s : Sys) : Prop := ∀ t x, s.tasks[t]? = some x → Asking (s.g.acts t) → ∃ c r k, x = .request c r k

/-- As `step_chain`, with who waits for what. -/
theorem step_awake {E : Env} {U : Prop} {s : Sys} (hs : SysOk E U s) (hq : AskersWait s) (ev : Ev)
    (hU : U → ∀ code data, ev = .call (.send code data) → code ≠ 12522 ∧ code ≠ 12524) :
    ((∃ t, t < s.tasks.length ∧ ev.own t = true ∧ Star (AwakeStep E U t) s.g (s.step E ev).g) ∨
    (∃ g0, Star (FreeStep E U) s.g g0 ∧ Star (AwakeStep E U s.tasks.length) g0 (s.step E ev).g)) ∧ AskersWait (s.step E ev) := by
  have hM := mon_good E U noX (fun _ => True)
  have keep : ∀ (t : Nat) (r : Task × Gw), t < s.tasks.length → (∀ t', t' ≠ t → r.2.acts t' = s.g.acts t') →
      (Asking (r.2.acts t) → ∃ c i k, r.1 = .request c i k) → AskersWait (s.put t r) := by
    intro t r ht ho hr t' x hx ha
    simp only [Sys.put] at hx ha
    by_cases e : t' = t
    · subst e
      rw [List.getElem?_set_self ht, Option.some.injEq] at hx
      subst hx
      exact hr ha
    · rw [List.getElem?_set_ne (Ne.symm e)] at hx
      rw [ho t' e] at ha
      exact hq t' x hx ha
  by_cases ho : ∃ t, t < s.tasks.length ∧ ev.own t = true
  · obtain ⟨t, ht, ho⟩ := ho
    by_cases ha : Asking (s.g.acts t)
    · obtain ⟨c, r, k, hk⟩ := hq t _ (List.getElem?_eq_getElem ht) ha
      rcases request_step E hM ev ho (hs.tasks t ht) (by rw [List.getElem?_eq_getElem ht, hk]) with he | ⟨o, co, hout, he, hI, hw⟩
      · exact ⟨.inl ⟨t, ht, ho, by rw [he]; exact .refl _⟩, by rw [he]; exact hq⟩
      · have hst := settle_awake (E := E) (U := U) co _ (settle_ok hM (Q := fun _ _ _ => True) co _ trivial hw).2
          (by rw [acts_note_same]; exact Asking.got)
        refine ⟨.inl ⟨t, ht, ho, ?_⟩, ?_⟩
        · rw [he]
          exact (Star.single ⟨own_got t o _ hout, .inr ⟨o, rfl⟩⟩).trans hst.1
        · rw [he]
          refine keep t _ ht (fun t' hne => ?_) hst.2
          rw [settle_acts_other (Ne.symm hne), acts_note_other _ (Ne.symm hne)]
    · rcases own_step E hM (Q := fun _ _ _ => True) ev (fun r hi => afterOpen_ok hc_true hs.inv trivial r trivial) ho (hs.tasks t ht) with
        he | ⟨co, g0, hr, he, hI, hw⟩
      · exact ⟨.inl ⟨t, ht, ho, by rw [he]; exact .refl _⟩, by rw [he]; exact hq⟩
      · have h0 := resumed_awake (E := E) (U := U) hr ha
        have hst := settle_awake (E := E) (U := U) co _ (settle_ok hM (Q := fun _ _ _ => True) co g0 trivial hw).2 h0.2
        refine ⟨.inl ⟨t, ht, ho, ?_⟩, ?_⟩
        · rw [he]
          exact h0.1.trans hst.1
        · rw [he]
          refine keep t _ ht (fun t' hne => ?_) hst.2
          rw [settle_acts_other (Ne.symm hne)]
          cases hr with
          | got o ho => exact acts_note_other _ (Ne.symm hne) _
          | _ => rfl
  · rcases step_cases E s ev with ⟨t, co, g0, ho', ht, hr, he⟩ | ⟨co, g0, hsp, he⟩ | ⟨g', hg, he⟩
    · exact absurd ⟨t, ht, ho'⟩ ho
    · have hf : g0.acts s.tasks.length = [] := by
        have := hs.log.fresh
        simp only [Gw.acts, hsp.log] at this ⊢
        exact this
      have n0 : ¬ Asking (g0.acts s.tasks.length) := by
        rw [hf]
        rintro ⟨h0, c, code, p, e⟩
        simp at e
      have hst := settle_awake (E := E) (U := U) co _ (settle_ok hM (Q := fun _ _ _ => True) co g0 trivial (spawn_wp hs hU hsp)).2 n0
      refine ⟨.inr ⟨g0, spawned_star hsp, ?_⟩, ?_⟩
      · rw [he]
        exact hst.1
      · rw [he]
        intro t x hx ha
        simp only [Sys.spawn] at hx ha
        by_cases e : t = s.tasks.length
        · subst e
          rw [List.getElem?_concat_length, Option.some.injEq] at hx
          subst hx
          exact hst.2 ha
        · have hlt : t < s.tasks.length := by
            have := (List.getElem?_eq_some_iff.1 hx).1
            simp only [List.length_append, List.length_singleton] at this
            omega
          rw [List.getElem?_append_left hlt] at hx
          rw [settle_acts_other (Ne.symm e)] at ha
          refine hq t x hx ?_
          simp only [Gw.acts, hsp.log] at ha ⊢
          exact ha
    · refine ⟨.inr ⟨g', .single ⟨.env _ _ hg, fun t => .env _ _ hg, .env _ hg⟩, ?_⟩, ?_⟩
      · rw [he]
        exact .refl _
      · rw [he]
        intro t x hx ha
        refine hq t x hx ?_
        simp only at ha
        rw [hg.acts] at ha
        exact ha

/-- What the atomic changes preserve, as `reach_inv`, with who waits for what. -/
theorem reach_awake {E : Env} {U : Prop} {I : Gw → Prop} {clientId maxRetries : Int} (h0 : I (Sys.init clientId maxRetries).g)
    (hF : ∀ g g', GInv U g → I g → FreeStep E U g g' → I g') (hO : ∀ t g g', GInv U g → I g → AwakeStep E U t g g' → I g')
    (es : List Ev) (hU : U → NoHandRegistration es) : I (after E clientId maxRetries es).g := by
  have key : ∀ (es : List Ev) {s : Sys}, SysOk E U s → AskersWait s → I s.g → (U → NoHandRegistration es) → I (s.run E es).g := by
    intro es
    induction es with
    | nil => intro s _ _ h _; exact h
    | cons ev es ih =>
      intro s hs hq h hU
      have hU1 : U → ∀ code data, ev = .call (.send code data) → code ≠ 12522 ∧ code ≠ 12524 :=
        fun u code data e => hU u code data (by rw [← e]; simp)
      obtain ⟨h1, h2⟩ := step_awake hs hq ev hU1
      refine ih (hs.step ev hU1) h2 ?_ (fun u code data he => hU u code data (by simp [he]))
      rcases h1 with ⟨t, _, _, hc⟩ | ⟨g0, hc, hc'⟩
      · exact (hc.inv (I := fun g => GInv U g ∧ I g) (fun a b ha hb => ⟨micro_inv ha.1 hb.1.1, hO t a b ha.1 ha.2 hb⟩) ⟨hs.inv, h⟩).2
      · have := hc.inv (I := fun g => GInv U g ∧ I g) (fun a b ha hb => ⟨micro_inv ha.1 hb.1, hF a b ha.1 ha.2 hb⟩) ⟨hs.inv, h⟩
        exact (hc'.inv (I := fun g => GInv U g ∧ I g) (fun a b ha hb => ⟨micro_inv ha.1 hb.1.1, hO _ a b ha.1 ha.2 hb⟩) this).2
  refine key es (SysOk.init E U _ _) ?_ h0 hU
  intro t x hx
  simp [Sys.init] at hx

theorem outstanding_asking {g : Gw} {t : Nat} {code : Int} (h : Outstanding g t code) : Asking (g.acts t) := by
  obtain ⟨h, c, p, e⟩ := h
  exact ⟨h, c, code, p, e⟩

/-- Who waits for the outcome of a registration request holds the lock, and the gateway is no client. -/
def RegInv (g : Gw) : Prop :=
  (∀ t, Outstanding g t 12522 → g.lock = some t ∧ g.isClientNow = false) ∧ (∀ t, Outstanding g t 12524 → g.lock = some t ∧ g.isClientNow = false)

theorem outstanding_but {E : Env} {U : Prop} {t : Nat} {g g' : Gw} (hg : GInv U g) (m : MicroBut E U t g g') {code : Int}
    (h : Outstanding g t code → g.lock = some t ∧ g.isClientNow = false) : Outstanding g' t code → g'.lock = some t ∧ g'.isClientNow = false := by
  intro ho
  simp only [Outstanding, microBut_acts m] at ho
  obtain ⟨h1, h2⟩ := h ho
  obtain ⟨h3, h4⟩ := microBut_lock m h1
  exact ⟨h3, h4 hg h2⟩

theorem reg_inv (E : Env) (clientId maxRetries : Int) (es : List Ev) (hn : NoHandRegistration es) :
    RegInv (after E clientId maxRetries es).g := by
  have zero : ∀ t code, ¬ Outstanding (Sys.init clientId maxRetries).g t code := by
    rintro t code ⟨h, c, p, e⟩
    simp [Sys.init, Gw.acts] at e
  refine reach_awake (E := E) (U := True) (I := RegInv) ⟨fun t h => absurd h (zero t _), fun t h => absurd h (zero t _)⟩ ?_ ?_ es (fun _ => hn)
  · intro g g' hg h m
    exact ⟨fun t => outstanding_but hg (m.2.1 t) (h.1 t), fun t => outstanding_but hg (m.2.1 t) (h.2 t)⟩
  · intro t g g' hg h m
    have own : ∀ code : Int, code = 12522 ∨ code = 12524 → Outstanding g' t code → g'.lock = some t ∧ g'.isClientNow = false := by
      intro code hcode ho
      obtain ⟨⟨_, _, _, hm⟩, hn⟩ := m
      rcases hn with hn | ⟨o, rfl⟩
      · cases hm with
        | upd _ hu =>
          refine absurd (outstanding_asking ho) ?_
          rw [hu.acts]
          exact hn
        | ask c code' data r ha =>
          have e := ho
          obtain ⟨h0, c', p', e⟩ := e
          rw [acts_ask_same] at e
          have e := (List.append_inj' e rfl).2
          simp only [List.cons.injEq, Act.ask.injEq, and_true] at e
          obtain ⟨_, rfl, _⟩ := e
          have q := quiet_ask g t c code' data r
          rcases hcode with rfl | rfl
          · obtain ⟨h1, h2⟩ := (ha trivial).1 rfl
            exact ⟨q.lock.trans h1, quiet_icn q h2⟩
          · obtain ⟨h1, h2, _⟩ := (ha trivial).2 rfl
            exact ⟨q.lock.trans h1, quiet_icn q (by simp [Gw.isClientNow, h2])⟩
        | got o ho' =>
          refine absurd (outstanding_asking ho) ?_
          rw [acts_note_same]; exact Asking.got
        | opn =>
          refine absurd (outstanding_asking ho) ?_
          rw [acts_note_same]; exact Asking.opn
        | cls c force =>
          refine absurd (outstanding_asking ho) ?_
          rw [acts_close_same]; exact Asking.cls
        | take hl => exact absurd (outstanding_asking ho) hn
        | waiters w => exact absurd (outstanding_asking ho) hn
        | conn => exact absurd (outstanding_asking ho) hn
      · refine absurd (outstanding_asking ho) ?_
        rw [acts_note_same]; exact Asking.got
    refine ⟨fun t' => ?_, fun t' => ?_⟩
    · by_cases e : t' = t
      · subst e; exact own _ (.inl rfl)
      · exact outstanding_but hg (m.1.2.1 t' e) (h.1 t')
    · by_cases e : t' = t
      · subst e; exact own _ (.inr rfl)
      · exact outstanding_but hg (m.1.2.1 t' e) (h.2 t')

section
variable (E : Env) (clientId maxRetries : Int)

/-- **C50**: at no time are two add-client or remove-client requests under way (unless somebody sends such messages by
hand). -/
theorem C50_one (es : List Ev) (hn : NoHandRegistration es) (t1 t2 : Nat) (code1 code2 : Int)
    (h1 : code1 = 12522 ∨ code1 = 12524) (h2 : code2 = 12522 ∨ code2 = 12524)
    (o1 : Outstanding (after E clientId maxRetries es).g t1 code1) (o2 : Outstanding (after E clientId maxRetries es).g t2 code2) :
    t1 = t2 ∧ code1 = code2 := by
  have hi := reg_inv E clientId maxRetries es hn
  have l : ∀ t code, (code = 12522 ∨ code = 12524) → Outstanding (after E clientId maxRetries es).g t code →
      (after E clientId maxRetries es).g.lock = some t := by
    rintro t code (rfl | rfl) ho
    · exact (hi.1 t ho).1
    · exact (hi.2 t ho).1
  have e : t1 = t2 := Option.some.inj ((l t1 code1 h1 o1).symm.trans (l t2 code2 h2 o2))
  refine ⟨e, ?_⟩
  subst e
  obtain ⟨a, c, p, e1⟩ := o1
  obtain ⟨b, c', p', e2⟩ := o2
  have := (List.append_inj' (e1.symm.trans e2) rfl).2
  simp only [List.cons.injEq, Act.ask.injEq, and_true] at this
  exact this.2.1

/-- **C50**: from the moment an add-client request is made until its outcome is known the gateway is not a client. -/
theorem C50_add (es : List Ev) (hn : NoHandRegistration es) (t : Nat) (ho : Outstanding (after E clientId maxRetries es).g t 12522) :
    (after E clientId maxRetries es).g.isClientNow = false := ((reg_inv E clientId maxRetries es hn).1 t ho).2

/-- **C50**: a remove-client request is made only when the registration is in force: an add-client request has been
acknowledged and no remove-client request has been made since. -/
theorem C50_remove (es : List Ev) (hn : NoHandRegistration es) (pre : List (Nat × Act)) (t c : Nat) (p : Bytes) (post : List (Nat × Act))
    (h : (after E clientId maxRetries es).g.log = pre ++ (t, .ask c 12524 p) :: post) : AddedSince pre := by
  have key : ∀ pre t c p post, (after E clientId maxRetries es).g.log = pre ++ (t, .ask c 12524 p) :: post → AddedSince pre := by
    refine reach_inv (E := E) (U := True) (I := fun g => ∀ pre t c p post, g.log = pre ++ (t, .ask c 12524 p) :: post → AddedSince pre)
      ?_ ?_ es (fun _ => hn)
    · intro pre t c p post e
      simp [Sys.init] at e
    · intro g g' hg ih m
      have same : g'.log = g.log → ∀ pre t c p post, g'.log = pre ++ (t, .ask c 12524 p) :: post → AddedSince pre :=
        fun e pre t c p post h => ih pre t c p post (e ▸ h)
      have snoc : ∀ x, g'.log = g.log ++ [x] → ((∃ c p, x.2 = .ask c 12524 p) → AddedSince g.log) →
          ∀ pre t c p post, g'.log = pre ++ (t, .ask c 12524 p) :: post → AddedSince pre := by
        intro x e hx pre t c p post h
        rw [e] at h
        rcases List.append_eq_append_iff.1 h with ⟨a, ha, hb⟩ | ⟨a, ha, hb⟩
        · rcases a with _ | ⟨a0, a⟩
          · simp only [List.nil_append, List.cons.injEq] at hb
            rw [List.append_nil] at ha
            rw [ha]
            exact hx ⟨c, p, by rw [hb.1]⟩
          · simp at hb
        · rcases a with _ | ⟨a0, a⟩
          · simp only [List.nil_append, List.cons.injEq] at hb
            rw [List.append_nil] at ha
            rw [← ha]
            exact hx ⟨c, p, by rw [← hb.1]⟩
          · simp only [List.cons_append, List.cons.injEq] at hb
            exact ih pre t c p a (by rw [ha, hb.1])
      cases m with
      | upd t _ _ hu =>
        cases hu with
        | listen cb code =>
          refine same ?_
          simp only [Gw.addListener]
          split <;> rfl
        | _ => exact same rfl
      | ask t c code data r _ ha =>
        refine snoc (t, .ask c code data) rfl ?_
        rintro ⟨c', p', e⟩
        simp only [Act.ask.injEq] at e
        exact ((ha trivial).2 e.2.1).2.2
      | got t o => exact snoc _ rfl (by rintro ⟨c, p, e⟩; cases e)
      | opn t => exact snoc _ rfl (by rintro ⟨c, p, e⟩; cases e)
      | cls t c force => exact snoc _ rfl (by rintro ⟨c, p, e⟩; cases e)
      | env _ _ he => exact same he.log
      | _ => exact same rfl
  exact key pre t c p post h

end

/-! ### Concrete cases -/

/-- Decidable form of "the last thing task `t` did was to make a request with this code". -/
def lastAsks (g : Gw) (t : Nat) (code : Int) : Bool :=
  match (g.acts t).getLast? with
  | some (.ask _ c _) => c == code
  | _ => false

theorem lastAsks_outstanding {g : Gw} {t : Nat} {code : Int} (h : lastAsks g t code = true) : Outstanding g t code := by
  unfold lastAsks at h
  split at h
  · rename_i c c' p hl
    obtain ⟨ys, hy⟩ := List.getLast?_eq_some_iff.1 hl
    simp only [beq_iff_eq] at h
    subst h
    exact ⟨ys, c, p, hy⟩
  · cases h

/-- The hypotheses of the C50 theorems are met: an add-client request is under way; later a remove-client request. -/
theorem C50_witness : NoHandRegistration silencedEvs ∧
    Outstanding (after sampleEnv 1 3 (bareConnectEvs ++ [.call (.subscribe 7 12500)])).g 1 12522 ∧
    Outstanding (after sampleEnv 1 3 (sub7Evs ++ [.unsubscribe ⟨12500, 0, 7⟩, .call (.subscribe 8 12500), .runUnsub])).g 3 12524 := by
  refine ⟨?_, lastAsks_outstanding (by decide +kernel), lastAsks_outstanding (by decide +kernel)⟩
  intro code data h
  simp [silencedEvs, sub7Evs, bareConnectEvs, loginEvs, noConfigEvs, reply] at h

end SL
