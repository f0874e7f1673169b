import Verif.Lemmas.Timing
import Verif.Props.BudgetProps
import Verif.Props.GatewayProps
/-!
# C104: how long a call can take
-/
set_option linter.unusedVariables false

namespace SL

theorem timed_run_s (E : Env) : ∀ (l : List (Nat × Ev)) (x : Timed), (x.run E l).s = x.s.run E (l.map (·.2))
  | [], _ => rfl
  | e :: l, x => timed_run_s E l (x.step E e.1 e.2)

theorem timed_run_append (E : Env) (l l' : List (Nat × Ev)) (x : Timed) : x.run E (l ++ l') = (x.run E l).run E l' := by
  simp [Timed.run, List.foldl_append]

theorem punctual_append {E : Env} : ∀ {l l' : List (Nat × Ev)} {x : Timed}, Punctual E x (l ++ l') → Punctual E x l ∧ Punctual E (x.run E l) l'
  | [], _, _, h => ⟨trivial, h⟩
  | e :: l, l', x, h => ⟨⟨h.1, h.2.1, (punctual_append h.2.2).1⟩, (punctual_append (l := l) h.2.2).2⟩

theorem past_run {E : Env} : ∀ {l : List (Nat × Ev)} {x : Timed}, x.Past → Punctual E x l → (x.run E l).Past
  | [], _, h, _ => h
  | e :: l, x, h, hp => past_run (l := l) (x := x.step E e.1 e.2) (h.step hp.1 e.2) hp.2.2

/-- Nobody allows more than `n` retries. -/
def Modest (n : Nat) (l : List (Nat × Ev)) : Prop := ∀ e ∈ l, ∀ m, e.2 = .setMaxRetries m → m ≤ (n : Int)

section
variable {E : Env} {clientId maxRetries : Int}

theorem retries_step {n : Nat} {es : List Ev} (h : (after E clientId maxRetries es).g.maxRetries ≤ (n : Int)) {ev : Ev} (hm : ∀ m, ev = .setMaxRetries m → m ≤ (n : Int)) :
    (after E clientId maxRetries (es ++ [ev])).g.maxRetries ≤ (n : Int) := by
  by_cases he : ∃ m, ev = .setMaxRetries m
  · obtain ⟨m, rfl⟩ := he
    have := hm m rfl
    rw [after_snoc]
    simp only [Sys.step, Gw.setMaxRetries]
    split
    · exact this
    · exact h
  · rw [C28_only E clientId maxRetries es ev (fun m e => he ⟨m, e⟩)]
    exact h

theorem intime_run {n τ0 p t : Nat} : ∀ (l : List (Nat × Ev)) {x : Timed} {es : List Ev} {y : Task} {b : Nat}, x.s = after E clientId maxRetries es →
    x.s.g.maxRetries ≤ (n : Int) → x.Past → Punctual E x l → Modest n l → x.Keeps n τ0 p t y b → ∃ y' b', (x.run E l).Keeps n τ0 p t y' b'
  | [], x, es, y, b, _, _, _, _, _, h => ⟨y, b, h⟩
  | e :: l, x, es, y, b, hx, hr, hp, hl, hm, h => by
    obtain ⟨y1, b1, h1⟩ := intime_step hx hr hp h hl.1 hl.2.1 e.2
    have hs : (x.step E e.1 e.2).s = after E clientId maxRetries (es ++ [e.2]) := by
      show x.s.step E e.2 = _
      rw [after_snoc, hx]
    refine intime_run l hs ?_ (hp.step hl.1 e.2) hl.2.2 (fun e' he' => hm e' (List.mem_cons_of_mem _ he')) h1
    rw [hs]
    exact retries_step (by rw [← hx]; exact hr) (hm e (List.mem_cons_self ..))

theorem retries_run {n : Nat} : ∀ (l : List (Nat × Ev)) (es : List Ev), (after E clientId maxRetries es).g.maxRetries ≤ (n : Int) → Modest n l →
    (after E clientId maxRetries (es ++ l.map (·.2))).g.maxRetries ≤ (n : Int)
  | [], es, h, _ => by simpa using h
  | e :: l, es, h, hm => by
    have := retries_run l (es ++ [e.2]) (retries_step h (hm e (List.mem_cons_self ..))) (fun e' he' => hm e' (List.mem_cons_of_mem _ he'))
    simpa using this

/-- A task that is spawned is in time from then on. -/
theorem intime_spawned {n : Nat} (hn : maxRetries ≤ (n : Int)) {l l' : List (Nat × Ev)} {τ0 : Nat} {ev : Ev}
    (hp : Punctual E (.init clientId maxRetries) (l ++ [(τ0, ev)] ++ l')) (hm : Modest n (l ++ [(τ0, ev)] ++ l')) {p : Nat} {co : Co Res} {g0 : Gw}
    (he : ((Timed.init clientId maxRetries).run E l).s.step E ev = Sys.spawn { ((Timed.init clientId maxRetries).run E l).s with g := g0 } co)
    (hg : g0.maxRetries = ((Timed.init clientId maxRetries).run E l).s.g.maxRetries)
    (hc : co.Pays (timing n) (fun _ _ => True) p) :
    ∃ y b, ((Timed.init clientId maxRetries).run E (l ++ [(τ0, ev)] ++ l')).Keeps n τ0 p ((Timed.init clientId maxRetries).run E l).s.tasks.length y b := by
  obtain ⟨h1, h2⟩ := punctual_append hp
  obtain ⟨h0, h1⟩ := punctual_append h1
  have hpast0 : (Timed.init clientId maxRetries).Past := ⟨fun _ _ => Nat.le_refl _, fun t ht => by cases ht⟩
  have hpast := past_run hpast0 h0
  have hs : ((Timed.init clientId maxRetries).run E l).s = after E clientId maxRetries (l.map (·.2)) := timed_run_s E l _
  have hr : ((Timed.init clientId maxRetries).run E l).s.g.maxRetries ≤ (n : Int) := by
    rw [hs]
    have := retries_run (E := E) (clientId := clientId) (maxRetries := maxRetries) l [] (by simpa [after, Sys.run, Sys.init] using hn) (fun e he => hm e (by simp [he]))
    simpa using this
  rw [timed_run_append, timed_run_append]
  rw [timed_run_append] at h2
  generalize hx : (Timed.init clientId maxRetries).run E l = x at *
  have hs1 : (x.step E τ0 ev).s = after E clientId maxRetries (l.map (·.2) ++ [ev]) := by
    show x.s.step E ev = _
    rw [after_snoc, hs]
  obtain ⟨y, b, hk⟩ := intime_new (E := E) (n := n) (τ0 := τ0) (p := p) (t := x.s.tasks.length) (b := p) (τ := τ0) (ev := ev) hs1 hpast h1.1
    (.inl (Nat.le_refl _)) (co := co) (g0 := g0) (by rw [he]; simp [Sys.spawn]) (by rw [he]; rfl) (by rw [hg]; exact hr) hc (by omega)
  refine intime_run l' hs1 ?_ (hpast.step h1.1 ev) h2 (fun e he => hm e (by simp [he])) hk
  show (x.step E τ0 ev).s.g.maxRetries ≤ (n : Int)
  rw [hs1]
  exact retries_step (by rw [← hs]; exact hr) (fun m e => hm (τ0, ev) (by simp) m e)

theorem purse_time (n : Nat) (a : Call) : a.purse (timing n) = a.time n := by
  simp only [Call.purse, Call.time, timing]; omega

theorem intime_call {n : Nat} (hn : maxRetries ≤ (n : Int)) {l l' : List (Nat × Ev)} {τ0 : Nat} {a : Call}
    (hp : Punctual E (.init clientId maxRetries) (l ++ [(τ0, .call a)] ++ l')) (hm : Modest n (l ++ [(τ0, .call a)] ++ l')) :
    ∃ y b, ((Timed.init clientId maxRetries).run E (l ++ [(τ0, .call a)] ++ l')).Keeps n τ0 (a.time n) ((Timed.init clientId maxRetries).run E l).s.tasks.length y b := by
  rw [← purse_time]
  cases hs : setterPlan E a with
  | none => exact intime_spawned hn hp hm rfl rfl (pays_call E (timing_ample n) a hs)
  | some f =>
    have e : ∀ s : Sys, s.step E (.call a) = s.spawn (setterCo (f s.g.data)) := by
      intro s
      show s.spawn (a.co E) = _
      simp only [Sys.spawn]
      rw [settle_look, setter_look E hs, ← settle_look]
    have hw : a.purse (timing n) = (timing n).full := by
      cases a <;> first | (cases hs; done) | (simp only [Call.purse, Call.freeOpens, Call.freeAsks, Call.freeCloses, Call.freePauses, Prices.full]; omega)
    rw [hw]
    exact intime_spawned hn hp hm (e _) rfl ((costs_setter (timing_ample n) _).run (b := 0) (by omega) (fun _ _ _ => trivial))

end

section
variable (E : Env) (clientId maxRetries : Int) (n : Nat) (hn : maxRetries ≤ (n : Int)) (l : List (Nat × Ev)) (τ0 : Nat) (a : Call) (l' : List (Nat × Ev))
  (hp : Punctual E (.init clientId maxRetries) (l ++ [(τ0, .call a)] ++ l')) (hm : Modest n (l ++ [(τ0, .call a)] ++ l'))
include hp hn hm

/-- **C104** Whatever else happens, as long as no wait lasts longer than the code allows, a call made at `τ0` that has not ended is no older than
`a.time n`, plus `extraTime n` for every request of it that has returned, plus the time it has waited for the subscription lock or for the end of a
connection. -/
theorem C104_running : let t := ((Timed.init clientId maxRetries).run E l).s.tasks.length
    let x := (Timed.init clientId maxRetries).run E (l ++ [(τ0, .call a)] ++ l')
    x.ended t = false → x.now ≤ τ0 + a.time n + extraTime n * x.s.g.count t Act.isReturn + x.idle t := by
  obtain ⟨y, b, h⟩ := intime_call hn hp hm
  exact h.now

/-- **C104** ... and if it has ended, it ended (the last time it went on) within this time. -/
theorem C104_ended : let t := ((Timed.init clientId maxRetries).run E l).s.tasks.length
    let x := (Timed.init clientId maxRetries).run E (l ++ [(τ0, .call a)] ++ l')
    x.ended t = true → x.task t ≤ τ0 + a.time n + extraTime n * x.s.g.count t Act.isReturn + x.idle t := by
  obtain ⟨y, b, h⟩ := intime_call hn hp hm
  intro t x he
  have hb := h.bound
  have ht := h.task
  cases y with
  | done r =>
    have hb : b + x.task t ≤ τ0 + a.time n + extraTime n * x.s.g.count t Act.isReturn + x.idle t := by
      simp only [Timed.until, Prices.hold, Nat.add_zero] at hb
      exact hb
    exact Nat.le_trans (Nat.le_add_left ..) hb
  | _ =>
    have ht : x.s.tasks[t]? = _ := ht
    simp only [Timed.ended, ht] at he
    cases he

end

/-- **C104** With the default number of retries, a call that has waited neither for the subscription lock nor for the end of a connection and none of
whose requests has returned has ended within 19.75 seconds; a connection attempt within 7.25 seconds; a disconnection within 5 seconds. -/
theorem C104_unanswered (E : Env) (clientId : Int) (l : List (Nat × Ev)) (τ0 : Nat) (a : Call) (l' : List (Nat × Ev))
    (hp : Punctual E (.init clientId 1) (l ++ [(τ0, .call a)] ++ l')) (hm : ∀ e ∈ l ++ [(τ0, .call a)] ++ l', ∀ m, e.2 ≠ .setMaxRetries m) :
    let t := ((Timed.init clientId 1).run E l).s.tasks.length
    let x := (Timed.init clientId 1).run E (l ++ [(τ0, .call a)] ++ l')
    x.idle t = 0 → x.s.g.count t Act.isReturn = 0 → x.ended t = false →
    x.now ≤ τ0 + 19750 ∧ (∀ c, a = .connect c → x.now ≤ τ0 + 7250) ∧ (∀ f, a = .disconnect f → x.now ≤ τ0 + 5000) := by
  intro t x hi hr he
  have h := C104_running E clientId 1 1 (by omega) l τ0 a l' hp (fun e he m e' => absurd e' (hm e he m)) he
  have h : x.now ≤ τ0 + a.time 1 + extraTime 1 * x.s.g.count t Act.isReturn + x.idle t := h
  rw [hi, hr] at h
  refine ⟨?_, fun c e => ?_, fun f e => ?_⟩
  · have : a.time 1 ≤ 19750 := by cases a <;> simp [Call.time, Call.freeOpens, Call.freeAsks, Call.freePauses, requestTime]
    omega
  · subst e
    have : (Call.connect c).time 1 = 7250 := by simp [Call.time, Call.freeOpens, Call.freeAsks, Call.freePauses, requestTime]
    omega
  · subst e
    have : (Call.disconnect f).time 1 = 5000 := by simp [Call.time, Call.freeOpens, Call.freeAsks, Call.freePauses, requestTime]
    omega

/-- **C104** A keepalive, or the unsubscription that follows the last `unsubscribe`, ends within the time of one request. -/
theorem C104_background (E : Env) (clientId maxRetries : Int) (n : Nat) (hn : maxRetries ≤ (n : Int)) (l : List (Nat × Ev)) (τ0 : Nat) {ev : Ev}
    (hev : (∃ c, ev = .ping c) ∨ ev = .runUnsub) (l' : List (Nat × Ev)) (hp : Punctual E (.init clientId maxRetries) (l ++ [(τ0, ev)] ++ l'))
    (hm : Modest n (l ++ [(τ0, ev)] ++ l'))
    (hnew : ((Timed.init clientId maxRetries).run E l).s.tasks.length < ((Timed.init clientId maxRetries).run E (l ++ [(τ0, ev)])).s.tasks.length) :
    let t := ((Timed.init clientId maxRetries).run E l).s.tasks.length
    let x := (Timed.init clientId maxRetries).run E (l ++ [(τ0, ev)] ++ l')
    x.ended t = false → x.now ≤ τ0 + requestTime n + extraTime n * x.s.g.count t Act.isReturn + x.idle t := by
  have key : ∃ y b, ((Timed.init clientId maxRetries).run E (l ++ [(τ0, ev)] ++ l')).Keeps n τ0 (requestTime n)
      ((Timed.init clientId maxRetries).run E l).s.tasks.length y b := by
    have c1 : pingCo.Pays (timing n) (fun _ _ => True) (requestTime n) := (pays_ping 0).mono (fun _ _ _ _ _ => trivial) (Nat.le_of_eq (Nat.zero_add _))
    have c2 : unsubCo.Pays (timing n) (fun _ _ => True) (requestTime n) := (pays_unsub 0).mono (fun _ _ _ _ _ => trivial) (Nat.le_of_eq (Nat.zero_add _))
    rw [timed_run_append] at hnew
    have hnew : _ < (((Timed.init clientId maxRetries).run E l).s.step E ev).tasks.length := hnew
    rcases step_cases E ((Timed.init clientId maxRetries).run E l).s ev with ⟨t, co, g0, ho, _, _, _⟩ | ⟨co, g0, hs, he⟩ | ⟨g', _, he⟩
    · rcases hev with ⟨c, rfl⟩ | rfl <;> cases ho
    · cases hs with
      | call a => rcases hev with ⟨c, hev⟩ | hev <;> cases hev
      | ping c => exact intime_spawned hn hp hm he rfl c1
      | unsub h => exact intime_spawned hn hp hm he rfl c2
    · rw [he] at hnew
      exact absurd hnew (Nat.lt_irrefl _)
  obtain ⟨y, b, h⟩ := key
  exact h.now

/-! ## A punctual history -/

/-- Whether a history is punctual, as a computation. -/
def punctualB (E : Env) : Timed → List (Nat × Ev) → Bool
  | _, [] => true
  | x, (τ, ev) :: l => decide (x.now ≤ τ) && (List.range x.s.tasks.length).all (fun t => match x.due t with | some d => decide (τ ≤ d) | none => true) &&
      punctualB E (x.step E τ ev) l

theorem punctualB_sound {E : Env} : ∀ {l : List (Nat × Ev)} {x : Timed}, punctualB E x l = true → Punctual E x l
  | [], _, _ => trivial
  | (τ, ev) :: l, x, h => by
    simp only [punctualB, Bool.and_eq_true, decide_eq_true_eq, List.all_eq_true, List.mem_range] at h
    refine ⟨h.1.1, fun t d hd => ?_, punctualB_sound h.2⟩
    have ht : t < x.s.tasks.length := by
      simp only [Timed.due] at hd
      by_cases hl : t < x.s.tasks.length
      · exact hl
      · rw [List.getElem?_eq_none (by omega)] at hd; cases hd
    have := h.1.2 t ht
    rw [hd] at this
    simpa using this

/-- The adapter accepts the connection after two seconds and says nothing then. -/
def silentEvs : List (Nat × Ev) :=
  [(2000, .opened 0 true), (2250, .resume 0), (4250, .net 0 (.timeout 0)), (4250, .net 0 (.resume 0)), (5250, .net 0 (.wake 0)),
    (7250, .net 0 (.timeout 0)), (7250, .net 0 (.resume 0))]

/-- The bound of a connection attempt is met exactly: the adapter accepts the connection at the last moment and answers nothing; the attempt ends
after 7.25 seconds. -/
theorem C104_witness :
    let l := [] ++ [(0, Ev.call (.connect { ip := some "10.0.0.1" }))] ++ silentEvs;
    let x := (Timed.init 0 1).run sampleEnv l;
    Punctual sampleEnv (.init 0 1) l ∧ Modest 1 l ∧ x.ended 0 = false ∧ x.now = 7250 ∧ x.idle 0 = 0 ∧ x.s.g.count 0 Act.isReturn = 0 ∧
    ((Timed.init 0 1).run sampleEnv (l ++ [(7250, .resume 0)])).ended 0 = true := by
  refine ⟨punctualB_sound (by decide +kernel), ?_, by decide +kernel⟩
  intro e he m hm
  simp only [silentEvs, List.nil_append, List.cons_append, List.mem_cons, List.not_mem_nil, or_false] at he
  rcases he with rfl | rfl | rfl | rfl | rfl | rfl | rfl | rfl <;> cases hm

end SL
