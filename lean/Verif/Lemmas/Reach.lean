import Verif.Lemmas.Setters
/-!
# Reachable gateways

Every event is a chain of the atomic changes of Lemmas/Micro.lean (`step_chain`), so what all of them preserve
holds in every reachable state (`reach_inv`); and a task that is described by `wp` when it starts stays so over
every history (`call_run`).
-/
set_option linter.unusedVariables false

namespace SL

/-- Finitely many steps. -/
inductive Star (P : Gw → Gw → Prop) : Gw → Gw → Prop
  | refl (g : Gw) : Star P g g
  | tail {a b c : Gw} : Star P a b → P b c → Star P a c

theorem Star.single {P : Gw → Gw → Prop} {a b : Gw} (h : P a b) : Star P a b := .tail (.refl a) h

theorem Star.trans {P : Gw → Gw → Prop} {a b c : Gw} (h : Star P a b) (h' : Star P b c) : Star P a c := by
  induction h' with
  | refl => exact h
  | tail _ p ih => exact .tail ih p

theorem Star.mono {P Q : Gw → Gw → Prop} (hPQ : ∀ a b, P a b → Q a b) {a b : Gw} (h : Star P a b) : Star Q a b := by
  induction h with
  | refl => exact .refl _
  | tail _ p ih => exact .tail ih (hPQ _ _ p)

theorem Star.inv {P : Gw → Gw → Prop} {I : Gw → Prop} (hI : ∀ a b, I a → P a b → I b) {a b : Gw} (h : Star P a b) (ha : I a) :
    I b := by
  induction h with
  | refl => exact ha
  | tail _ p ih => exact hI _ _ ih p

/-- The atomic changes task `t` makes. -/
inductive OwnMicro (E : Env) (U : Prop) (t : Nat) (g : Gw) : Gw → Prop
  | upd (g' : Gw) (hu : Upd E t (g.acts t) g g') : OwnMicro E U t g g'
  | ask (c : Nat) (code : Int) (data : Bytes) (r : Int) (ha : AskOk U t code g) : OwnMicro E U t g (g.ask t c code data r).2
  | got (o : Except PyErr (Option Bytes)) (ho : ∃ c r, g.outcome c r = some o) : OwnMicro E U t g (g.note t (.got o))
  | opn : OwnMicro E U t g (g.note t (.opn (g.ip.getD "") g.port))
  | cls (c : Nat) (force : Bool) : OwnMicro E U t g (g.startClose t c force).2
  | take (hl : g.lock = none) : OwnMicro E U t g (g.take t)
  | waiters (w : List Nat) : OwnMicro E U t g (g.setWaiters w)
  | conn : OwnMicro E U t g g.addConn

/-- The atomic changes no task makes. -/
inductive FreeMicro (E : Env) (g : Gw) : Gw → Prop
  | ping (c : Nat) : FreeMicro E g (g.countPing c)
  | unsub : FreeMicro E g g.takeUnsub
  | env (g' : Gw) (h : EnvStep E g g') : FreeMicro E g g'

/-- An atomic change made by task `t`. -/
def OwnStep (E : Env) (U : Prop) (t : Nat) (g g' : Gw) : Prop :=
  Micro E U g g' ∧ (∀ t', t' ≠ t → MicroBut E U t' g g') ∧
  (∀ (X : List Act → Val → Prop) [XC E X], X (g.acts t) g.data → X (g'.acts t) g'.data) ∧ OwnMicro E U t g g'

/-- An atomic change made by no task. -/
def FreeStep (E : Env) (U : Prop) (g g' : Gw) : Prop := Micro E U g g' ∧ (∀ t, MicroBut E U t g g') ∧ FreeMicro E g g'

theorem Upd.x {E : Env} {X : List Act → Val → Prop} [hX : XC E X] {t : Nat} {g g' : Gw} (hu : Upd E t (g.acts t) g g')
    (hx : X (g.acts t) g.data) : X (g'.acts t) g'.data := by
  cases hu with
  | data D code payload b hq hg hb => exact hX.data _ _ D code payload b hx hq hg hb
  | listen cb code =>
    simp only [Gw.addListener]
    split <;> exact hx
  | _ => exact hx

theorem own_upd {E : Env} {U : Prop} {t : Nat} {g g' : Gw} (hu : Upd E t (g.acts t) g g') : OwnStep E U t g g' :=
  ⟨.upd t _ _ hu, fun t' hne => .upd t (Ne.symm hne) _ _ hu, fun X _ hx => hu.x hx, .upd _ hu⟩

theorem own_ask {E : Env} {U : Prop} {t c : Nat} {code : Int} {data : Bytes} {r : Int} {g : Gw} (ha : AskOk U t code g) :
    OwnStep E U t g (g.ask t c code data r).2 :=
  ⟨.ask t c code data r g ha, fun t' hne => .ask t c (Ne.symm hne) code data r g ha, fun X hX hx => by
    rw [acts_ask_same]; exact hX.act _ _ _ hx, .ask _ _ _ _ ha⟩

theorem own_got {E : Env} {U : Prop} (t : Nat) (o : Except PyErr (Option Bytes)) (g : Gw) (ho : ∃ c r, g.outcome c r = some o) :
    OwnStep E U t g (g.note t (.got o)) :=
  ⟨.got t o g ho, fun t' hne => .got t (Ne.symm hne) o g ho, fun X hX hx => by rw [acts_note_same]; exact hX.act _ _ _ hx, .got _ ho⟩

theorem own_opn {E : Env} {U : Prop} (t : Nat) (g : Gw) : OwnStep E U t g (g.note t (.opn (g.ip.getD "") g.port)) :=
  ⟨.opn t g, fun t' hne => .opn t (Ne.symm hne) g, fun X hX hx => by rw [acts_note_same]; exact hX.act _ _ _ hx, .opn⟩

theorem own_cls {E : Env} {U : Prop} (t c : Nat) (force : Bool) (g : Gw) : OwnStep E U t g (g.startClose t c force).2 :=
  ⟨.cls t c force g, fun t' hne => .cls t c (Ne.symm hne) force g, fun X hX hx => by rw [acts_close_same]; exact hX.act _ _ _ hx, .cls _ _⟩

theorem own_take {E : Env} {U : Prop} (t : Nat) (g : Gw) (hl : g.lock = none) : OwnStep E U t g (g.take t) :=
  ⟨.take t g hl, fun t' hne => .take t (Ne.symm hne) g hl, fun X hX hx => hx, .take hl⟩

theorem own_waiters {E : Env} {U : Prop} (t : Nat) (w : List Nat) (g : Gw) : OwnStep E U t g (g.setWaiters w) :=
  ⟨.waiters w g, fun t' _ => .waiters w g, fun X hX hx => hx, .waiters _⟩

theorem own_conn {E : Env} {U : Prop} (t : Nat) (g : Gw) : OwnStep E U t g g.addConn :=
  ⟨.conn g, fun t' _ => .conn g, fun X hX hx => hx, .conn⟩

/-- A piece of execution of a task is a chain of its atomic changes. -/
theorem settle_star {E : Env} {U : Prop} {X : List Act → Val → Prop} {I : List Act → Prop} {t : Nat} :
    ∀ (co : Co Res) (g : Gw), Steps (mon E U X I) t co g → Star (OwnStep E U t) g (settle t co g).2
  | .ret a, g, _ => .refl g
  | .throw e, g, _ => .refl g
  | .get k, g, h => settle_star (k g) g h
  | .upd f k, g, h => (Star.single (own_upd h.1)).trans (settle_star k (g.apply f) h.2)
  | .request c code data r k, g, h => by
    simp only [settle]
    have h1 : Star (OwnStep E U t) g (g.ask t c code data r).2 := .single (own_ask h.1)
    split
    · rename_i o ho
      exact (h1.tail (own_got t o _ ⟨_, _, ho⟩)).trans (settle_star (k o) _ (h.2 o ho))
    · exact h1
  | .openConn r k, g, h => .single (own_opn t g)
  | .sleep k, g, h => .refl g
  | .close c force k, g, h => by
    simp only [settle]
    have h1 : Star (OwnStep E U t) g (g.startClose t c force).2 := .single (own_cls t c force g)
    split
    · rename_i hc
      exact h1.trans (settle_star _ _ (h.2 hc))
    · exact h1
  | .acquire k, g, h => by
    simp only [settle]
    split
    · rename_i hc
      exact (Star.single (own_take t g hc.1)).trans (settle_star _ _ (h hc))
    · exact .single (own_waiters t _ g)

theorem resumed_star {E : Env} {U : Prop} {W : Nat → Nat → Prop} {t : Nat} {g g0 : Gw} (h : Resumed W t g g0) : Star (OwnStep E U t) g g0 := by
  cases h with
  | same => exact .refl g
  | got o ho =>
    obtain ⟨c, r, ho, _⟩ := ho
    exact .single (own_got t o g ⟨c, r, ho⟩)
  | opened => exact .single (own_conn t g)
  | granted w hl => exact (Star.single (own_waiters t w g)).tail (own_take t _ hl)
  | left w => exact .single (own_waiters t w g)

theorem spawned_star {E : Env} {U : Prop} {g g0 : Gw} {ev : Ev} {co : Co Res} (h : Spawned E g ev co g0) : Star (FreeStep E U) g g0 := by
  cases h with
  | call a => exact .refl g
  | ping c => exact .single ⟨.ping c g, fun t => .ping c g, .ping c⟩
  | unsub h => exact .single ⟨.unsub g, fun t => .unsub g, .unsub⟩

/-- What holds of every reachable system. -/
structure SysOk (E : Env) (U : Prop) (s : Sys) : Prop where
  inv : GInv U s.g
  log : LogOk s
  tasks : ∀ t, t < s.tasks.length → TaskOk (mon E U noX (fun _ => True)) (fun _ _ _ => True) t s

/-- The hypothesis of soundness about connection sequences. -/
theorem afterOpen_ok {E : Env} {U : Prop} {X : List Act → Val → Prop} [XC E X] {I : List Act → Prop} {t : Nat} (hI : HC I I) {g : Gw}
    (hg : GInv U g) (hx : X (g.acts t) g.data) (r : Int) (hi : I (g.acts t)) :
    (afterOpen E r g.conns.length).wp (mon E U X I) t
      (fun h' o g' => I h' ∧ (mon E U X I).K t (g.acts t) g h' g' o) (g.acts t) g.addConn := by
  have s : St U X t (g.lock = some t) (g.isClientNow = false) (g.acts t) g.addConn := by
    have s0 : St U X t (g.lock = some t) (g.isClientNow = false) (g.acts t) g := ⟨hg, id, fun _ h => h, rfl, hx⟩
    refine ⟨micro_inv (E := E) hg (.conn g), s0.lock, fun l n => ?_, rfl, hx⟩
    exact (microBut_lock (E := E) (U := U) (t := t) (.conn g) l).2 hg n
  refine Co.wp_mono ?_ _ _ _ (wp_afterOpen (E := E) hI (c := g.conns.length) (r := r) ?_ s hi)
  · intro h' o g' hq
    refine ⟨hq.2.1, hq.2.2, fun L N s0 => ?_⟩
    exact ⟨hq.1.inv, fun l => hq.1.lock (s0.lock l), fun l n => hq.1.icn (s0.lock l) (s0.icn l n), hq.1.acts, hq.1.x⟩
  · simp [Gw.addConn]

theorem hc_true : HC (fun _ => True) (fun _ => True) := ⟨fun _ _ => trivial, fun _ _ _ _ => trivial⟩

theorem spawn_st {E : Env} {U : Prop} {X : List Act → Val → Prop} {s : Sys} (hg : GInv U s.g) (hlog : LogOk s) {ev : Ev} {co : Co Res}
    {g0 : Gw} (hsp : Spawned E s.g ev co g0) (hx : X [] g0.data) : St U X s.tasks.length False False [] g0 := by
  have hi : GInv U g0 := (spawned_star (E := E) (U := U) hsp).inv (fun a b ha (hb : FreeStep E U a b) => micro_inv ha hb.1) hg
  refine ⟨hi, fun l => l.elim, fun l => l.elim, ?_, hx⟩
  have := hlog.fresh
  simp only [Gw.acts, hsp.log] at this ⊢
  exact this

/-- Every new task respects the monitor. -/
theorem spawn_wp {E : Env} {U : Prop} {s : Sys} (hs : SysOk E U s) {ev : Ev} {co : Co Res} {g0 : Gw}
    (hU : U → ∀ code data, ev = .call (.send code data) → code ≠ 12522 ∧ code ≠ 12524) (hsp : Spawned E s.g ev co g0) :
    co.wp (mon E U noX (fun _ => True)) s.tasks.length (fun _ _ _ => True) (g0.acts s.tasks.length) g0 := by
  have s0 := spawn_st (X := noX) hs.inv hs.log hsp trivial
  rw [s0.acts]
  cases hsp with
  | call a => exact wp_any a (fun u code data e => hU u code data (by rw [e])) s0
  | ping c => exact wp_pingCo s0
  | unsub h => exact wp_unsubCo s0

/-- Who makes the changes of an event. -/
theorem step_chain {E : Env} {U : Prop} {s : Sys} (hs : SysOk E U s) (ev : Ev)
    (hU : U → ∀ code data, ev = .call (.send code data) → code ≠ 12522 ∧ code ≠ 12524) :
    (∃ t, t < s.tasks.length ∧ ev.own t = true ∧ Star (OwnStep E U t) s.g (s.step E ev).g) ∨
    (∃ g0, Star (FreeStep E U) s.g g0 ∧ Star (OwnStep E U s.tasks.length) g0 (s.step E ev).g) := by
  have hM := mon_good E U noX (fun _ => True)
  by_cases ho : ∃ t, t < s.tasks.length ∧ ev.own t = true
  · obtain ⟨t, ht, ho⟩ := ho
    left
    refine ⟨t, ht, ho, ?_⟩
    rcases own_step E hM (Q := fun _ _ _ => True) ev (fun r hi => afterOpen_ok hc_true hs.inv trivial r trivial) ho (hs.tasks t ht) with
      he | ⟨co, g0, hr, he, hI, hw⟩
    · rw [he]; exact .refl _
    · rw [he]
      exact (resumed_star hr).trans (settle_star _ _ (settle_ok hM (Q := fun _ _ _ => True) co g0 trivial hw).2)
  · right
    rcases step_cases E s ev with ⟨t, co, g0, ho', ht, hr, he⟩ | ⟨co, g0, hsp, he⟩ | ⟨g', hg, he⟩
    · exact absurd ⟨t, ht, ho'⟩ ho
    · refine ⟨g0, spawned_star hsp, ?_⟩
      rw [he]
      exact settle_star _ _ (settle_ok hM (Q := fun _ _ _ => True) co g0 trivial (spawn_wp hs hU hsp)).2
    · refine ⟨g', .single ⟨.env _ _ hg, fun t => .env _ _ hg, .env _ hg⟩, ?_⟩
      rw [he]
      exact .refl _

theorem step_micro {E : Env} {U : Prop} {s : Sys} (hs : SysOk E U s) (ev : Ev)
    (hU : U → ∀ code data, ev = .call (.send code data) → code ≠ 12522 ∧ code ≠ 12524) :
    Star (Micro E U) s.g (s.step E ev).g := by
  rcases step_chain hs ev hU with ⟨t, _, _, h⟩ | ⟨g0, h1, h2⟩
  · exact h.mono (fun _ _ x => x.1)
  · exact (h1.mono (fun _ _ x => x.1)).trans (h2.mono (fun _ _ x => x.1))

theorem step_but {E : Env} {U : Prop} {s : Sys} (hs : SysOk E U s) (ev : Ev)
    (hU : U → ∀ code data, ev = .call (.send code data) → code ≠ 12522 ∧ code ≠ 12524) {t : Nat} (ht : t < s.tasks.length)
    (ho : ev.own t = false) : Star (MicroBut E U t) s.g (s.step E ev).g := by
  rcases step_chain hs ev hU with ⟨t', _, ho', h⟩ | ⟨g0, h1, h2⟩
  · have hne : t ≠ t' := by rintro rfl; rw [ho] at ho'; cases ho'
    exact h.mono (fun _ _ x => x.2.1 t hne)
  · exact (h1.mono (fun _ _ x => x.2.1 t)).trans (h2.mono (fun _ _ x => x.2.1 t (by omega)))

theorem star_rely {E : Env} {U : Prop} {t : Nat} {g g' : Gw} (h : Star (MicroBut E U t) g g') : Rely U t g g' ∧ g'.acts t = g.acts t := by
  induction h with
  | refl => exact ⟨.refl U t _, rfl⟩
  | tail _ m ih => exact ⟨ih.1.trans m.rely.1, m.rely.2.trans ih.2⟩

theorem SysOk.step {E : Env} {U : Prop} {s : Sys} (hs : SysOk E U s) (ev : Ev)
    (hU : U → ∀ code data, ev = .call (.send code data) → code ≠ 12522 ∧ code ≠ 12524) : SysOk E U (s.step E ev) := by
  have hM := mon_good E U noX (fun _ => True)
  refine ⟨(step_micro hs ev hU).inv (fun a b ha hb => micro_inv ha hb) hs.inv, hs.log.step E ev, fun t ht => ?_⟩
  by_cases hlt : t < s.tasks.length
  · refine task_step E hM ev hlt (fun r hi => afterOpen_ok hc_true hs.inv trivial r trivial) (fun ho => ?_) (hs.tasks t hlt)
    have := star_rely (step_but hs ev hU hlt ho)
    exact ⟨this.1, this.2, fun _ _ => trivial⟩
  · rcases step_cases E s ev with ⟨t', co, g0, ho', ht', hr, he⟩ | ⟨co, g0, hsp, he⟩ | ⟨g', hg, he⟩
    · rw [he] at ht
      simp only [Sys.put, List.length_set] at ht
      exact absurd ht hlt
    · rw [he] at ht ⊢
      simp only [Sys.spawn, List.length_append, List.length_singleton] at ht
      obtain rfl : t = s.tasks.length := by omega
      have hw := settle_ok hM (Q := fun _ _ _ => True) co g0 trivial (spawn_wp hs hU hsp)
      refine ⟨trivial, fun x hx => ?_⟩
      simp only [Sys.spawn, List.getElem?_concat_length, Option.some.injEq] at hx
      subst hx
      exact hw.1.2
    · rw [he] at ht
      exact absurd ht hlt

theorem SysOk.init (E : Env) (U : Prop) (clientId maxRetries : Int) : SysOk E U (Sys.init clientId maxRetries) := by
  refine ⟨⟨fun _ h => (by cases h), fun c h => (by cases h), fun c h => (by cases h)⟩, ?_, ?_⟩
  · intro x hx
    cases hx
  · intro t ht
    exact absurd ht (Nat.not_lt_zero t)

theorem SysOk.run {E : Env} {U : Prop} : ∀ (es : List Ev) {s : Sys}, SysOk E U s → (U → NoHandRegistration es) → SysOk E U (s.run E es)
  | [], _, h, _ => h
  | ev :: es, s, h, hU =>
    SysOk.run es (h.step ev (fun u code data e => hU u code data (by rw [← e]; simp)))
      (fun u code data he => hU u code data (by simp [he]))

/-- What all atomic changes preserve is true of every reachable gateway. -/
theorem reach_inv {E : Env} {U : Prop} {I : Gw → Prop} {clientId maxRetries : Int} (h0 : I (Sys.init clientId maxRetries).g)
    (hI : ∀ g g', GInv U g → I g → Micro E U g g' → I g') (es : List Ev) (hU : U → NoHandRegistration es) :
    I (after E clientId maxRetries es).g := by
  have key : ∀ (es : List Ev) {s : Sys}, SysOk E U s → I s.g → (U → NoHandRegistration es) → I (s.run E es).g := by
    intro es
    induction es with
    | nil => intro s _ h _; exact h
    | cons ev es ih =>
      intro s hs h hU
      have hU1 : U → ∀ code data, ev = .call (.send code data) → code ≠ 12522 ∧ code ≠ 12524 :=
        fun u code data e => hU u code data (by rw [← e]; simp)
      refine ih (hs.step ev hU1) ?_ (fun u code data he => hU u code data (by simp [he]))
      have := (step_micro hs ev hU1).inv (I := fun g => GInv U g ∧ I g) (fun a b ha hb => ⟨micro_inv ha.1 hb, hI a b ha.1 ha.2 hb⟩)
        ⟨hs.inv, h⟩
      exact this.2
  exact key es (SysOk.init E U _ _) h0 hU

theorem sys_run_append (E : Env) (s : Sys) (a b : List Ev) : s.run E (a ++ b) = (s.run E a).run E b := by
  simp [Sys.run, List.foldl_append]

theorem run_length {E : Env} : ∀ (es : List Ev) (s : Sys), s.tasks.length ≤ (s.run E es).tasks.length
  | [], _ => Nat.le_refl _
  | ev :: es, s => Nat.le_trans (step_length E s ev) (run_length es _)

/-- A task described by `wp` stays so over every history in which the others keep `X`. -/
theorem task_run {E : Env} {U : Prop} {X : List Act → Val → Prop} [hX : XC E X] {I : List Act → Prop} (hI : HC I I)
    {Q : List Act → Except PyErr Res → Gw → Prop} {t : Nat} :
    ∀ (es : List Ev) {s : Sys}, SysOk E U s → (U → NoHandRegistration es) → t < s.tasks.length →
      (∀ pre ev post, es = pre ++ ev :: post → ev.own t = false →
        ∀ h, X h (s.run E pre).g.data → X h (s.run E (pre ++ [ev])).g.data) →
      X (s.g.acts t) s.g.data → TaskOk (mon E U X I) Q t s →
      X ((s.run E es).g.acts t) (s.run E es).g.data ∧ TaskOk (mon E U X I) Q t (s.run E es)
  | [], _, _, _, _, _, hx, h => ⟨hx, h⟩
  | ev :: es, s, hs, hU, ht, hO, hx, h => by
    have hM := mon_good E U X I
    have hU1 : U → ∀ code data, ev = .call (.send code data) → code ≠ 12522 ∧ code ≠ 12524 :=
      fun u code data e => hU u code data (by rw [← e]; simp)
    have hO1 : ev.own t = false → ∀ h, X h s.g.data → X h (s.step E ev).g.data := fun ho => hO [] ev es rfl ho
    have hA : ∀ r, I (s.g.acts t) → (afterOpen E r s.g.conns.length).wp (mon E U X I) t
        (fun h' o g' => I h' ∧ (mon E U X I).K t (s.g.acts t) s.g h' g' o) (s.g.acts t) s.g.addConn :=
      fun r hi => afterOpen_ok hI hs.inv hx r hi
    refine task_run hI es (hs.step ev hU1) (fun u code data he => hU u code data (by simp [he]))
      (Nat.lt_of_lt_of_le ht (step_length E s ev)) ?_ ?_ ?_
    · intro pre ev' post e ho h' hx'
      have := hO (ev :: pre) ev' post (by rw [e]; rfl) ho h'
      exact this hx'
    · cases ho : ev.own t with
      | false =>
        rw [(step_other_task E s ev ht ho).2]
        exact hO1 ho _ hx
      | true =>
        rcases own_step E hM ev hA ho h with he | ⟨co, g0, hr, he, hi, hw⟩
        · rw [he]; exact hx
        · rw [he]
          have hst : Star (OwnStep E U t) s.g (settle t co g0).2 :=
            (resumed_star hr).trans (settle_star _ _ (settle_ok hM co g0 hi hw).2)
          exact hst.inv (I := fun g => X (g.acts t) g.data) (fun a b ha hb => hb.2.2.1 X ha) hx
    · refine task_step E hM ev ht hA (fun ho => ?_) h
      have := star_rely (step_but hs ev hU1 ht ho)
      exact ⟨this.1, this.2, hO1 ho⟩

/-- The task ends: the postcondition holds in the state of that moment. -/
theorem task_end {E : Env} {U : Prop} {X : List Act → Val → Prop} [hX : XC E X] {I : List Act → Prop} (hI : HC I I)
    {Q : List Act → Except PyErr Res → Gw → Prop} {t : Nat} {s : Sys} (hs : SysOk E U s) (ev : Ev) (ht : t < s.tasks.length)
    (hx : X (s.g.acts t) s.g.data) (h : TaskOk (mon E U X I) Q t s) {r : Except PyErr Res} (h0 : s.result t = none)
    (h1 : (s.step E ev).result t = some r) : Q ((s.step E ev).g.acts t) r (s.step E ev).g := by
  have hM := mon_good E U X I
  cases ho : ev.own t with
  | false =>
    exfalso
    have := (step_other_task E s ev ht ho).1
    simp only [Sys.result, this] at h1 h0
    rw [h0] at h1
    cases h1
  | true =>
    rcases own_step E hM ev (fun r hi => afterOpen_ok hI hs.inv hx r hi) ho h with he | ⟨co, g0, hr, he, hi, hw⟩
    · rw [he, h0] at h1; cases h1
    · rw [he] at h1 ⊢
      refine settle_end hM co g0 hw ?_
      simp only [Sys.result, Sys.put, List.getElem?_set_self ht] at h1
      split at h1
      · rename_i r' hd
        cases h1
        simpa using hd
      · cases h1

/-- A call described by `wp`, at any later time. -/
theorem call_goes {E : Env} {U : Prop} {X : List Act → Val → Prop} [hX : XC E X] {I : List Act → Prop} (hI : HC I I)
    {Q : List Act → Except PyErr Res → Gw → Prop} {clientId maxRetries : Int} (es1 : List Ev) (a : Call) (es2 : List Ev)
    (hU : U → NoHandRegistration (es1 ++ .call a :: es2))
    (hO : ∀ pre ev post, es2 = pre ++ ev :: post → ev.own (after E clientId maxRetries es1).tasks.length = false →
        ∀ h, X h (after E clientId maxRetries (es1 ++ .call a :: pre)).g.data →
          X h (after E clientId maxRetries (es1 ++ .call a :: (pre ++ [ev]))).g.data)
    (hx : X [] (after E clientId maxRetries es1).g.data) (hI0 : I [])
    (hw : ∀ g, g = (after E clientId maxRetries es1).g →
      St U X (after E clientId maxRetries es1).tasks.length False False [] g →
      (a.co E).wp (mon E U X I) (after E clientId maxRetries es1).tasks.length Q [] g) :
    (SysOk E U (after E clientId maxRetries (es1 ++ .call a :: es2)) ∧
    callTask E clientId maxRetries es1 < (after E clientId maxRetries (es1 ++ .call a :: es2)).tasks.length ∧
    X (actsOf E clientId maxRetries es1 a es2) (after E clientId maxRetries (es1 ++ .call a :: es2)).g.data ∧
    TaskOk (mon E U X I) Q (callTask E clientId maxRetries es1) (after E clientId maxRetries (es1 ++ .call a :: es2))) ∧
    (es2 = [] → ∀ r, resultOf E clientId maxRetries es1 a es2 = some r →
      Q (actsOf E clientId maxRetries es1 a es2) r (after E clientId maxRetries (es1 ++ .call a :: es2)).g) := by
  have e' : ∀ pre, after E clientId maxRetries (es1 ++ .call a :: pre) = ((after E clientId maxRetries es1).step E (.call a)).run E pre := by
    intro pre
    simp only [after, sys_run_append]
    rfl
  have hs1 : SysOk E U (after E clientId maxRetries es1) :=
    (SysOk.init E U clientId maxRetries).run es1 (fun u code data he => hU u code data (by simp [he]))
  have hs2 : SysOk E U ((after E clientId maxRetries es1).step E (.call a)) :=
    hs1.step _ (fun u code data he => hU u code data (by rw [he]; simp))
  have st : St U X (callTask E clientId maxRetries es1) False False [] (after E clientId maxRetries es1).g :=
    spawn_st (E := E) hs1.inv hs1.log (.call a) hx
  have hM := mon_good E U X I
  have hwp := hw _ rfl st
  have hset := settle_ok hM (Q := Q) (t := callTask E clientId maxRetries es1) (a.co E) (after E clientId maxRetries es1).g
    (st.acts.symm ▸ hI0) (st.acts.symm ▸ hwp)
  have h0 : TaskOk (mon E U X I) Q (callTask E clientId maxRetries es1) ((after E clientId maxRetries es1).step E (.call a)) :=
    taskOk_spawn hM hs1.log hI0 hwp
  have hx0 : X (((after E clientId maxRetries es1).step E (.call a)).g.acts (callTask E clientId maxRetries es1))
      ((after E clientId maxRetries es1).step E (.call a)).g.data := by
    have := (settle_star _ _ hset.2).inv (I := fun g => X (g.acts (callTask E clientId maxRetries es1)) g.data)
      (fun a b ha hb => hb.2.2.1 X ha) (st.acts.symm ▸ hx)
    exact this
  have hlen : callTask E clientId maxRetries es1 < ((after E clientId maxRetries es1).step E (.call a)).tasks.length := by
    simp [Sys.step, Sys.spawn, callTask]
  have key := task_run hI es2 hs2 (fun u code data he => hU u code data (by simp [he])) hlen
    (fun pre ev post he ho h hxx => by
      have := hO pre ev post he ho h
      rw [e', e'] at this
      exact this hxx) hx0 h0
  refine ⟨?_, ?_⟩
  · simp only [actsOf, e' es2]
    exact ⟨hs2.run es2 (fun u code data he => hU u code data (by simp [he])), Nat.lt_of_lt_of_le hlen (run_length es2 _), key.1, key.2⟩
  · rintro rfl r hr
    simp only [actsOf, resultOf, e'] at hr ⊢
    change Q (((after E clientId maxRetries es1).step E (.call a)).g.acts _) r ((after E clientId maxRetries es1).step E (.call a)).g
    change ((after E clientId maxRetries es1).step E (.call a)).result _ = some r at hr
    refine settle_end hM (a.co E) (after E clientId maxRetries es1).g (st.acts.symm ▸ hwp) ?_
    simp only [Sys.result, Sys.step, Sys.spawn, callTask, List.getElem?_concat_length] at hr
    split at hr
    · rename_i r' hd
      cases hr
      simpa using hd
    · cases hr

/-- A call described by `wp`: what holds of its actions at any later time, and of its result. -/
theorem call_run {E : Env} {U : Prop} {X : List Act → Val → Prop} [hX : XC E X] {I : List Act → Prop} (hI : HC I I)
    {Q : List Act → Except PyErr Res → Prop} {clientId maxRetries : Int} (es1 : List Ev) (a : Call) (es2 : List Ev)
    (hU : U → NoHandRegistration (es1 ++ .call a :: es2))
    (hO : ∀ pre ev post, es2 = pre ++ ev :: post → ev.own (after E clientId maxRetries es1).tasks.length = false →
        ∀ h, X h (after E clientId maxRetries (es1 ++ .call a :: pre)).g.data →
          X h (after E clientId maxRetries (es1 ++ .call a :: (pre ++ [ev]))).g.data)
    (hx : X [] (after E clientId maxRetries es1).g.data) (hI0 : I [])
    (hw : ∀ g, g = (after E clientId maxRetries es1).g →
      St U X (after E clientId maxRetries es1).tasks.length False False [] g →
      (a.co E).wp (mon E U X I) (after E clientId maxRetries es1).tasks.length (fun h r _ => Q h r) [] g) :
    let s := after E clientId maxRetries (es1 ++ .call a :: es2)
    let t := (after E clientId maxRetries es1).tasks.length
    I (s.g.acts t) ∧ ∀ r, s.result t = some r → Q (s.g.acts t) r := by
  intro s t
  obtain ⟨_, _, _, this⟩ := (call_goes hI es1 a es2 hU hO hx hI0 hw).1
  refine ⟨this.1, fun r hr => ?_⟩
  simp only [Sys.result] at hr
  split at hr
  · rename_i r' hd
    cases hr
    obtain ⟨g0, hq⟩ := this.2 _ hd
    exact hq
  · cases hr

/-- A call described by `wp`: what holds when it returns. -/
theorem call_end {E : Env} {U : Prop} {X : List Act → Val → Prop} [hX : XC E X] {I : List Act → Prop} (hI : HC I I)
    {Q : List Act → Except PyErr Res → Gw → Prop} {clientId maxRetries : Int} (es1 : List Ev) (a : Call) (es2 : List Ev)
    (hU : U → NoHandRegistration (es1 ++ .call a :: es2))
    (hO : ∀ pre ev post, es2 = pre ++ ev :: post → ev.own (after E clientId maxRetries es1).tasks.length = false →
        ∀ h, X h (after E clientId maxRetries (es1 ++ .call a :: pre)).g.data →
          X h (after E clientId maxRetries (es1 ++ .call a :: (pre ++ [ev]))).g.data)
    (hx : X [] (after E clientId maxRetries es1).g.data) (hI0 : I [])
    (hw : ∀ g, g = (after E clientId maxRetries es1).g →
      St U X (after E clientId maxRetries es1).tasks.length False False [] g →
      (a.co E).wp (mon E U X I) (after E clientId maxRetries es1).tasks.length Q [] g)
    {r : Except PyErr Res} (hr : EndsNow E clientId maxRetries es1 a es2 r) :
    Q (actsOf E clientId maxRetries es1 a es2) r (after E clientId maxRetries (es1 ++ .call a :: es2)).g := by
  rcases List.eq_nil_or_concat es2 with rfl | ⟨pre, ev, he⟩
  · exact (call_goes hI es1 a [] hU hO hx hI0 hw).2 rfl r hr.1
  · rw [List.concat_eq_append] at he
    subst he
    obtain ⟨⟨hs, hl, hxx, hk⟩, _⟩ := call_goes hI es1 a pre (fun u code data h => hU u code data (by
      simp only [List.mem_append, List.mem_cons] at h ⊢
      rcases h with h | h | h
      · exact .inl h
      · exact .inr (.inl h)
      · exact .inr (.inr (.inl h)))) (fun p e q he ho => hO p e (q ++ [ev]) (by simp [he]) ho) hx hI0 hw
    have e1 : after E clientId maxRetries (es1 ++ .call a :: (pre ++ [ev])) =
        (after E clientId maxRetries (es1 ++ .call a :: pre)).step E ev := by
      simp only [after, ← List.cons_append, ← List.append_assoc, sys_run_append]
      rfl
    have h0 := hr.2 pre ev rfl
    have h1 := hr.1
    simp only [resultOf, actsOf, e1] at h0 h1 ⊢
    exact task_end hI hs ev hl hxx hk h0 h1

end SL
