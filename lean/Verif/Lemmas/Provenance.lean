import Verif.Lemmas.Shy
import Verif.Lemmas.Filed
import Verif.Spec.Provenance
/-!
# Every outcome belongs to the request made last

`MicroA` is `Micro` with what is known of the outcomes of requests; `reach_asked` is `reach_inv` for it.
-/
set_option linter.unusedVariables false

namespace SL

/-- Not the receipt of an outcome. -/
def Act.plain : Act → Prop
  | .got _ => False
  | _ => True

/-- All atomic changes; outcomes are those of the request the task made last. -/
inductive MicroA (E : Env) (U : Prop) : Gw → Gw → Prop
  | base (g g' : Gw) (m : Micro E U g g') (hl : g'.log = g.log ∨ ∃ t a, Act.plain a ∧ g'.log = g.log ++ [(t, a)]) : MicroA E U g g'
  | got (t : Nat) (o : Except PyErr (Option Bytes)) (g : Gw) (c r : Nat) (ho : g.outcome c r = some o) (ha : g.asked t c r) :
      MicroA E U g (g.note t (.got o))

theorem MicroA.micro {E : Env} {U : Prop} {g g' : Gw} (h : MicroA E U g g') : Micro E U g g' := by
  cases h with
  | base _ _ m _ => exact m
  | got t o _ c r ho ha => exact .got t o _ ⟨c, r, ho⟩

/-- A request that has just been made. -/
theorem asked_ask {g : Gw} {t c : Nat} {code : Int} {data : Bytes} {r : Int}
    (hc : c < (g.ask t c code data r).2.conns.length) :
    (g.ask t c code data r).2.asked t c (g.ask t c code data r).1 := by
  cases hx : g.conns[c]? with
  | none =>
    have : (g.ask t c code data r).2.conns[c]? = none := by
      simp [Gw.ask, Gw.note, Gw.net, List.getElem?_modify, hx]
    have := List.getElem?_eq_none_iff.1 this
    omega
  | some x =>
    have hr : (g.ask t c code data r).1 = x.w.reqs.length := by simp [Gw.ask, hx]
    obtain ⟨x', hc, hw⟩ : ∃ x', (g.ask t c code data r).2.conns[c]? = some x' ∧
        x'.w = (x.w.step (.call code data r)).run [.run x.w.reqs.length] :=
      ⟨_, by simp only [Gw.ask, Gw.note, Gw.net, List.getElem?_modify, hx]; rfl, by simp [World.run]⟩
    obtain ⟨q, hq, hs⟩ := run_req (x.w.step (.call code data r)) [.run x.w.reqs.length]
      (r := x.w.reqs.length) (q := { code, data, maxRetries := r }) (by simp [World.step])
    refine ⟨g.acts t, code, data, x', q, acts_ask_same .., hc, ?_, ?_, ?_⟩
    · rw [hr, hw]; exact hq
    · exact congrArg Prod.fst hs
    · exact congrArg (fun p => p.2.1) hs

theorem outcome_lt {g : Gw} {c r : Nat} {o : Except PyErr (Option Bytes)} (h : g.outcome c r = some o) : c < g.conns.length := by
  cases hx : g.conns[c]? with
  | none => simp [Gw.outcome, hx] at h
  | some x => exact lt_of_getElem? hx

theorem log_apply (g : Gw) (f : Gw → Gw) : (g.apply f).log = g.log := rfl

theorem settle_starA {E : Env} {U : Prop} {X : List Act → Val → Prop} {I : List Act → Prop} {t : Nat} :
    ∀ (co : Co Res) (g : Gw), Steps (mon E U X I) t co g → Star (MicroA E U) g (settle t co g).2
  | .ret a, g, _ => .refl g
  | .throw e, g, _ => .refl g
  | .get k, g, h => settle_starA (k g) g h
  | .upd f k, g, h => (Star.single (.base _ _ (.upd t _ _ h.1) (.inl (log_apply g f)))).trans (settle_starA k (g.apply f) h.2)
  | .request c code data r k, g, h => by
    simp only [settle]
    have h1 : Star (MicroA E U) g (g.ask t c code data r).2 :=
      .single (.base _ _ (.ask t c code data r g h.1) (.inr ⟨t, .ask c code data, trivial, rfl⟩))
    split
    · rename_i o ho
      exact (h1.tail (.got t o _ _ _ ho (asked_ask (outcome_lt ho)))).trans (settle_starA (k o) _ (h.2 o ho))
    · exact h1
  | .openConn r k, g, h => .single (.base _ _ (.opn t g) (.inr ⟨t, .opn (g.ip.getD "") g.port, trivial, rfl⟩))
  | .sleep k, g, h => .refl g
  | .close c force k, g, h => by
    simp only [settle]
    have h1 : Star (MicroA E U) g (g.startClose t c force).2 :=
      .single (.base _ _ (.cls t c force g) (.inr ⟨t, .cls c force, trivial, rfl⟩))
    split
    · rename_i hc
      exact h1.trans (settle_starA _ _ (h.2 hc))
    · exact h1
  | .acquire k, g, h => by
    simp only [settle]
    split
    · rename_i hc
      exact (Star.single (.base _ _ (.take t g hc.1) (.inl rfl))).trans (settle_starA _ _ (h hc))
    · exact .single (.base _ _ (.waiters _ g) (.inl rfl))

/-- The tasks that wait for a request wait for the one they made last. -/
def Waiting (s : Sys) : Prop := ∀ t c r, s.waits t c r → s.g.asked t c r

theorem resumed_starA {E : Env} {U : Prop} {s : Sys} (hs : Waiting s) {t : Nat} {g0 : Gw} (h : Resumed (s.waits t) t s.g g0) :
    Star (MicroA E U) s.g g0 := by
  cases h with
  | same => exact .refl _
  | got o ho =>
    obtain ⟨c, r, ho, hw⟩ := ho
    exact .single (.got t o _ c r ho (hs t c r hw))
  | opened => exact .single (.base _ _ (.conn _) (.inl rfl))
  | granted w hl => exact (Star.single (.base _ _ (.waiters w _) (.inl rfl))).tail (.base _ _ (.take t _ hl) (.inl rfl))
  | left w => exact .single (.base _ _ (.waiters w _) (.inl rfl))

theorem spawned_starA {E : Env} {U : Prop} {g g0 : Gw} {ev : Ev} {co : Co Res} (h : Spawned E g ev co g0) : Star (MicroA E U) g g0 := by
  cases h with
  | call a => exact .refl g
  | ping c => exact .single (.base _ _ (.ping c g) (.inl rfl))
  | unsub h => exact .single (.base _ _ (.unsub g) (.inl rfl))

theorem step_microA {E : Env} {U : Prop} {s : Sys} (hs : SysOk E U s) (hw : Waiting s) (ev : Ev)
    (hU : U → ∀ code data, ev = .call (.send code data) → code ≠ 12522 ∧ code ≠ 12524) :
    Star (MicroA E U) s.g (s.step E ev).g := by
  have hM := mon_good E U noX (fun _ => True)
  by_cases ho : ∃ t, t < s.tasks.length ∧ ev.own t = true
  · obtain ⟨t, ht, ho⟩ := ho
    rcases own_step E hM (Q := fun _ _ _ => True) ev (fun r hi => afterOpen_ok hc_true hs.inv trivial r trivial) ho (hs.tasks t ht) with
      he | ⟨co, g0, hr, he, hI, hwp⟩
    · rw [he]; exact .refl _
    · rw [he]
      exact (resumed_starA hw hr).trans (settle_starA _ _ (settle_ok hM (Q := fun _ _ _ => True) co g0 trivial hwp).2)
  · rcases step_cases E s ev with ⟨t, co, g0, ho', ht, hr, he⟩ | ⟨co, g0, hsp, he⟩ | ⟨g', hg, he⟩
    · exact absurd ⟨t, ht, ho'⟩ ho
    · rw [he]
      exact (spawned_starA hsp).trans (settle_starA _ _ (settle_ok hM (Q := fun _ _ _ => True) co g0 trivial (spawn_wp hs hU hsp)).2)
    · rw [he]
      exact .single (.base _ _ (.env _ _ hg) (.inl hg.log))

/-- A piece of execution that ends waiting for a request has just made it. -/
theorem settle_waits {t c r : Nat} {k : Except PyErr (Option Bytes) → Co Res} : ∀ (co : Co Res) (g : Gw),
    (settle t co g).1 = .request c r k → (∃ code data, (t, Act.ask c code data) ∈ (settle t co g).2.log) ∧
      (c < (settle t co g).2.conns.length → (settle t co g).2.asked t c r)
  | .ret a, g, h => by cases h
  | .throw e, g, h => by cases h
  | .get k, g, h => settle_waits (k g) g h
  | .upd f k, g, h => settle_waits k (g.apply f) h
  | .request c' code data r' k', g, h => by
    simp only [settle] at h ⊢
    split at h
    · rename_i o ho
      exact settle_waits _ _ h
    · rename_i ho
      simp only [Task.request.injEq] at h
      obtain ⟨rfl, rfl, -⟩ := h
      refine ⟨⟨code, data, ?_⟩, asked_ask⟩
      simp [Gw.ask, Gw.note]
  | .openConn r k, g, h => by cases h
  | .sleep k, g, h => by cases h
  | .close c' force k, g, h => by
    simp only [settle] at h ⊢
    split at h
    · rename_i hc
      rw [if_pos hc]
      exact settle_waits _ _ h
    · cases h
  | .acquire k, g, h => by
    simp only [settle] at h ⊢
    split at h
    · rename_i hc
      rw [if_pos hc]
      exact settle_waits _ _ h
    · cases h

theorem star_grows {E : Env} {U : Prop} {g g' : Gw} (h : Star (Micro E U) g g') : Grows g g' := by
  induction h with
  | refl => exact .refl _
  | tail _ m ih => exact ih.trans (micro_grows m)

theorem waiting_step {E : Env} {s : Sys} (hs : SysOk E False s) (hw : Waiting s) (ev : Ev)
    (hb : ∀ t c code data, (t, Act.ask c code data) ∈ (s.step E ev).g.log → c < (s.step E ev).g.conns.length) :
    Waiting (s.step E ev) := by
  intro t c r hwt
  have old : t < s.tasks.length → ev.own t = false → (s.step E ev).g.asked t c r := by
    intro ht ho
    obtain ⟨h1, h2⟩ := step_other_task E s ev ht ho
    obtain ⟨k, hk⟩ := hwt
    rw [h1] at hk
    exact (hw t c r ⟨k, hk⟩).grows (star_grows (step_micro hs ev (fun u => u.elim))) h2
  obtain ⟨k, hk⟩ := hwt
  by_cases ht : t < s.tasks.length
  · by_cases ho : ev.own t = true
    · have hM := mon_good E False noX (fun _ => True)
      rcases own_step E hM (Q := fun _ _ _ => True) ev (fun r hi => afterOpen_ok hc_true hs.inv trivial r trivial) ho (hs.tasks t ht) with
        he | ⟨co, g0, hr, he, hI, hwp⟩
      · rw [he] at hk ⊢
        exact hw t c r ⟨k, hk⟩
      · rw [he] at hk hb ⊢
        simp only [Sys.put, List.getElem?_set_self ht, Option.some.injEq] at hk
        obtain ⟨⟨code, data, hm⟩, h2⟩ := settle_waits co g0 hk
        exact h2 (hb t c code data hm)
    · exact old ht (by simpa using ho)
  · rcases step_cases E s ev with ⟨t', co, g0, ho', ht', hr, he⟩ | ⟨co, g0, hsp, he⟩ | ⟨g', hg, he⟩
    · rw [he] at hk
      have := lt_of_getElem? hk
      simp only [Sys.put, List.length_set] at this
      exact absurd this ht
    · rw [he] at hk hb ⊢
      have hlt := lt_of_getElem? hk
      simp only [Sys.spawn, List.length_append, List.length_singleton] at hlt
      obtain rfl : t = s.tasks.length := by omega
      simp only [Sys.spawn, List.getElem?_concat_length, Option.some.injEq] at hk
      obtain ⟨⟨code, data, hm⟩, h2⟩ := settle_waits co g0 hk
      exact h2 (hb _ c code data hm)
    · rw [he] at hk
      exact absurd (lt_of_getElem? hk) ht

/-- Requests are made on existing connections. -/
theorem ask_lt (E : Env) (clientId maxRetries : Int) (es : List Ev) {t c : Nat} {code : Int} {data : Bytes}
    (h : (t, Act.ask c code data) ∈ (after E clientId maxRetries es).g.log) : c < (after E clientId maxRetries es).g.conns.length := by
  obtain ⟨owns, hs⟩ := reach_shy E clientId maxRetries es
  by_cases hl : c < (after E clientId maxRetries es).g.conns.length
  · exact hl
  · have := hs.ok.new c (by omega)
    have hm : (code, data) ∈ asksOn c (after E clientId maxRetries es).g.log := by
      rw [asksOn, List.mem_filterMap]
      exact ⟨_, h, by simp⟩
    rw [this] at hm
    cases hm

theorem reach_waiting (E : Env) (clientId maxRetries : Int) (es : List Ev) : Waiting (after E clientId maxRetries es) := by
  have key : ∀ rs : List Ev, Waiting (after E clientId maxRetries rs.reverse) := by
    intro rs
    induction rs with
    | nil =>
      rintro t c r ⟨k, hk⟩
      simp [after, Sys.run, Sys.init] at hk
    | cons ev rs ih =>
      rw [List.reverse_cons, after_snoc]
      have hb := @ask_lt E clientId maxRetries (rs.reverse ++ [ev])
      rw [after_snoc] at hb
      exact waiting_step ((SysOk.init E False clientId maxRetries).run _ (fun u => u.elim)) ih ev (fun t c code data hm => hb hm)
  simpa using key es.reverse

/-- `reach_inv`, with what is known of outcomes. -/
theorem reach_asked {E : Env} {I : Gw → Prop} {clientId maxRetries : Int} (h0 : I (Sys.init clientId maxRetries).g)
    (hI : ∀ g g', I g → MicroA E False g g' → I g') (es : List Ev) : I (after E clientId maxRetries es).g := by
  have key : ∀ rs : List Ev, I (after E clientId maxRetries rs.reverse).g := by
    intro rs
    induction rs with
    | nil => exact h0
    | cons ev rs ih =>
      rw [List.reverse_cons, after_snoc]
      exact (step_microA ((SysOk.init E False clientId maxRetries).run _ (fun u => u.elim)) (reach_waiting E clientId maxRetries _) ev
        (fun u => u.elim)).inv hI ih
  simpa using key es.reverse

end SL
