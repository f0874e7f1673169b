import Verif.Lemmas.Reach
import Verif.Lemmas.Sample
import Verif.Lemmas.Subs
import Verif.Props.ServeProps
set_option linter.unusedVariables false
/-!
# C50: background tasks
-/
namespace SL
open Spec

/-- The events that give the event loop a coroutine to run: a call of the API, a keepalive timer, an unsubscribe function. -/
def Ev.asksForTask : Ev → Bool
  | .call _ | .ping _ | .unsubscribe _ => true
  | _ => false

theorem own_unsubs {E : Env} {U : Prop} {t : Nat} {g g' : Gw} (h : OwnMicro E U t g g') : g'.unsubs = g.unsubs := by
  cases h with
  | upd _ hu =>
    cases hu with
    | listen cb code =>
      simp only [Gw.addListener]
      split <;> rfl
    | _ => rfl
  | _ => rfl

theorem star_unsubs {E : Env} {U : Prop} {t : Nat} {g g' : Gw} (h : Star (OwnStep E U t) g g') : g'.unsubs = g.unsubs := by
  induction h with
  | refl => rfl
  | tail _ m ih => rw [own_unsubs m.2.2.2, ih]

theorem unsubscribe_unsubs (g : Gw) (u : Sub) : (g.unsubscribe u).unsubs ≤ g.unsubs + 1 := by
  simp only [Gw.unsubscribe]
  repeat' split
  all_goals (try simp only [Gw.dropCode])
  all_goals repeat' split
  all_goals first | exact Nat.le_refl _ | exact Nat.le_succ _

theorem tasks_step {E : Env} {s : Sys} (hs : SysOk E False s) (ev : Ev) :
    (s.step E ev).tasks.length + (s.step E ev).g.unsubs ≤ s.tasks.length + s.g.unsubs + (if ev.asksForTask then 1 else 0) := by
  have hM := mon_good E False noX (fun _ => True)
  have sp : ∀ co g0, Spawned E s.g ev co g0 → ({ s with g := g0 }.spawn co).tasks.length + ({ s with g := g0 }.spawn co).g.unsubs = s.tasks.length + g0.unsubs + 1 := by
    intro co g0 h
    have := star_unsubs (settle_star (E := E) co g0 (settle_ok hM (Q := fun _ _ _ => True) co g0 trivial (spawn_wp hs (fun u => u.elim) h)).2)
    simp only [Sys.spawn, List.length_append, List.length_singleton, this]
    omega
  have own : ∀ t, ev.own t = true → t < s.tasks.length → (s.step E ev).tasks.length + (s.step E ev).g.unsubs = s.tasks.length + s.g.unsubs := by
    intro t ho ht
    rcases own_step E hM (Q := fun _ _ _ => True) ev (fun r hi => afterOpen_ok hc_true hs.inv trivial r trivial) ho (hs.tasks t ht) with
      he | ⟨co, g0, hr, he, hI, hw⟩
    · rw [he]
    · rw [he]
      have := star_unsubs ((resumed_star (E := E) (U := False) hr).trans (settle_star _ _ (settle_ok hM (Q := fun _ _ _ => True) co g0 trivial hw).2))
      simp only [Sys.put, List.length_set, this]
  have none : ∀ t : Nat, ¬ t < s.tasks.length → s.tasks[t]? = none := fun t h => List.getElem?_eq_none_iff.2 (by omega)
  cases ev with
  | call a => exact Nat.le_of_eq (sp _ s.g (.call a))
  | ping c =>
    simp only [Sys.step]
    split
    · split
      · exact Nat.le_of_eq (sp _ _ (.ping c))
      · simp
    · simp
  | runUnsub =>
    simp only [Sys.step]
    split
    · rename_i h
      have := sp _ _ (.unsub h)
      simp only [Gw.takeUnsub] at this
      simp only [Ev.asksForTask, Bool.false_eq_true, if_false]
      rw [show ({ g := s.g.takeUnsub, tasks := s.tasks } : Sys) = { s with g := { s.g with unsubs := s.g.unsubs - 1 } } from rfl, this]
      omega
    · simp
  | unsubscribe u =>
    have := unsubscribe_unsubs s.g u
    simp only [Sys.step, Ev.asksForTask, if_true]
    omega
  | opened t ok =>
    by_cases h : t < s.tasks.length
    · rw [own t (by simp [Ev.own]) h]; simp
    · simp [Sys.step, none t h]
  | resume t =>
    by_cases h : t < s.tasks.length
    · rw [own t (by simp [Ev.own]) h]; simp
    · simp [Sys.step, none t h]
  | cancel t =>
    by_cases h : t < s.tasks.length
    · rw [own t (by simp [Ev.own]) h]; simp
    · simp [Sys.step, none t h]
  | setMaxRetries n =>
    simp only [Sys.step, Gw.setMaxRetries]
    split <;> simp
  | registerHandler code h =>
    simp only [Sys.step]
    split <;> simp [Gw.net]
  | removeHandler code =>
    simp only [Sys.step]
    split <;> simp [Gw.net]
  | net c e =>
    simp only [Sys.step]
    split
    · have : ((s.g.lostCallback c e).net c e).unsubs = s.g.unsubs := by
        simp only [Gw.net, Gw.lostCallback]
        repeat' split
        all_goals rfl
      simp [this]
    · simp
  | handle c =>
    have : (s.g.runHandler E c).unsubs = s.g.unsubs := by
      have hn : ∀ (g : Gw) code, (Gw.commonCallback.notify g code).2.unsubs = g.unsubs := by
        intro g code
        simp only [Gw.commonCallback.notify]
        repeat' split
        all_goals rfl
      simp only [Gw.runHandler, Gw.commonCallback]
      repeat' split
      all_goals first | rfl | exact hn _ _
    simp [Sys.step, this]
  | tick now => simp [Sys.step, Gw.setNow]

/-- **C50** (background tasks).  Over every history there are no more tasks than calls, keepalive timers and calls of unsubscribe functions: no
unsubscription is carried out twice. -/
theorem C50_tasks (E : Env) (clientId maxRetries : Int) (es : List Ev) :
    (after E clientId maxRetries es).tasks.length ≤ es.countP Ev.asksForTask := by
  have key : (after E clientId maxRetries es).tasks.length + (after E clientId maxRetries es).g.unsubs ≤ es.countP Ev.asksForTask := by
    refine snoc_ind (P := fun l => (after E clientId maxRetries l).tasks.length + (after E clientId maxRetries l).g.unsubs ≤ l.countP Ev.asksForTask) ?_ ?_ es
    · exact Nat.le_refl _
    · intro l ev ih
      rw [after_snoc, List.countP_append, List.countP_singleton]
      have := tasks_step ((SysOk.init E False clientId maxRetries).run l (fun u => u.elim)) ev
      exact Nat.le_trans this (Nat.add_le_add_right ih _)
  omega

/-- **C50** (background tasks), concrete case: connecting, two subscriptions and the unsubscription scheduled by an unsubscribe function are four tasks;
the event loop has no second unsubscription to run. -/
theorem C50_tasks_witness : (after sampleEnv 1 3 (silencedEvs ++ [.runUnsub])).tasks.length = 4 ∧
    (silencedEvs ++ [Ev.runUnsub]).countP Ev.asksForTask = 4 := by decide +kernel

end SL
