import Verif.Lemmas.Timing
import Verif.Lemmas.Recall
import Verif.Lemmas.Fair
/-!
# What an event does to the requests

A request changes only by an event at its own connection: a task that goes on may start new requests and may close connections, but no request that has
begun changes by that.
-/
set_option linter.unusedVariables false

namespace SL

/-- The events that no request notices at once. -/
def Event.mild : Event → Bool
  | .resume _ | .timeout _ | .cancel _ | .wake _ => false
  | _ => true

/-- From `g` to `g'` no request that was there changes, and a new one has just made its first attempt. -/
structure Steadfast (g g' : Gw) : Prop where
  keep : ∀ (c : Nat) (x : Conn), g.conns[c]? = some x → ∃ (x' : Conn) (es : List Event),
    g'.conns[c]? = some x' ∧ x'.w = x.w.run es ∧ ∀ e ∈ es, e.mild = true
  new : ∀ (c : Nat) (x' : Conn), g.conns[c]? = none → g'.conns[c]? = some x' →
    ∃ es : List Event, x'.w = World.init.run es ∧ ∀ e ∈ es, e.mild = true

theorem Steadfast.same {g g' : Gw} (h : g'.conns = g.conns) : Steadfast g g' :=
  ⟨fun c x hx => ⟨x, [], by rw [h]; exact hx, rfl, by simp⟩, fun c x' h1 h2 => by rw [h, h1] at h2; cases h2⟩

theorem Steadfast.refl (g : Gw) : Steadfast g g := .same rfl

theorem Steadfast.trans {a b c : Gw} (h : Steadfast a b) (h' : Steadfast b c) : Steadfast a c := by
  refine ⟨fun i x hx => ?_, fun i z h1 h2 => ?_⟩
  · obtain ⟨y, es, hy, e, t⟩ := h.keep i x hx
    obtain ⟨z, es', hz, e', t'⟩ := h'.keep i y hy
    exact ⟨z, es ++ es', hz, by rw [e', e]; simp [World.run, List.foldl_append], fun e he => (List.mem_append.1 he).elim (t e) (t' e)⟩
  · cases hy : b.conns[i]? with
    | none => exact h'.new i z hy h2
    | some y =>
      obtain ⟨es, e, t⟩ := h.new i y h1 hy
      obtain ⟨z', es', hz, e', t'⟩ := h'.keep i y hy
      rw [h2] at hz; cases hz
      exact ⟨es ++ es', by rw [e', e]; simp [World.run, List.foldl_append], fun e he => (List.mem_append.1 he).elim (t e) (t' e)⟩

theorem still_modify (g : Gw) (c : Nat) (f : Conn → Conn) (hf : ∀ x : Conn, ∃ es, (f x).w = x.w.run es ∧ ∀ e ∈ es, e.mild = true) :
    Steadfast g { g with conns := g.conns.modify c f } := by
  refine ⟨fun i x hx => ?_, fun i x h1 h2 => ?_⟩
  · simp only [List.getElem?_modify, hx]
    by_cases e : c = i
    · obtain ⟨es, he, ht⟩ := hf x
      exact ⟨f x, es, by simp [e], he, ht⟩
    · exact ⟨x, [], by simp [e], rfl, by simp⟩
  · simp [List.getElem?_modify, h1] at h2

theorem still_net (g : Gw) (c : Nat) (e : Event) (he : e.mild = true := by rfl) : Steadfast g (g.net c e) :=
  still_modify g c _ (fun x => ⟨[e], rfl, by simpa using he⟩)

theorem still_ask (g : Gw) (t c : Nat) (code : Int) (data : Bytes) (r : Int) : Steadfast g (g.ask t c code data r).2 := by
  simp only [Gw.ask]
  exact ((still_net _ _ _).trans (still_net _ _ _)).trans (.same rfl)

theorem still_close (g : Gw) (t c : Nat) (force : Bool) : Steadfast g (g.startClose t c force).2 := by
  simp only [Gw.startClose]
  exact ((still_net _ _ _).trans (still_net _ _ _)).trans (.same rfl)

theorem still_addConn (g : Gw) : Steadfast g g.addConn := by
  refine ⟨fun c x hx => ⟨x, [], ?_, rfl, by simp⟩, fun c x' h1 h2 => ⟨[], ?_, by simp⟩⟩
  · simp only [Gw.addConn]
    rw [List.getElem?_append_left (lt_of_getElem? hx)]
    exact hx
  · simp only [Gw.addConn] at h2
    have hle := List.getElem?_eq_none_iff.1 h1
    rw [List.getElem?_append_right hle] at h2
    have := List.mem_of_getElem? h2
    simp only [List.mem_singleton] at this
    subst this
    rfl

/-- A change of the program. -/
def Soft (f : Gw → Gw) : Prop := ∀ g : Gw, Steadfast g (g.apply f)

theorem Chg.soft {E : Env} {f : Gw → Gw} (h : Chg E f) : Soft f := by
  intro g
  cases h with
  | disableKeepalive c => exact (still_net g c .disableKeepalive).trans (.same rfl)
  | unregisterAll c => exact (still_net g c .unregisterAll).trans (.same rfl)
  | enableKeepalive c => exact (still_net g c (.enableKeepalive 0)).trans (.same rfl)
  | register c code => exact (still_net g c (.register code (commonHandler code))).trans (.same rfl)
  | raw c b => exact (still_modify g c (fun x => { x with raw := x.raw ++ [b] }) (fun x => ⟨[], rfl, by simp⟩)).trans (.same rfl)
  | _ => exact .same rfl

theorem still_note (g : Gw) (t : Nat) (a : Act) : Steadfast g (g.note t a) := .same rfl

theorem settle_still (t : Nat) : ∀ (co : Co Res) (g : Gw), co.All Soft → Steadfast g (settle t co g).2
  | .ret a, g, _ => .refl g
  | .throw e, g, _ => .refl g
  | .get k, g, ha => settle_still t (k g) g (ha g)
  | .upd f k, g, ha => by
    change Steadfast g (settle t k (g.apply f)).2
    exact Steadfast.trans (b := g.apply f) (ha.1 g) (settle_still t k (g.apply f) ha.2.1)
  | .request c code data r k, g, ha => by
    simp only [settle]
    split
    · rename_i o _
      exact ((still_ask _ _ _ _ _ _).trans (still_note _ _ _)).trans (settle_still t (k o) _ (ha o))
    · exact still_ask _ _ _ _ _ _
  | .openConn r k, g, ha => .same rfl
  | .sleep k, g, ha => .refl g
  | .close c force k, g, ha => by
    simp only [settle]
    split
    · exact (still_close _ _ _ _).trans (settle_still t (k ((g.startClose t c force).2.closeResult c (g.startClose t c force).1)) _ (ha _))
    · exact still_close _ _ _ _
  | .acquire k, g, ha => by
    simp only [settle]
    split
    · exact Steadfast.trans (b := g.take t) (.same rfl) (settle_still t (k (.ok ())) (g.take t) (ha _))
    · exact .same rfl

open Co (state modify makeRequest pause closeConn withLock tryExcept ofExcept)

theorem soft_subscribe (E : Env) (cb code : Nat) : ((Call.subscribe cb code).co E).All Soft := by
  refine Co.all_bind (Co.all_state (fun g => ?_)) (fun _ => trivial)
  split
  · refine Co.all_bind (Co.all_modify (fun g => ?_) (fun g => ?_)) (fun _ => Co.All.mono (P := Chg E) (fun f h => Chg.soft h) ?_)
    · refine .same ?_
      show (g.addListener code cb).2.conns = g.conns
      simp only [Gw.addListener]
      split <;> rfl
    · simp only [Gw.addListener]
      split <;> rfl
    · exact Co.all_bind (Co.all_modify (.register (E := E) _ _)) (fun _ => Co.all_state (fun g =>
          Co.all_bind (Co.all_when (chg_subscribeGateway E)) (fun _ => trivial)))
  · trivial

theorem still_connect (E : Env) (t : Nat) (a : ConnectArgs) (g : Gw) : Steadfast g (settle t ((Call.connect a).co E) g).2 := by
  rcases settle_connect E t a g with ⟨_, h⟩ | ⟨_, _, h⟩ | ⟨_, _, k, _, h⟩
  all_goals exact .same (by first | (rw [h]; done) | (rw [h]; rfl))

/-- Every event that is not one at a connection. -/
theorem step_still {E : Env} {s : Sys} (h : s.All (Chg E)) (ev : Ev) (hev : ∀ c e, ev ≠ .net c e) : Steadfast s.g (s.step E ev).g := by
  have mem : ∀ {t : Nat} {x : Task}, s.tasks[t]? = some x → x.All (Chg E) := fun hx => h _ (List.mem_of_getElem? hx)
  have go : ∀ (t : Nat) (co : Co Res) (g0 : Gw), co.All (Chg E) → Steadfast s.g g0 → Steadfast s.g (settle t co g0).2 :=
    fun t co g0 hc hg => hg.trans (settle_still t co g0 (hc.mono (fun f => Chg.soft)))
  cases ev with
  | call a =>
    by_cases hsub : ∃ cb code, a = .subscribe cb code
    · obtain ⟨cb, code, rfl⟩ := hsub
      exact settle_still _ _ _ (soft_subscribe E cb code)
    · by_cases hcon : ∃ x, a = .connect x
      · obtain ⟨x, rfl⟩ := hcon
        exact still_connect E _ x _
      · exact go _ _ _ (chg_call E a (fun x e => hcon ⟨x, e⟩) (fun x y e => hsub ⟨x, y, e⟩)) (.refl _)
  | setMaxRetries n =>
    simp only [Sys.step, Gw.setMaxRetries]
    split <;> exact .same rfl
  | unsubscribe u =>
    simp only [Sys.step, Gw.unsubscribe]
    split
    · split
      · split
        · split
          · simp only [Gw.dropCode]
            split
            · split
              · split
                · rename_i l _ _ _ _ _ c _ _ _
                  refine Steadfast.trans (b := Gw.net ((s.g.setSet u.set (l.erase u.cb)).delListener u.code) c (.unregister u.code)) ?_
                    (.same rfl)
                  exact Steadfast.trans (b := (s.g.setSet u.set (l.erase u.cb)).delListener u.code) (.same rfl) (still_net _ _ _)
                · rename_i l _ _ _ _ _ c _ _ _
                  exact Steadfast.trans (b := (s.g.setSet u.set (l.erase u.cb)).delListener u.code) (.same rfl) (still_net _ _ _)
              · exact .same rfl
            · exact .same rfl
          · exact .same rfl
        · exact .same rfl
      · exact .refl _
    · exact .refl _
  | registerHandler code h' =>
    simp only [Sys.step]
    split
    · exact still_net _ _ _
    · exact .refl _
  | removeHandler code =>
    simp only [Sys.step]
    split
    · exact still_net _ _ _
    · exact .refl _
  | opened t ok =>
    simp only [Sys.step]
    split
    · rename_i r k hk
      have hk := mem hk
      split
      · exact go t _ _ (Co.all_bindE hk _ (chg_afterOpen E r _)) (still_addConn _)
      · exact go t _ _ (hk _) (.refl _)
    · exact .refl _
  | resume t =>
    simp only [Sys.step]
    split
    · rename_i c r k hk
      have hk := mem hk
      split
      · exact go t _ _ (hk _) (.same rfl)
      · exact .refl _
    · rename_i k hk
      exact go t _ _ (mem hk _) (.refl _)
    · rename_i c i k hk
      have hk := mem hk
      split
      · exact go t _ _ (hk _) (.refl _)
      · exact .refl _
    · rename_i k hk
      have hk := mem hk
      split
      · exact go t _ _ (hk _) (.same rfl)
      · exact .refl _
    · exact .refl _
  | cancel t =>
    simp only [Sys.step]
    split
    · rename_i r k hk
      exact go t _ _ (mem hk _) (.refl _)
    · rename_i k hk
      exact go t _ _ (mem hk _) (.refl _)
    · rename_i k hk
      exact go t _ _ (mem hk _) (.same rfl)
    · exact .refl _
  | net c e => exact absurd rfl (hev c e)
  | handle c =>
    simp only [Sys.step, Gw.runHandler, Gw.commonCallback, Gw.commonCallback.notify]
    repeat' split
    all_goals first
      | exact .refl _
      | exact (still_modify s.g c (fun x => { x with handled := x.handled + 1 }) (fun x => ⟨[], rfl, by simp⟩)).trans (.same rfl)
  | ping c =>
    simp only [Sys.step]
    split
    · split
      · exact go _ _ _ (chg_ping E) (still_modify _ _ _ (fun x => ⟨[], rfl, by simp⟩))
      · exact .refl _
    · exact .refl _
  | runUnsub =>
    simp only [Sys.step]
    split
    · exact go _ _ _ (chg_unsub E) (.same rfl)
    · exact .refl _
  | tick now => exact .same rfl

/-- A request that has begun does not change by what is not an event from outside. -/
theorem inner_same {w : World} {i : Nat} {r : Req} (hr : w.reqs[i]? = some r) (hb : r.phase ≠ .start) {e : Event} (he : e.mild = true) :
    (w.step e).reqs[i]? = some r := by
  cases e with
  | call code data m =>
    simp only [World.step]
    rw [List.getElem?_append_left (lt_of_getElem? hr)]; exact hr
  | run t =>
    simp only [World.step]
    split
    · rename_i q hq
      split
      · rename_i hp
        by_cases ht : t = i
        · subst ht
          rw [hr] at hq; cases hq
          exact absurd hp hb
        · rw [(start_next w t q i).1 ht]; exact hr
      · exact hr
    · exact hr
  | close force =>
    simp only [World.step, World.closeTail]
    split <;> exact hr
  | closeResume c => simp only [World.step, World.closeTail]; repeat' (first | exact hr | split)
  | closeFinish c => simp only [World.step]; repeat' (first | exact hr | split)
  | closeCancel c => simp only [World.step]; repeat' (first | exact hr | split)
  | lost => simp only [World.step]; split <;> exact hr
  | cleanup => simp only [World.step]; split <;> exact hr
  | resume t | timeout t | cancel t | wake t => cases he
  | _ => exact hr

theorem inner_run {i : Nat} {r : Req} (hb : r.phase ≠ .start) : ∀ (es : List Event) {w : World}, w.reqs[i]? = some r → (∀ e ∈ es, e.mild = true) →
    (w.run es).reqs[i]? = some r
  | [], w, hr, _ => hr
  | e :: es, w, hr, he => inner_run hb es (inner_same hr hb (he e (by simp))) (fun e' h' => he e' (by simp [h']))

end SL
