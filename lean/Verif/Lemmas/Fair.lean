import Verif.Lemmas.Eventually
import Verif.Lemmas.Stages
import Verif.Spec.Liveness
/-!
# Calls go on in fair histories
-/
set_option linter.unusedVariables false

namespace SL

/-! ## All requests have begun -/

/-- The connections of a gateway are protocol objects whose requests have begun. -/
def Begun (g : Gw) : Prop := ∀ x ∈ g.conns, (∃ es, x.w = World.init.run es) ∧ ∀ (r : Nat) (q : Req), x.w.reqs[r]? = some q → q.phase ≠ .start

theorem begun_modify {g : Gw} (h : Begun g) (c : Nat) (f : Conn → Conn)
    (hf : ∀ x : Conn, ((∃ es, x.w = World.init.run es) ∧ ∀ (r : Nat) (q : Req), x.w.reqs[r]? = some q → q.phase ≠ .start) →
      (∃ es, (f x).w = World.init.run es) ∧ ∀ (r : Nat) (q : Req), (f x).w.reqs[r]? = some q → q.phase ≠ .start) :
    Begun { g with conns := g.conns.modify c f } := by
  intro x hx
  obtain ⟨i, hi⟩ := List.getElem?_of_mem hx
  rw [List.getElem?_modify] at hi
  cases hy : g.conns[i]? with
  | none => simp [hy] at hi
  | some y =>
    have hm := h y (List.mem_of_getElem? hy)
    simp only [hy, Option.map_eq_map, Option.map_some, Option.some.injEq] at hi
    subst hi
    split
    · exact hf y hm
    · exact hm

theorem begun_same {g g' : Gw} (h : Begun g) (hc : g'.conns = g.conns) : Begun g' := by
  intro x hx
  rw [hc] at hx
  exact h x hx

theorem step_reqsLen {w : World} {e : Event} (he : ∀ a b c, e ≠ .call a b c) : (w.step e).reqs.length = w.reqs.length := by
  have start : ∀ (t : Nat) (q : Req), (w.startAttempt t q).reqs.length = w.reqs.length := by
    intro t q
    simp only [World.startAttempt]
    repeat' (first | (simp only [World.setReq, List.length_set]; done) | split)
  cases e with
  | call a b c => exact absurd rfl (he a b c)
  | run t =>
    simp only [World.step]
    split
    · split
      · exact start _ _
      · rfl
    · rfl
  | wake t =>
    simp only [World.step]
    split
    · split
      · exact start _ _
      · rfl
    · rfl
  | resume t =>
    simp only [World.step]
    repeat' (first | rfl | (simp only [World.setReq, List.length_set]; done) | split)
  | timeout t =>
    simp only [World.step]
    repeat' (first | rfl | (simp only [World.setReq, List.length_set]; done) | split)
  | cancel t =>
    simp only [World.step]
    repeat' (first | rfl | (simp only [World.setReq, List.length_set]; done) | split)
  | lost => simp only [World.step]; split <;> rfl
  | cleanup => simp only [World.step]; split <;> rfl
  | close force => simp only [World.step, World.closeTail]; split <;> rfl
  | closeResume c => simp only [World.step, World.closeTail]; repeat' (first | rfl | split)
  | closeFinish c => simp only [World.step]; repeat' (first | rfl | split)
  | closeCancel c => simp only [World.step]; repeat' (first | rfl | split)
  | _ => rfl

theorem begun_step {w : World} (hw : ∃ es, w = World.init.run es) (hb : ∀ (r : Nat) (q : Req), w.reqs[r]? = some q → q.phase ≠ .start) {e : Event}
    (he : ∀ a b c, e ≠ .call a b c) : ∀ (r : Nat) (q : Req), (w.step e).reqs[r]? = some q → q.phase ≠ .start := by
  intro r q hq
  have hl := lt_of_getElem? hq
  rw [step_reqsLen he] at hl
  have h0 := List.getElem?_eq_getElem hl
  obtain ⟨es, rfl⟩ := hw
  obtain ⟨q', h1, h2, -⟩ := step_next h0 (good_of ((worldOk es).reqs r _ h0) (hb r _ h0)) e
  rw [hq] at h1; cases h1
  exact h2.begun

theorem begun_net {g : Gw} (h : Begun g) (c : Nat) {e : Event} (he : ∀ a b c, e ≠ .call a b c := by simp) : Begun (g.net c e) := by
  refine begun_modify h c _ (fun x hx => ?_)
  obtain ⟨⟨es, h1⟩, h2⟩ := hx
  exact ⟨⟨es ++ [e], by rw [world_run_append, ← h1]; rfl⟩, begun_step ⟨es, h1⟩ h2 he⟩

/-- A call of `async_make_request` runs at once. -/
theorem begun_call {w : World} (hw : ∃ es, w = World.init.run es) (hb : ∀ (r : Nat) (q : Req), w.reqs[r]? = some q → q.phase ≠ .start) (code : Int) (data : Bytes)
    (m : Int) : ∀ (r : Nat) (q : Req), ((w.step (.call code data m)).step (.run w.reqs.length)).reqs[r]? = some q → q.phase ≠ .start := by
  intro r q hq
  have hn : (w.step (.call code data m)).reqs[w.reqs.length]? = some { code, data, maxRetries := m } := by
    simp only [World.step]; rw [List.getElem?_concat_length]
  have hs : (w.step (.call code data m)).step (.run w.reqs.length) =
      (w.step (.call code data m)).startAttempt w.reqs.length { code, data, maxRetries := m } := by
    show (match (w.step (.call code data m)).reqs[w.reqs.length]? with
      | some (r : Req) => if r.phase = Phase.start then (w.step (.call code data m)).startAttempt w.reqs.length r else w.step (.call code data m)
      | none => w.step (.call code data m)) = _
    rw [hn]
    exact if_pos rfl
  rw [hs] at hq
  obtain ⟨k1, k2⟩ := start_next (w.step (.call code data m)) w.reqs.length { code, data, maxRetries := m } r
  by_cases hr : w.reqs.length = r
  · subst hr
    obtain ⟨q', h1, -, -, h2⟩ := k2 _ hn
    rw [hq] at h1; cases h1
    rcases h2 with ⟨o, h⟩ | ⟨-, -, f, h⟩
    · rw [h]; simp
    · rw [h]; simp
  · rw [k1 hr] at hq
    have hlt := lt_of_getElem? hq
    simp only [World.step, List.length_append, List.length_singleton] at hlt
    simp only [World.step] at hq
    rw [List.getElem?_append_left (by omega)] at hq
    exact hb r q hq

theorem begun_ask {g : Gw} (h : Begun g) (t c : Nat) (code : Int) (data : Bytes) (m : Int) : Begun (g.ask t c code data m).2 := by
  cases hc : g.conns[c]? with
  | none =>
    have : (g.ask t c code data m).2.conns = g.conns := by
      simp only [Gw.ask, Gw.net, Gw.note]
      rw [List.modify_eq_self, List.modify_eq_self] <;>
        first | (rw [List.getElem?_eq_none_iff] at hc; simpa using hc) | skip
    exact begun_same h this
  | some x =>
    have e : (g.ask t c code data m).2.conns = g.conns.modify c (fun y => { y with w := (y.w.step (.call code data m)).step (.run x.w.reqs.length) }) := by
      simp only [Gw.ask, Gw.net, Gw.note, hc, List.modify_modify_eq]
      rfl
    have := h x (List.mem_of_getElem? hc)
    intro y hy
    rw [e] at hy
    obtain ⟨i, hi⟩ := List.getElem?_of_mem hy
    rw [List.getElem?_modify] at hi
    cases hz : g.conns[i]? with
    | none => simp [hz] at hi
    | some z =>
      have hm := h z (List.mem_of_getElem? hz)
      simp only [hz, Option.map_eq_map, Option.map_some, Option.some.injEq] at hi
      subst hi
      split
      · rename_i hci
        subst hci
        rw [hc] at hz; cases hz
        obtain ⟨⟨es, h1⟩, h2⟩ := this
        exact ⟨⟨es ++ [.call code data m, .run x.w.reqs.length], by rw [world_run_append, ← h1]; rfl⟩, begun_call ⟨es, h1⟩ h2 code data m⟩
      · exact hm

theorem begun_close {g : Gw} (h : Begun g) (t c : Nat) (force : Bool) : Begun (g.startClose t c force).2 := by
  simp only [Gw.startClose]
  exact begun_same (begun_net (begun_net h c) c) rfl

theorem begun_env {E : Env} {g g' : Gw} (h : Begun g) (he : EnvStep E g g') : Begun g' := by
  cases he with
  | nothing => exact h
  | setMaxRetries n =>
    simp only [Gw.setMaxRetries]
    split
    · exact begun_same h rfl
    · exact h
  | unsubscribe u =>
    simp only [Gw.unsubscribe]
    split
    · split
      · split
        · split
          · simp only [Gw.dropCode]
            split
            · split
              · split
                · exact begun_same (begun_net (g := Gw.delListener (Gw.setSet g _ _) _) (e := .unregister _) (begun_same h rfl) _) rfl
                · exact begun_net (begun_same h rfl) _
              · exact begun_same h rfl
            · exact begun_same h rfl
          · exact begun_same h rfl
        · exact begun_same h rfl
      · exact h
    · exact h
  | register => exact begun_net h _
  | unregister => exact begun_net h _
  | net c e hext =>
    refine begun_net ?_ _ (by intro a b d hh; subst hh; cases hext)
    simp only [Gw.lostCallback]
    split
    · split
      · exact begun_same h rfl
      · exact h
    · exact h
  | handle c =>
    simp only [Gw.runHandler]
    split
    · split
      · have h1 : Begun { g with conns := g.conns.modify c (fun x => { x with handled := x.handled + 1 }) } :=
          begun_modify h c _ (fun x hx => hx)
        split
        · simp only [Gw.commonCallback]
          split
          · split
            · simp only [Gw.commonCallback.notify]
              split <;> exact begun_same h1 rfl
            · exact begun_same h1 rfl
          · simp only [Gw.commonCallback.notify]
            split <;> exact begun_same h1 rfl
        · exact begun_same h1 rfl
      · exact h
    · exact h
  | tick => exact begun_same h rfl

theorem begun_micro {E : Env} {U : Prop} {g g' : Gw} (h : Begun g) (m : Micro E U g g') : Begun g' := by
  cases m with
  | upd t _ _ hu =>
    cases hu with
    | disableKeepalive c => exact begun_net h _
    | unregisterAll c => exact begun_net h _
    | enableKeepalive c => exact begun_net h _
    | register c code => exact begun_net h _
    | raw c b => exact begun_modify h c _ (fun x hx => hx)
    | listen cb code =>
      simp only [Gw.addListener]
      split <;> exact begun_same h rfl
    | _ => exact begun_same h rfl
  | ask t c code data r => exact begun_ask h _ _ _ _ _
  | cls t c force => exact begun_close h _ _ _
  | conn =>
    intro x hx
    rcases List.mem_append.1 hx with hx | hx
    · exact h x hx
    · simp only [List.mem_singleton] at hx
      subst hx
      exact ⟨⟨[], rfl⟩, fun r q hq => (by simp [World.init] at hq)⟩
  | ping c => exact begun_modify h c _ (fun x hx => hx)
  | env _ _ he => exact begun_env h he
  | _ => exact begun_same h rfl

/-- The requests of every connection of every reachable gateway have begun. -/
theorem reach_begun (E : Env) (clientId maxRetries : Int) (es : List Ev) : Begun (after E clientId maxRetries es).g :=
  reach_inv (U := False) (I := Begun) (by intro x hx; cases hx) (fun g g' _ h m => begun_micro h m) es (fun u => u.elim)

/-! ## Tasks that close a connection -/

/-- The tasks that wait for a closing wait for one that exists. -/
def Closings (s : Sys) : Prop := ∀ (t c i : Nat) k, s.tasks[t]? = some (.closing c i k) → ∃ x y, s.g.conns[c]? = some x ∧ x.w.closers[i]? = some y

theorem settle_closing {t c i : Nat} {k : Except PyErr Unit → Co Res} : ∀ (co : Co Res) (g : Gw), (settle t co g).1 = .closing c i k →
    ∃ x y, (settle t co g).2.conns[c]? = some x ∧ x.w.closers[i]? = some y
  | .ret a, g, h => by cases h
  | .throw e, g, h => by cases h
  | .get k, g, h => settle_closing (k g) g h
  | .upd f k, g, h => settle_closing k (g.apply f) h
  | .request c' code data r' k', g, h => by
    simp only [settle] at h ⊢
    split at h
    · exact settle_closing _ _ h
    · cases h
  | .openConn r k, g, h => by cases h
  | .sleep k, g, h => by cases h
  | .close c' force k', g, h => by
    simp only [settle] at h ⊢
    split at h
    · rename_i hc
      rw [if_pos hc]
      exact settle_closing _ _ h
    · rename_i hc
      rw [if_neg hc]
      simp only [Task.closing.injEq] at h
      obtain ⟨rfl, rfl, -⟩ := h
      cases hx : g.conns[c']? with
      | none =>
        exfalso
        apply hc
        have : (g.startClose t c' force).2.conns[c']? = none := by
          simp [Gw.startClose, Gw.net, Gw.note, hx]
        simp only [Gw.closeEnded, this]
      | some x =>
        have h1 : (g.startClose t c' force).1 = x.w.closers.length := by simp only [Gw.startClose, hx]
        refine ⟨{ x with w := (x.w.step (.close force)).step (.closeFinish x.w.closers.length) }, ?_⟩
        rw [h1]
        have h2 : (x.w.step (.close force)).closers.length = x.w.closers.length + 1 := by
          simp only [World.step, World.closeTail]
          split <;> simp
        have hl : x.w.closers.length < (x.w.step (.close force)).closers.length := by omega
        obtain ⟨y, hy, -⟩ := step_closes (List.getElem?_eq_getElem hl) (.closeFinish x.w.closers.length)
        refine ⟨y, ?_, hy⟩
        simp [Gw.startClose, Gw.net, Gw.note, hx]
  | .acquire k, g, h => by
    simp only [settle] at h ⊢
    split at h
    · rename_i hc
      rw [if_pos hc]
      exact settle_closing _ _ h
    · cases h

theorem run_closes {w : World} {i : Nat} {x : Closer} (hx : w.closers[i]? = some x) (es : List Event) : ∃ y, (w.run es).closers[i]? = some y ∧ x.rank ≤ y.rank := by
  induction es generalizing w x with
  | nil => exact ⟨x, hx, Nat.le_refl _⟩
  | cons e es ih =>
    obtain ⟨y, h1, h2⟩ := step_closes hx e
    obtain ⟨z, h3, h4⟩ := ih h1
    exact ⟨z, h3, Nat.le_trans h2.rank h4⟩

theorem closings_step {E : Env} {s : Sys} (hs : SysOk E False s) (hw : Closings s) (ev : Ev) : Closings (s.step E ev) := by
  intro t c i k hk
  have old : t < s.tasks.length → (s.step E ev).tasks[t]? = s.tasks[t]? → ∃ x y, (s.step E ev).g.conns[c]? = some x ∧ x.w.closers[i]? = some y := by
    intro ht h1
    rw [h1] at hk
    obtain ⟨x, y, h2, h3⟩ := hw t c i k hk
    obtain ⟨x', es, h4, h5, -⟩ := (star_grows (step_micro hs ev (fun u => u.elim))).keep c x h2
    obtain ⟨z, h6, -⟩ := run_closes h3 es
    exact ⟨x', z, h4, by rw [h5]; exact h6⟩
  rcases step_cases E s ev with ⟨t', co, g0, ho', ht', hr, he⟩ | ⟨co, g0, hsp, he⟩ | ⟨g', hg, he⟩
  · by_cases e : t = t'
    · subst e
      rw [he] at hk ⊢
      simp only [Sys.put, List.getElem?_set_self ht', Option.some.injEq] at hk
      exact settle_closing co g0 hk
    · have h1 : (s.step E ev).tasks[t]? = s.tasks[t]? := by
        rw [he]; simp only [Sys.put]; rw [List.getElem?_set_ne (fun h => e h.symm)]
      refine old ?_ h1
      rw [h1] at hk
      exact lt_of_getElem? hk
  · by_cases hl : t < s.tasks.length
    · refine old hl ?_
      rw [he]; simp only [Sys.spawn]; rw [List.getElem?_append_left hl]
    · rw [he] at hk ⊢
      have hlt := lt_of_getElem? hk
      simp only [Sys.spawn, List.length_append, List.length_singleton] at hlt
      obtain rfl : t = s.tasks.length := by omega
      simp only [Sys.spawn, List.getElem?_concat_length, Option.some.injEq] at hk
      exact settle_closing co g0 hk
  · have h1 : (s.step E ev).tasks[t]? = s.tasks[t]? := by rw [he]
    refine old ?_ h1
    rw [h1] at hk
    exact lt_of_getElem? hk

theorem reach_closings (E : Env) (clientId maxRetries : Int) (es : List Ev) : Closings (after E clientId maxRetries es) := by
  have key : ∀ rs : List Ev, Closings (after E clientId maxRetries rs.reverse) := by
    intro rs
    induction rs with
    | nil => intro t c i k hk; simp [after, Sys.run, Sys.init] at hk
    | cons ev rs ih =>
      rw [List.reverse_cons, after_snoc]
      exact closings_step ((SysOk.init E False clientId maxRetries).run _ (fun u => u.elim)) ih ev
  simpa using key es.reverse

end SL
