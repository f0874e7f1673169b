import Verif.Lemmas.Micro
/-!
# Connections only gain history

Every atomic change of a gateway (Lemmas/Micro.lean) leaves each of its connections in place and appends events to
that connection's own history.
-/
set_option linter.unusedVariables false

namespace SL

/-- The common callback of a code is registered under that code. -/
def Event.tidy : Event → Prop
  | .register code h => h % 2 = 0 → code = ((h / 2 : Nat) : Int)
  | _ => True

theorem external_tidy {e : Event} (h : e.external = true) : e.tidy := by
  cases e <;> first | trivial | cases h

/-- Every connection of `g` is still there in `g'`, and more has happened to it; other connections of `g'` are new. -/
structure Grows (g g' : Gw) : Prop where
  keep : ∀ (c : Nat) (x : Conn), g.conns[c]? = some x → ∃ (x' : Conn) (es : List Event),
    g'.conns[c]? = some x' ∧ x'.w = x.w.run es ∧ ∀ e ∈ es, e.tidy
  new : ∀ (c : Nat) (x' : Conn), g.conns[c]? = none → g'.conns[c]? = some x' →
    ∃ es : List Event, x'.w = World.init.run es ∧ ∀ e ∈ es, e.tidy

theorem Grows.same {g g' : Gw} (h : g'.conns = g.conns) : Grows g g' :=
  ⟨fun c x hx => ⟨x, [], by rw [h]; exact hx, rfl, by simp⟩, fun c x' h1 h2 => by rw [h, h1] at h2; cases h2⟩

theorem Grows.refl (g : Gw) : Grows g g := .same rfl

theorem Grows.trans {a b c : Gw} (h : Grows a b) (h' : Grows b c) : Grows a c := by
  refine ⟨fun i x hx => ?_, fun i z h1 h2 => ?_⟩
  · obtain ⟨y, es, hy, e, t⟩ := h.keep i x hx
    obtain ⟨z, es', hz, e', t'⟩ := h'.keep i y hy
    exact ⟨z, es ++ es', hz, by rw [e', e]; simp [World.run, List.foldl_append], fun e he => (List.mem_append.1 he).elim (t e) (t' e)⟩
  · cases hy : b.conns[i]? with
    | none => exact h'.new i z hy h2
    | some y =>
      obtain ⟨es, e, t⟩ := h.new i y h1 hy
      obtain ⟨z', es', hz, e', t'⟩ := h'.keep i y hy
      rw [h2] at hz; cases hz
      exact ⟨es ++ es', by rw [e', e]; simp [World.run, List.foldl_append], fun e he => (List.mem_append.1 he).elim (t e) (t' e)⟩

theorem grows_modify (g : Gw) (c : Nat) (f : Conn → Conn) (hf : ∀ x : Conn, ∃ es, (f x).w = x.w.run es ∧ ∀ e ∈ es, e.tidy) :
    Grows g { g with conns := g.conns.modify c f } := by
  refine ⟨fun i x hx => ?_, fun i x h1 h2 => ?_⟩
  · simp only [List.getElem?_modify, hx]
    by_cases e : c = i
    · obtain ⟨es, he, ht⟩ := hf x
      exact ⟨f x, es, by simp [e], he, ht⟩
    · exact ⟨x, [], by simp [e], rfl, by simp⟩
  · simp [List.getElem?_modify, h1] at h2

theorem grows_net (g : Gw) (c : Nat) (e : Event) (he : e.tidy := by trivial) : Grows g (g.net c e) :=
  grows_modify g c _ (fun x => ⟨[e], rfl, by simpa using he⟩)

theorem grows_ask (g : Gw) (t c : Nat) (code : Int) (data : Bytes) (r : Int) : Grows g (g.ask t c code data r).2 := by
  simp only [Gw.ask]
  exact ((grows_net _ _ _).trans (grows_net _ _ _)).trans (.same rfl)

theorem grows_close (g : Gw) (t c : Nat) (force : Bool) : Grows g (g.startClose t c force).2 := by
  simp only [Gw.startClose]
  exact ((grows_net _ _ _).trans (grows_net _ _ _)).trans (.same rfl)

theorem grows_env {E : Env} {g g' : Gw} (h : EnvStep E g g') : Grows g g' := by
  cases h with
  | nothing => exact .refl g
  | setMaxRetries n =>
    simp only [Gw.setMaxRetries]
    split
    · exact .same rfl
    · exact .refl g
  | unsubscribe u =>
    simp only [Gw.unsubscribe]
    split
    · split
      · split
        · split
          · simp only [Gw.dropCode]
            split
            · split
              · split
                · rename_i l _ _ _ _ _ c _ _ _
                  refine Grows.trans (b := Gw.net ((g.setSet u.set (l.erase u.cb)).delListener u.code) c (.unregister u.code)) ?_
                    (.same rfl)
                  exact Grows.trans (b := (g.setSet u.set (l.erase u.cb)).delListener u.code) (.same rfl) (grows_net _ _ _)
                · rename_i l _ _ _ _ _ c _ _ _
                  exact Grows.trans (b := (g.setSet u.set (l.erase u.cb)).delListener u.code) (.same rfl) (grows_net _ _ _)
              · exact .same rfl
            · exact .same rfl
          · exact .same rfl
        · exact .same rfl
      · exact .refl g
    · exact .refl g
  | register c code h => exact grows_net _ _ _ (fun hh => by simp only [userHandler] at hh; omega)
  | unregister => exact grows_net _ _ _
  | net c e he =>
    refine Grows.trans (b := g.lostCallback c e) (.same ?_) (grows_net _ _ _ (external_tidy he))
    simp only [Gw.lostCallback]
    split
    · split <;> rfl
    · rfl
  | handle c =>
    simp only [Gw.runHandler]
    split
    · split
      · have h1 : Grows g { g with conns := g.conns.modify c (fun x => { x with handled := x.handled + 1 }) } :=
          grows_modify g c _ (fun x => ⟨[], rfl, by simp⟩)
        split
        · refine h1.trans (.same ?_)
          simp only [Gw.commonCallback]
          split
          · split
            · simp only [Gw.commonCallback.notify]
              split <;> rfl
            · rfl
          · simp only [Gw.commonCallback.notify]
            split <;> rfl
        · exact h1.trans (.same rfl)
      · exact .refl g
    · exact .refl g
  | tick => exact .same rfl

theorem micro_grows {E : Env} {U : Prop} {g g' : Gw} (m : Micro E U g g') : Grows g g' := by
  cases m with
  | upd t _ _ hu =>
    cases hu with
    | disableKeepalive c => exact grows_net _ _ _
    | unregisterAll c => exact grows_net _ _ _
    | enableKeepalive c => exact grows_net _ _ _
    | register c code => exact grows_net _ _ _ (fun _ => by simp only [commonHandler]; omega)
    | raw c b => exact grows_modify g c _ (fun x => ⟨[], rfl, by simp⟩)
    | listen cb code =>
      simp only [Gw.addListener]
      split <;> exact .same rfl
    | _ => exact .same rfl
  | ask t c code data r => exact grows_ask _ _ _ _ _ _
  | cls t c force => exact grows_close _ _ _ _
  | conn =>
    refine ⟨fun c x hx => ⟨x, [], ?_, rfl, by simp⟩, fun c x' h1 h2 => ⟨[], ?_, by simp⟩⟩
    · simp only [Gw.addConn]
      rw [List.getElem?_append_left (lt_of_getElem? hx)]
      exact hx
    · simp only [Gw.addConn] at h2
      have hle := List.getElem?_eq_none_iff.1 h1
      rw [List.getElem?_append_right hle] at h2
      have := List.mem_of_getElem? h2
      simp only [List.mem_singleton] at this
      subst this
      rfl
  | ping c => exact grows_modify g c _ (fun x => ⟨[], rfl, by simp⟩)
  | env _ _ he => exact grows_env he
  | _ => exact .same rfl

/-- A request that a task waits for stays the one it asked for. -/
theorem Gw.asked.grows {g g' : Gw} {t c r : Nat} (h : g.asked t c r) (hg : Grows g g') (ha : g'.acts t = g.acts t) : g'.asked t c r := by
  obtain ⟨h0, code, data, x, q, h1, h2, h3, h4, h5⟩ := h
  obtain ⟨x', es, hx, e, _⟩ := hg.keep c x h2
  obtain ⟨q', hq, hs⟩ := run_req x.w es h3
  exact ⟨h0, code, data, x', q', by rw [ha, h1], hx, by rw [e]; exact hq,
    by rw [← h4]; exact congrArg Prod.fst hs, by rw [← h5]; exact congrArg (fun p => p.2.1) hs⟩

end SL
