import Verif.Lemmas.Provenance
/-!
# Where the history of a connection comes from

Whatever happened to a connection of a gateway, either the library itself did it (`Event.inner`), or it is one of the
events at that connection in the history of the system.
-/
set_option linter.unusedVariables false

namespace SL

/-- What the library itself does with a connection. -/
def Event.inner : Event → Bool
  | .call .. | .run _ | .close _ | .closeFinish _ | .register .. | .unregister _ | .unregisterAll | .enableKeepalive _ | .disableKeepalive => true
  | _ => false

/-- The connections of `g` are still there in `g'`, and what happened to them is the library's own doing or satisfies `P`. -/
structure Traced (P : Nat → Event → Prop) (g g' : Gw) : Prop where
  keep : ∀ (c : Nat) (x : Conn), g.conns[c]? = some x → ∃ (x' : Conn) (es : List Event),
    g'.conns[c]? = some x' ∧ x'.w = x.w.run es ∧ ∀ e ∈ es, e.inner = true ∨ P c e
  new : ∀ (c : Nat) (x' : Conn), g.conns[c]? = none → g'.conns[c]? = some x' →
    ∃ es : List Event, x'.w = World.init.run es ∧ ∀ e ∈ es, e.inner = true ∨ P c e

variable {P : Nat → Event → Prop}

theorem Traced.same {g g' : Gw} (h : g'.conns = g.conns) : Traced P g g' :=
  ⟨fun c x hx => ⟨x, [], by rw [h]; exact hx, rfl, by simp⟩, fun c x' h1 h2 => by rw [h, h1] at h2; cases h2⟩

theorem Traced.refl (g : Gw) : Traced P g g := .same rfl

theorem Traced.trans {a b c : Gw} (h : Traced P a b) (h' : Traced P b c) : Traced P a c := by
  refine ⟨fun i x hx => ?_, fun i z h1 h2 => ?_⟩
  · obtain ⟨y, es, hy, e, t⟩ := h.keep i x hx
    obtain ⟨z, es', hz, e', t'⟩ := h'.keep i y hy
    exact ⟨z, es ++ es', hz, by rw [e', e]; simp [World.run, List.foldl_append], fun e he => (List.mem_append.1 he).elim (t e) (t' e)⟩
  · cases hy : b.conns[i]? with
    | none => exact h'.new i z hy h2
    | some y =>
      obtain ⟨es, e, t⟩ := h.new i y h1 hy
      obtain ⟨z', es', hz, e', t'⟩ := h'.keep i y hy
      rw [h2] at hz; cases hz
      exact ⟨es ++ es', by rw [e', e]; simp [World.run, List.foldl_append], fun e he => (List.mem_append.1 he).elim (t e) (t' e)⟩

theorem Traced.mono {Q : Nat → Event → Prop} (hPQ : ∀ c e, P c e → Q c e) {g g' : Gw} (h : Traced P g g') : Traced Q g g' := by
  refine ⟨fun c x hx => ?_, fun c x h1 h2 => ?_⟩
  · obtain ⟨y, es, hy, e, t⟩ := h.keep c x hx
    exact ⟨y, es, hy, e, fun e he => (t e he).imp id (hPQ c e)⟩
  · obtain ⟨es, e, t⟩ := h.new c x h1 h2
    exact ⟨es, e, fun e he => (t e he).imp id (hPQ c e)⟩

theorem traced_modify (g : Gw) (c : Nat) (f : Conn → Conn) (hf : ∀ x : Conn, ∃ es, (f x).w = x.w.run es ∧ ∀ e ∈ es, e.inner = true ∨ P c e) :
    Traced P g { g with conns := g.conns.modify c f } := by
  refine ⟨fun i x hx => ?_, fun i x h1 h2 => ?_⟩
  · simp only [List.getElem?_modify, hx]
    by_cases e : c = i
    · obtain ⟨es, he, ht⟩ := hf x
      subst e
      exact ⟨f x, es, by simp, he, ht⟩
    · exact ⟨x, [], by simp [e], rfl, by simp⟩
  · simp [List.getElem?_modify, h1] at h2

theorem traced_net (g : Gw) (c : Nat) (e : Event) (he : e.inner = true ∨ P c e) : Traced P g (g.net c e) :=
  traced_modify g c _ (fun x => ⟨[e], rfl, by simpa using he⟩)

theorem traced_ask (g : Gw) (t c : Nat) (code : Int) (data : Bytes) (r : Int) : Traced P g (g.ask t c code data r).2 := by
  simp only [Gw.ask]
  exact ((traced_net _ _ _ (.inl rfl)).trans (traced_net _ _ _ (.inl rfl))).trans (.same rfl)

theorem traced_close (g : Gw) (t c : Nat) (force : Bool) : Traced P g (g.startClose t c force).2 := by
  simp only [Gw.startClose]
  exact ((traced_net _ _ _ (.inl rfl)).trans (traced_net _ _ _ (.inl rfl))).trans (.same rfl)

theorem traced_own {E : Env} {U : Prop} {t : Nat} {g g' : Gw} (m : OwnMicro E U t g g') : Traced P g g' := by
  cases m with
  | upd _ hu =>
    cases hu with
    | disableKeepalive c => exact traced_net _ _ _ (.inl rfl)
    | unregisterAll c => exact traced_net _ _ _ (.inl rfl)
    | enableKeepalive c => exact traced_net _ _ _ (.inl rfl)
    | register c code => exact traced_net _ _ _ (.inl rfl)
    | raw c b => exact traced_modify g c _ (fun x => ⟨[], rfl, by simp⟩)
    | listen cb code =>
      simp only [Gw.addListener]
      split <;> exact .same rfl
    | _ => exact .same rfl
  | ask c code data r => exact traced_ask _ _ _ _ _ _
  | cls c force => exact traced_close _ _ _ _
  | conn =>
    refine ⟨fun c x hx => ⟨x, [], ?_, rfl, by simp⟩, fun c x' h1 h2 => ⟨[], ?_, by simp⟩⟩
    · simp only [Gw.addConn]
      rw [List.getElem?_append_left (lt_of_getElem? hx)]
      exact hx
    · simp only [Gw.addConn] at h2
      have hle := List.getElem?_eq_none_iff.1 h1
      rw [List.getElem?_append_right hle] at h2
      have := List.mem_of_getElem? h2
      simp only [List.mem_singleton] at this
      subst this
      rfl
  | _ => exact .same rfl

theorem traced_handle (E : Env) (g : Gw) (c : Nat) : Traced P g (g.runHandler E c) := by
  simp only [Gw.runHandler]
  split
  · split
    · have h1 : Traced P g { g with conns := g.conns.modify c (fun x => { x with handled := x.handled + 1 }) } :=
        traced_modify g c _ (fun x => ⟨[], rfl, by simp⟩)
      split
      · refine h1.trans (.same ?_)
        simp only [Gw.commonCallback]
        split
        · split
          · simp only [Gw.commonCallback.notify]
            split <;> rfl
          · rfl
        · simp only [Gw.commonCallback.notify]
          split <;> rfl
      · exact h1.trans (.same rfl)
    · exact .refl g
  · exact .refl g

theorem traced_unsubscribe (g : Gw) (u : Sub) : Traced P g (g.unsubscribe u) := by
  simp only [Gw.unsubscribe]
  split
  · split
    · split
      · split
        · simp only [Gw.dropCode]
          split
          · split
            · split
              · rename_i l _ _ _ _ _ c _ _ _
                refine Traced.trans (b := Gw.net ((g.setSet u.set (l.erase u.cb)).delListener u.code) c (.unregister u.code)) ?_
                  (.same rfl)
                exact Traced.trans (b := (g.setSet u.set (l.erase u.cb)).delListener u.code) (.same rfl) (traced_net _ _ _ (.inl rfl))
              · rename_i l _ _ _ _ _ c _ _ _
                exact Traced.trans (b := (g.setSet u.set (l.erase u.cb)).delListener u.code) (.same rfl) (traced_net _ _ _ (.inl rfl))
            · exact .same rfl
          · exact .same rfl
        · exact .same rfl
      · exact .same rfl
    · exact .refl g
  · exact .refl g

theorem traced_star {E : Env} {U : Prop} {t : Nat} {g g' : Gw} (h : Star (OwnStep E U t) g g') : Traced P g g' := by
  induction h with
  | refl => exact .refl _
  | tail _ m ih => exact ih.trans (traced_own m.2.2.2)

/-- What one event does to the connections. -/
theorem step_traced {E : Env} {s : Sys} (hs : SysOk E False s) (ev : Ev) :
    Traced (fun c e => ev = .net c e) s.g (s.step E ev).g := by
  have hM := mon_good E False noX (fun _ => True)
  by_cases ho : ∃ t, t < s.tasks.length ∧ ev.own t = true
  · obtain ⟨t, ht, ho⟩ := ho
    rcases own_step E hM (Q := fun _ _ _ => True) ev (fun r hi => afterOpen_ok hc_true hs.inv trivial r trivial) ho (hs.tasks t ht) with
      he | ⟨co, g0, hr, he, hI, hw⟩
    · rw [he]; exact .refl _
    · rw [he]
      exact traced_star ((resumed_star hr).trans (settle_star _ _ (settle_ok hM (Q := fun _ _ _ => True) co g0 trivial hw).2))
  · have spawn : ∀ {co : Co Res} {g0 : Gw}, Spawned E s.g ev co g0 → Traced (fun c e => ev = .net c e) g0 (Sys.spawn { s with g := g0 } co).g :=
      fun hsp => traced_star (settle_star _ _ (settle_ok hM (Q := fun _ _ _ => True) _ _ trivial (spawn_wp hs (fun u => u.elim) hsp)).2)
    have idle : ∀ {t : Nat}, ev.own t = true → s.tasks[t]? = none := by
      intro t h
      by_cases hl : t < s.tasks.length
      · exact absurd ⟨t, hl, h⟩ ho
      · exact List.getElem?_eq_none_iff.2 (by omega)
    cases ev with
    | call a => exact spawn (.call a)
    | setMaxRetries n =>
      simp only [Sys.step, Gw.setMaxRetries]
      split
      · exact .same rfl
      · exact .refl _
    | unsubscribe u => exact traced_unsubscribe _ _
    | registerHandler code h =>
      simp only [Sys.step]
      split
      · exact traced_net _ _ _ (.inl rfl)
      · exact .refl _
    | removeHandler code =>
      simp only [Sys.step]
      split
      · exact traced_net _ _ _ (.inl rfl)
      · exact .refl _
    | opened t ok => simp only [Sys.step, idle (by simp [Ev.own] : (Ev.opened t ok).own t = true)]; exact .refl _
    | resume t => simp only [Sys.step, idle (by simp [Ev.own] : (Ev.resume t).own t = true)]; exact .refl _
    | cancel t => simp only [Sys.step, idle (by simp [Ev.own] : (Ev.cancel t).own t = true)]; exact .refl _
    | net c e =>
      simp only [Sys.step]
      split
      · refine Traced.trans (b := s.g.lostCallback c e) (.same ?_) (traced_net _ _ _ (.inr rfl))
        simp only [Gw.lostCallback]
        split
        · split <;> rfl
        · rfl
      · exact .refl _
    | handle c => exact traced_handle _ _ _
    | ping c =>
      rcases step_cases E s (.ping c) with ⟨t, co, g0, ho', ht, hr, he⟩ | ⟨co, g0, hsp, he⟩ | ⟨g', hg, he⟩
      · cases ho'
      · rw [he]
        refine Traced.trans (b := g0) ?_ (spawn hsp)
        cases hsp
        exact traced_modify _ c _ (fun x => ⟨[], rfl, by simp⟩)
      · simp only [Sys.step]
        split
        · split
          · refine Traced.trans (b := s.g.countPing c) (traced_modify _ c _ (fun x => ⟨[], rfl, by simp⟩)) (spawn (.ping c))
          · exact .refl _
        · exact .refl _
    | runUnsub =>
      simp only [Sys.step]
      split
      · rename_i h
        exact Traced.trans (b := s.g.takeUnsub) (.same rfl) (spawn (.unsub h))
      · exact .refl _
    | tick now => exact .same rfl

/-- **Everything that happened to a connection** is the library's own doing or an event of the history at that connection. -/
theorem after_traced (E : Env) (clientId maxRetries : Int) (es : List Ev) {c : Nat} {x : Conn}
    (hx : (after E clientId maxRetries es).g.conns[c]? = some x) :
    ∃ l : List Event, x.w = World.init.run l ∧ ∀ e ∈ l, e.inner = true ∨ .net c e ∈ es := by
  have key : ∀ rs : List Ev, Traced (fun c e => .net c e ∈ rs.reverse) (after E clientId maxRetries []).g (after E clientId maxRetries rs.reverse).g := by
    intro rs
    induction rs with
    | nil => exact .refl _
    | cons ev rs ih =>
      rw [List.reverse_cons, after_snoc]
      refine Traced.trans (ih.mono (fun c e h => List.mem_append_left _ h)) ?_
      refine (step_traced ((SysOk.init E False clientId maxRetries).run _ (fun u => u.elim)) ev).mono ?_
      rintro c e rfl
      simp
  have := key es.reverse
  rw [List.reverse_reverse] at this
  exact this.new c x (by simp [after, Sys.run, Sys.init]) hx

end SL
