import Verif.Lemmas.Grows
import Verif.Lemmas.Reach
import Verif.Lemmas.Safe
import Verif.Spec.Handlers
/-!
# Which handlers are called, and with what
-/
set_option linter.unusedVariables false

namespace SL

/-- Handlers are filed under codes as `K` says, and every call of one is for a received message of such a code. -/
structure Sourced (K : Int → Nat → Prop) (p : Proto) : Prop where
  cbs : ∀ (code : Int) (h : Nat), aget code p.cbs = some h → K code h
  spawned : ∀ (h : Nat) (msg : Bytes), (h, msg) ∈ p.spawned → ∃ id code, K code h ∧ (⟨id, code, msg⟩ : Msg) ∈ p.recv

/-- The event registers handlers as `K` says. -/
def Event.sourced (K : Int → Nat → Prop) : Event → Prop
  | .register code h => K code h
  | _ => True

theorem Sourced.init (K : Int → Nat → Prop) : Sourced K World.init.p := ⟨fun _ _ h => (by cases h), fun _ _ h => (by cases h)⟩

theorem Sourced.mono {K K' : Int → Nat → Prop} (hK : ∀ code h, K code h → K' code h) {p : Proto} (h : Sourced K p) : Sourced K' p :=
  ⟨fun c k hk => hK _ _ (h.cbs c k hk), fun k msg hm => by obtain ⟨id, code, h1, h2⟩ := h.spawned k msg hm; exact ⟨id, code, hK _ _ h1, h2⟩⟩

variable {K : Int → Nat → Prop}

theorem Sourced.congr {p q : Proto} (h : Sourced K p) (h1 : q.cbs = p.cbs) (h2 : q.spawned = p.spawned) (h3 : q.recv = p.recv) : Sourced K q :=
  ⟨by rw [h1]; exact h.cbs, by rw [h2, h3]; exact h.spawned⟩

theorem Sourced.send {p : Proto} (h : Sourced K p) (code : Int) (data : Bytes) : Sourced K (p.awaitSend code data).1 := by
  obtain ⟨futs, written, timers, kaStop, e, -, -, -⟩ := awaitSend_spec p code data
  rw [e]; exact h.congr rfl rfl rfl

theorem Sourced.cancelFut {p : Proto} (h : Sourced K p) (f : Nat) : Sourced K (p.cancelFut f) := by
  rw [cancelFut_eq]; exact h.congr rfl rfl rfl

theorem Sourced.dispatch {p : Proto} (h : Sourced K p) (m : Msg) : Sourced K (p.dispatch m).1 := by
  obtain ⟨futs, coll, spawned, recv, fates, e, hc⟩ := dispatch_spec p m
  rw [e]
  have old : ∀ k msg, (k, msg) ∈ p.spawned → ∃ id code, K code k ∧ (⟨id, code, msg⟩ : Msg) ∈ p.recv ++ [m] := fun k msg hm => by
    obtain ⟨id, code, hk, hid⟩ := h.spawned k msg hm
    exact ⟨id, code, hk, List.mem_append_left _ hid⟩
  rcases hc with ⟨f, -, -, -, -, h1, h2, -⟩ | ⟨-, -, h2, -, h3⟩ | ⟨f, -, -, -, -, -, h1, h2, -⟩
  · subst h1; subst h2
    exact ⟨h.cbs, old⟩
  · subst h2
    rcases h3 with ⟨k', hk, h1, -⟩ | ⟨-, h1, -⟩
    · subst h1
      refine ⟨h.cbs, fun k msg hm => ?_⟩
      rcases List.mem_append.1 hm with hm | hm
      · exact old k msg hm
      · simp only [List.mem_singleton, Prod.mk.injEq] at hm
        obtain ⟨rfl, rfl⟩ := hm
        exact ⟨m.id, m.code, h.cbs _ _ hk, by simp⟩
    · subst h1
      exact ⟨h.cbs, old⟩
  · subst h1; subst h2
    exact ⟨h.cbs, h.spawned⟩

theorem Sourced.dispatchAll (ms : List Msg) : ∀ {p : Proto}, Sourced K p → Sourced K (p.dispatchAll ms).1 := by
  induction ms with
  | nil => intro p h; exact h
  | cons m ms ih =>
    intro p h
    have h1 := h.dispatch m
    unfold Proto.dispatchAll
    split
    · rename_i p' e
      rw [e] at h1
      exact ih h1
    · rename_i p' er e
      rw [e] at h1
      exact h1

theorem Sourced.data {p : Proto} (h : Sourced K p) (c : Bytes) : Sourced K (p.dataReceived c).1 := by
  cases hc : p.closing
  · obtain ⟨ms, fs, tail, e, -, -, hi⟩ := dataReceived_eq p c hc
    rw [e]
    exact Sourced.dispatchAll ms (h.congr rfl rfl rfl)
  · unfold Proto.dataReceived
    rw [hc]; exact h

theorem Sourced.start {w : World} (h : Sourced K w.p) (t : Nat) (r : Req) : Sourced K (w.startAttempt t r).p := by
  have ha := h.send r.code r.data
  unfold World.startAttempt
  split
  · exact h
  · split
    · exact h
    · split
      · rename_i e; rw [e] at ha; exact ha
      · rename_i e; rw [e] at ha
        simp only
        split <;> exact ha

theorem Sourced.cancelAll {p : Proto} (h : Sourced K p) : Sourced K p.cancelAll := by
  rw [(cancelAll_spec p).1]; exact h.congr rfl rfl rfl

theorem Sourced.step {w : World} (h : Sourced K w.p) (e : Event) (he : e.sourced K) : Sourced K (w.step e).p := by
  cases e with
  | call => exact h
  | run t =>
    simp only [World.step]
    split
    · split
      · exact h.start _ _
      · exact h
    · exact h
  | resume t =>
    simp only [World.step]
    repeat' (first | exact h | split)
  | timeout t =>
    simp only [World.step]
    repeat' (first | exact h | exact h.cancelFut _ | split)
  | cancel t =>
    simp only [World.step]
    repeat' (first | exact h | exact h.cancelFut _ | split)
  | wake t =>
    simp only [World.step]
    split
    · split
      · exact h.start _ _
      · exact h
    · exact h
  | data c => exact h.data c
  | lost =>
    simp only [World.step]
    split
    · simp only [Proto.connectionLost]; rw [stopKeepalive_eq]; exact h.congr rfl rfl rfl
    · exact h
  | cleanup =>
    simp only [World.step]
    split
    · exact h.cancelAll
    · exact h
  | peerClose => exact h.congr rfl rfl rfl
  | close force =>
    have h1 : Sourced K { w.p with closing := true } := h.congr rfl rfl rfl
    simp only [World.step, World.closeTail]
    split
    · split
      · exact h1.cancelAll.congr rfl rfl rfl
      · exact h1.congr rfl rfl rfl
    · split
      · exact h1.cancelAll
      · exact h1
  | closeResume c =>
    simp only [World.step, World.closeTail]
    repeat' (first | exact h | exact h.congr rfl rfl rfl | split)
  | closeFinish c =>
    simp only [World.step]
    repeat' (first | exact h | split)
  | closeCancel c =>
    simp only [World.step]
    split
    · simp only; rw [(foldl_cancelFut _ _).1]; exact h.congr rfl rfl rfl
    · exact h
    · exact h
  | register c k =>
    refine ⟨fun code k' hk => ?_, h.spawned⟩
    simp only [World.step, Proto.register, aget_aset] at hk
    split at hk
    · rename_i e
      simp only [Option.some.injEq] at hk
      subst hk; subst e
      exact he
    · exact h.cbs _ _ hk
  | unregister c =>
    refine ⟨fun code k' hk => ?_, h.spawned⟩
    simp only [World.step, Proto.unregister, aget_adel] at hk
    split at hk
    · cases hk
    · exact h.cbs _ _ hk
  | unregisterAll => exact ⟨fun _ _ hk => (by cases hk), h.spawned⟩
  | enableKeepalive a => exact h.congr rfl rfl rfl
  | disableKeepalive => simp only [World.step, Proto.disableKeepalive]; rw [stopKeepalive_eq]; exact h.congr rfl rfl rfl
  | timerFire i => simp only [World.step, Proto.timerFire]; split <;> exact h.congr rfl rfl rfl

theorem Sourced.run : ∀ (es : List Event) {w : World}, Sourced K w.p → (∀ e ∈ es, e.sourced K) → Sourced K (w.run es).p
  | [], _, h, _ => h
  | e :: es, w, h, ht => Sourced.run es (h.step e (ht e (by simp))) (fun e he => ht e (by simp [he]))


theorem atom_spawned {p q : Proto} (a : PAtom p q) : p.spawned <+: q.spawned := by
  cases a with
  | send code data =>
    obtain ⟨futs, written, timers, kaStop, e, -, -, -⟩ := awaitSend_spec p code data
    rw [e]; exact List.prefix_refl _
  | cancelFut f => rw [cancelFut_eq]; exact List.prefix_refl _
  | dispatch m =>
    obtain ⟨futs, coll, spawned, recv, fates, e, hc⟩ := dispatch_spec p m
    rw [e]
    rcases hc with ⟨f, -, -, -, -, h1, h2, -⟩ | ⟨-, -, h2, -, h3⟩ | ⟨f, -, -, -, -, -, h1, h2, -⟩
    · subst h1; exact List.prefix_refl _
    · rcases h3 with ⟨k', hk, h1, -⟩ | ⟨-, h1, -⟩
      · subst h1; exact List.prefix_append _ _
      · subst h1; exact List.prefix_refl _
    · subst h1; exact List.prefix_refl _
  | cancelAll => obtain ⟨e, -, -⟩ := cancelAll_spec p; rw [e]; exact List.prefix_refl _
  | lost => simp only [Proto.connectionLost]; rw [stopKeepalive_eq]; exact List.prefix_refl _
  | disable => simp only [Proto.disableKeepalive]; rw [stopKeepalive_eq]; exact List.prefix_refl _
  | fire i =>
    simp only [Proto.timerFire]; split <;> exact List.prefix_refl _
  | _ => exact List.prefix_refl _

theorem step_spawned (w : World) (e : Event) : w.p.spawned <+: (w.step e).p.spawned := by
  have : ∀ {p q : Proto}, PSteps p q → p.spawned <+: q.spawned := by
    intro p q h
    induction h with
    | refl => exact List.prefix_refl _
    | tail _ a ih => exact ih.trans (atom_spawned a)
  exact this (step_steps w e)

/-! ## The whole gateway -/

/-- The invariant: `K c` is what the handlers of connection `c` are filed under. -/
structure HandlersOk (K : Nat → Int → Nat → Prop) (g : Gw) : Prop where
  sourced : ∀ (c : Nat) (x : Conn), g.conns[c]? = some x → Sourced (K c) x.w.p
  le : ∀ (c : Nat) (x : Conn), g.conns[c]? = some x → x.handled ≤ x.w.p.spawned.length
  calls : g.userCalls.Perm (g.conns.flatMap Conn.userCalls)
  order : ∀ (c : Nat) (x : Conn), g.conns[c]? = some x → x.userCalls.Sublist g.userCalls

theorem flatMap_modify {α β : Type} {f : α → α} {m : α → List β} : ∀ (l : List α) (c : Nat), (∀ x, l[c]? = some x → m (f x) = m x) →
    (l.modify c f).flatMap m = l.flatMap m
  | [], c, _ => by simp
  | a :: l, 0, h => by simp [h a (by simp)]
  | a :: l, c + 1, h => by
    simp only [List.modify_succ_cons, List.flatMap_cons]
    rw [flatMap_modify l c (fun x hx => h x (by simpa using hx))]

section
variable {K : Nat → Int → Nat → Prop} {g g' : Gw}

theorem HandlersOk.mono {K' : Nat → Int → Nat → Prop} (hK : ∀ c code h, K c code h → K' c code h) (h : HandlersOk K g) : HandlersOk K' g :=
  ⟨fun c x hx => (h.sourced c x hx).mono (hK c), h.le, h.calls, h.order⟩

theorem HandlersOk.same (h : HandlersOk K g) (h1 : g'.conns = g.conns) (h2 : g'.userCalls = g.userCalls) : HandlersOk K g' :=
  ⟨by rw [h1]; exact h.sourced, by rw [h1]; exact h.le, by rw [h1, h2]; exact h.calls, by rw [h1, h2]; exact h.order⟩

theorem userCalls_grow {x x' : Conn} (hh : x'.handled = x.handled) (hl : x.handled ≤ x.w.p.spawned.length) (hs : x.w.p.spawned <+: x'.w.p.spawned) :
    x'.userCalls = x.userCalls := by
  obtain ⟨l, e⟩ := hs
  simp only [Conn.userCalls, hh, ← e, List.take_append_of_le_length hl]

theorem HandlersOk.modify (h : HandlersOk K g) (c : Nat) (f : Conn → Conn)
    (hf : ∀ x, g.conns[c]? = some x → (f x).handled = x.handled ∧ x.w.p.spawned <+: (f x).w.p.spawned ∧ Sourced (K c) (f x).w.p) :
    HandlersOk K { g with conns := g.conns.modify c f } := by
  have at_ : ∀ (i : Nat) (y : Conn), (g.conns.modify c f)[i]? = some y → ∃ x, g.conns[i]? = some x ∧ y = if c = i then f x else x := by
    intro i y hy
    rw [List.getElem?_modify] at hy
    obtain ⟨x, hx, e⟩ := Option.map_eq_some_iff.1 hy
    exact ⟨x, hx, e.symm⟩
  have eqc : ∀ x, g.conns[c]? = some x → (f x).userCalls = x.userCalls := fun x hx => userCalls_grow (hf x hx).1 (h.le c x hx) (hf x hx).2.1
  refine ⟨fun i y hy => ?_, fun i y hy => ?_, ?_, fun i y hy => ?_⟩
  · obtain ⟨x, hx, rfl⟩ := at_ i y hy
    split
    · rename_i e; subst e; exact (hf x hx).2.2
    · exact h.sourced i x hx
  · obtain ⟨x, hx, rfl⟩ := at_ i y hy
    split
    · rename_i e; subst e
      obtain ⟨h1, h2, h3⟩ := hf x hx
      rw [h1]; exact Nat.le_trans (h.le _ x hx) h2.length_le
    · exact h.le i x hx
  · simp only; rw [flatMap_modify _ _ eqc]; exact h.calls
  · obtain ⟨x, hx, rfl⟩ := at_ i y hy
    split
    · rename_i e; subst e; rw [eqc x hx]; exact h.order _ x hx
    · exact h.order i x hx

theorem HandlersOk.net (h : HandlersOk K g) (c : Nat) (e : Event) (he : e.sourced (K c) := by trivial) : HandlersOk K (g.net c e) :=
  h.modify c _ (fun x hx => ⟨rfl, step_spawned _ _, (h.sourced c x hx).step e he⟩)

theorem HandlersOk.addConn (h : HandlersOk K g) : HandlersOk K g.addConn := by
  have at_ : ∀ (i : Nat) (y : Conn), (g.conns ++ [({} : Conn)])[i]? = some y → g.conns[i]? = some y ∨ y = {} := by
    intro i y hy
    rw [List.getElem?_append] at hy
    split at hy
    · exact .inl hy
    · rw [List.getElem?_singleton] at hy
      split at hy
      · cases hy; exact .inr rfl
      · cases hy
  refine ⟨fun i y hy => ?_, fun i y hy => ?_, ?_, fun i y hy => ?_⟩
  · rcases at_ i y hy with hy | rfl
    · exact h.sourced i y hy
    · exact Sourced.init _
  · rcases at_ i y hy with hy | rfl
    · exact h.le i y hy
    · exact Nat.zero_le _
  · simp only [Gw.addConn, List.flatMap_append, List.flatMap_cons, List.flatMap_nil]
    exact (by simpa [Conn.userCalls] using h.calls)
  · rcases at_ i y hy with hy | rfl
    · exact h.order i y hy
    · exact List.nil_sublist _

theorem HandlersOk.own {E : Env} {U : Prop} {t : Nat} (hK : ∀ c (code : Nat), K c code (commonHandler code)) (h : HandlersOk K g)
    (m : OwnMicro E U t g g') : HandlersOk K g' := by
  cases m with
  | upd _ hu =>
    cases hu with
    | disableKeepalive c => exact h.net _ _
    | unregisterAll c => exact h.net _ _
    | enableKeepalive c => exact h.net _ _
    | register c code => exact h.net _ _ (hK _ _)
    | raw c b => exact h.modify c _ (fun x hx => ⟨rfl, List.prefix_refl _, h.sourced c x hx⟩)
    | listen cb code =>
      simp only [Gw.addListener]
      split <;> exact h.same rfl rfl
    | _ => exact h.same rfl rfl
  | ask c code data r => exact ((h.net c (.call code data r)).net c (.run _)).same rfl rfl
  | cls c force => exact ((h.net c (.close force)).net c (.closeFinish _)).same rfl rfl
  | conn => exact h.addConn
  | _ => exact h.same rfl rfl

theorem HandlersOk.owns {E : Env} {U : Prop} {t : Nat} (hK : ∀ c (code : Nat), K c code (commonHandler code)) (h : HandlersOk K g)
    (m : Star (OwnStep E U t) g g') : HandlersOk K g' :=
  m.inv (fun a b ha (hb : OwnStep E U t a b) => HandlersOk.own hK ha hb.2.2.2) h

theorem unsubscribe_handlers (h : HandlersOk K g) (u : Sub) : HandlersOk K (g.unsubscribe u) := by
  simp only [Gw.unsubscribe]
  split
  · split
    · split
      · split
        · simp only [Gw.dropCode]
          have h1 : HandlersOk K ((g.setSet u.set ((by assumption : List Nat).erase u.cb)).delListener u.code) := h.same rfl rfl
          split
          · split
            · split
              · rename_i c _ _ _; exact HandlersOk.same (h1.net c (.unregister u.code)) rfl rfl
              · rename_i c _ _ _; exact h1.net c (.unregister u.code)
            · exact h.same rfl rfl
          · exact h.same rfl rfl
        · exact h.same rfl rfl
      · exact h.same rfl rfl
    · exact h
  · exact h

/-- What running a handler task does. -/
theorem runHandler_eq (E : Env) (g : Gw) (c : Nat) : (g.runHandler E c).userCalls =
    g.userCalls ++ ((g.conns[c]?).bind (fun x => (x.w.p.spawned[x.handled]?).bind userCall)).toList ∧
    (g.runHandler E c).conns = g.conns.modify c (fun x => if x.handled < x.w.p.spawned.length then { x with handled := x.handled + 1 } else x) := by
  have hn : ∀ (g : Gw) code, (Gw.commonCallback.notify g code).2.userCalls = g.userCalls ∧ (Gw.commonCallback.notify g code).2.conns = g.conns := by
    intro g code
    simp only [Gw.commonCallback.notify]
    split <;> exact ⟨rfl, rfl⟩
  have hc : ∀ (g : Gw) code msg, (g.commonCallback E code msg).2.userCalls = g.userCalls ∧ (g.commonCallback E code msg).2.conns = g.conns := by
    intro g code msg
    simp only [Gw.commonCallback]
    split
    · split
      · exact hn _ _
      · exact ⟨rfl, rfl⟩
    · exact hn _ _
  have noop : (∀ x, g.conns[c]? = some x → x.w.p.spawned[x.handled]? = none) →
      g.conns.modify c (fun x => if x.handled < x.w.p.spawned.length then { x with handled := x.handled + 1 } else x) = g.conns := by
    intro hnone
    apply List.ext_getElem?
    intro i
    rw [List.getElem?_modify]
    cases hx : g.conns[i]? with
    | none => rfl
    | some x =>
      show some _ = some _
      congr 1
      split
      · rename_i e; subst e
        have := List.getElem?_eq_none_iff.1 (hnone x hx)
        exact if_neg (by omega)
      · rfl
  have yes : ∀ x p, g.conns[c]? = some x → x.w.p.spawned[x.handled]? = some p → g.conns.modify c (fun x => { x with handled := x.handled + 1 }) =
      g.conns.modify c (fun x => if x.handled < x.w.p.spawned.length then { x with handled := x.handled + 1 } else x) := by
    intro x p hx hp
    apply List.ext_getElem?
    intro i
    rw [List.getElem?_modify, List.getElem?_modify]
    cases hy : g.conns[i]? with
    | none => rfl
    | some y =>
      show some _ = some _
      congr 1
      split
      · rename_i e; subst e
        rw [hx] at hy; cases hy
        exact (if_pos (List.getElem?_eq_some_iff.1 hp).1).symm
      · rfl
  simp only [Gw.runHandler]
  cases hx : g.conns[c]? with
  | none => exact ⟨by simp, by simp only [noop (by simp [hx])]⟩
  | some x =>
    simp only [Option.bind_some]
    cases hs : x.w.p.spawned[x.handled]? with
    | none => exact ⟨by simp, by simp only [noop (fun y hy => by rw [hx] at hy; cases hy; exact hs)]⟩
    | some p =>
      obtain ⟨h, msg⟩ := p
      simp only [Option.bind_some, userCall]
      split
      · rename_i he
        rw [(hc _ _ _).1, (hc _ _ _).2, if_neg (by omega)]
        exact ⟨by simp, by rw [← yes x _ hx hs]⟩
      · rename_i he
        rw [if_pos (by omega)]
        exact ⟨by simp, by rw [← yes x _ hx hs]⟩

theorem perm_flatMap_modify {α β : Type} {f : α → α} {m : α → List β} {x : α} {l' : List β} : ∀ (l : List α) (c : Nat), l[c]? = some x → m (f x) = m x ++ l' →
    (l.flatMap m ++ l').Perm ((l.modify c f).flatMap m)
  | [], c, h, _ => by simp at h
  | a :: l, 0, h, e => by
    simp only [List.getElem?_cons_zero, Option.some.injEq] at h
    subst h
    simp only [List.modify_zero_cons, List.flatMap_cons, e, List.append_assoc]
    exact List.Perm.append_left _ List.perm_append_comm
  | a :: l, c + 1, h, e => by
    simp only [List.modify_succ_cons, List.flatMap_cons, List.append_assoc]
    exact List.Perm.append_left _ (perm_flatMap_modify l c (by simpa using h) e)

theorem HandlersOk.handle (E : Env) (h : HandlersOk K g) (c : Nat) : HandlersOk K (g.runHandler E c) := by
  obtain ⟨h1, h2⟩ := runHandler_eq E g c
  have at_ : ∀ (i : Nat) (y : Conn), (g.runHandler E c).conns[i]? = some y → ∃ x, g.conns[i]? = some x ∧
      y = if c = i then (if x.handled < x.w.p.spawned.length then { x with handled := x.handled + 1 } else x) else x := by
    intro i y hy
    rw [h2, List.getElem?_modify] at hy
    obtain ⟨x, hx, e⟩ := Option.map_eq_some_iff.1 hy
    exact ⟨x, hx, e.symm⟩
  have more : ∀ x, g.conns[c]? = some x → (if x.handled < x.w.p.spawned.length then { x with handled := x.handled + 1 } else x : Conn).userCalls =
      x.userCalls ++ ((g.conns[c]?).bind (fun x => (x.w.p.spawned[x.handled]?).bind userCall)).toList := by
    intro x hx
    rw [hx]
    simp only [Option.bind_some]
    by_cases hl : x.handled < x.w.p.spawned.length
    · rw [if_pos hl]
      simp only [Conn.userCalls, List.getElem?_eq_getElem hl, Option.bind_some, List.take_add_one, List.filterMap_append, Option.toList_some]
      rw [List.filterMap_cons]
      cases userCall x.w.p.spawned[x.handled] <;> rfl
    · rw [if_neg hl, List.getElem?_eq_none (by omega)]
      simp
  refine ⟨fun i y hy => ?_, fun i y hy => ?_, ?_, fun i y hy => ?_⟩
  · obtain ⟨x, hx, rfl⟩ := at_ i y hy
    have := h.sourced i x hx
    split
    · split <;> exact this
    · exact this
  · obtain ⟨x, hx, rfl⟩ := at_ i y hy
    have := h.le i x hx
    split
    · split
      · rename_i hl; exact hl
      · exact this
    · exact this
  · rw [h1, h2]
    cases hx : g.conns[c]? with
    | none =>
      rw [flatMap_modify _ _ (by simp [hx])]
      simpa using h.calls
    | some x =>
      have := more x hx
      rw [hx] at this
      exact (h.calls.append_right _).trans (perm_flatMap_modify _ _ hx this)
  · obtain ⟨x, hx, rfl⟩ := at_ i y hy
    rw [h1]
    split
    · rename_i e; subst e
      rw [more x hx]
      exact (h.order _ x hx).append (List.Sublist.refl _)
    · exact (h.order i x hx).trans (List.sublist_append_left _ _)

end

/-- One event. -/
theorem HandlersOk.step {E : Env} {K : Nat → Int → Nat → Prop} {s : Sys} (hs : SysOk E False s) (hK : ∀ c (code : Nat), K c code (commonHandler code))
    (h : HandlersOk K s.g) (ev : Ev) (hr : ∀ code h c, ev = .registerHandler code h → s.g.protocol = some c → K c code (userHandler h)) :
    HandlersOk K (s.step E ev).g := by
  have hM := mon_good E False noX (fun _ => True)
  have own : ∀ t, ev.own t = true → (t < s.tasks.length ∨ s.step E ev = s) → HandlersOk K (s.step E ev).g := by
    intro t ho hlt
    rcases hlt with ht | e
    · rcases own_step E hM (Q := fun _ _ _ => True) ev (fun r hi => afterOpen_ok hc_true hs.inv trivial r trivial) ho (hs.tasks t ht) with
        he | ⟨co, g0, hres, he, hI, hw⟩
      · rw [he]; exact h
      · rw [he]
        exact h.owns hK ((resumed_star hres).trans (settle_star _ _ (settle_ok hM (Q := fun _ _ _ => True) co g0 trivial hw).2))
    · rw [e]; exact h
  have spawn : ∀ co g0, Spawned E s.g ev co g0 → HandlersOk K g0 → s.step E ev = { s with g := g0 }.spawn co → HandlersOk K (s.step E ev).g := by
    intro co g0 hsp h0 he
    rw [he]
    exact h0.owns hK (settle_star _ _ (settle_ok hM (Q := fun _ _ _ => True) co g0 trivial (spawn_wp hs (fun u => u.elim) hsp)).2)
  have gone : ∀ t, ¬ t < s.tasks.length → s.tasks[t]? = none := fun t ht => List.getElem?_eq_none (by omega)
  cases ev with
  | call a => exact spawn _ _ (.call a) h rfl
  | setMaxRetries n =>
    simp only [Sys.step, Gw.setMaxRetries]
    split <;> exact h.same rfl rfl
  | unsubscribe u => exact unsubscribe_handlers h u
  | registerHandler code k =>
    simp only [Sys.step]
    split
    · rename_i c hc
      exact h.net _ _ (hr code k c rfl hc)
    · exact h
  | removeHandler code =>
    simp only [Sys.step]
    split
    · exact h.net _ _
    · exact h
  | opened t ok =>
    refine own t (by simp [Ev.own]) ?_
    by_cases ht : t < s.tasks.length
    · exact .inl ht
    · exact .inr (by simp only [Sys.step, gone t ht])
  | resume t =>
    refine own t (by simp [Ev.own]) ?_
    by_cases ht : t < s.tasks.length
    · exact .inl ht
    · exact .inr (by simp only [Sys.step, gone t ht])
  | cancel t =>
    refine own t (by simp [Ev.own]) ?_
    by_cases ht : t < s.tasks.length
    · exact .inl ht
    · exact .inr (by simp only [Sys.step, gone t ht])
  | net c e =>
    simp only [Sys.step]
    split
    · rename_i he
      have hc : (s.g.lostCallback c e).conns = s.g.conns ∧ (s.g.lostCallback c e).userCalls = s.g.userCalls := by
        simp only [Gw.lostCallback]
        split
        · split <;> exact ⟨rfl, rfl⟩
        · exact ⟨rfl, rfl⟩
      exact (h.same hc.1 hc.2).net c e (by cases e <;> first | trivial | cases he)
    · exact h
  | handle c => exact h.handle E c
  | ping c =>
    cases hx : s.g.conns[c]? with
    | none => simp only [Sys.step, hx]; exact h
    | some x =>
      by_cases hp : x.pinged < x.w.p.pings
      · exact spawn _ _ (.ping c) (h.modify c _ (fun y hy => ⟨rfl, List.prefix_refl _, h.sourced c y hy⟩)) (by simp only [Sys.step, hx, if_pos hp])
      · simp only [Sys.step, hx, if_neg hp]; exact h
  | runUnsub =>
    by_cases hu : 0 < s.g.unsubs
    · exact spawn _ _ (.unsub hu) (h.same rfl rfl) (by simp only [Sys.step, if_pos hu])
    · simp only [Sys.step, if_neg hu]; exact h
  | tick now => exact h.same rfl rfl

/-- Handlers of the user are filed under the codes they were registered for. -/
def userFiled (E : Env) (clientId maxRetries : Int) (es : List Ev) (c : Nat) (code : Int) (k : Nat) : Prop :=
  k % 2 = 1 → ∃ code' : Nat, code = (code' : Int) ∧ RegisteredAt E clientId maxRetries es c code' (k / 2)

theorem reach_handlers (E : Env) (clientId maxRetries : Int) (es : List Ev) :
    HandlersOk (userFiled E clientId maxRetries es) (after E clientId maxRetries es).g := by
  have key : ∀ rs : List Ev, HandlersOk (userFiled E clientId maxRetries rs.reverse) (after E clientId maxRetries rs.reverse).g := by
    intro rs
    induction rs with
    | nil =>
      refine ⟨?_, ?_, ?_, ?_⟩
      · intro c x hx; simp [after, Sys.run, Sys.init] at hx
      · intro c x hx; simp [after, Sys.run, Sys.init] at hx
      · simp [after, Sys.run, Sys.init]
      · intro c x hx; simp [after, Sys.run, Sys.init] at hx
    | cons ev rs ih =>
      rw [List.reverse_cons, after_snoc]
      refine HandlersOk.step ((SysOk.init E False clientId maxRetries).run _ (fun u => u.elim)) ?_ (ih.mono ?_) ev ?_
      · intro c code hc
        simp only [commonHandler] at hc
        omega
      · intro c code k hk hodd
        obtain ⟨code', e, es1, es2, he, hp⟩ := hk hodd
        exact ⟨code', e, es1, es2 ++ [ev], by rw [he]; simp, hp⟩
      · intro code k c he hp hodd
        refine ⟨code, rfl, rs.reverse, [], by rw [he]; simp [userHandler]; omega, hp⟩
  simpa using key es.reverse

end SL
