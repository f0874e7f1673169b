import Verif.Lemmas.Provenance
import Verif.Lemmas.Frail
/-!
# Closing a connection takes until it is down
-/
set_option linter.unusedVariables false

namespace SL

/-- A finished `async_close` has seen the connection go down. -/
structure World.Sane (w : World) : Prop where
  closed : w.p.closed = true → w.p.connected = false
  done : ∀ i : Nat, w.closers[i]? = some .done → w.p.connected = false
  down : w.p.connected = false → w.p.tclosing = true

theorem atom_down {p q : Proto} (a : PAtom p q) (h : p.closed = true → p.connected = false) : q.closed = true → q.connected = false := by
  cases a with
  | send code data =>
    obtain ⟨futs, written, timers, kaStop, e, -, -, -⟩ := awaitSend_spec p code data
    rw [e]; exact h
  | cancelFut f => rw [cancelFut_eq]; exact h
  | dispatch m =>
    obtain ⟨futs, coll, spawned, recv, fates, e, -⟩ := dispatch_spec p m
    rw [e]; exact h
  | cancelAll => obtain ⟨e, -, -⟩ := cancelAll_spec p; rw [e]; exact h
  | lost => intro _; simp only [Proto.connectionLost]; rw [stopKeepalive_eq]
  | disable => simp only [Proto.disableKeepalive]; rw [stopKeepalive_eq]; exact h
  | fire i =>
    simp only [Proto.timerFire]; split
    · exact h
    · exact h
  | _ => exact h

theorem steps_down {p q : Proto} (a : PSteps p q) (h : p.closed = true → p.connected = false) : q.closed = true → q.connected = false := by
  induction a with
  | refl => exact h
  | tail _ a ih => exact atom_down a ih

theorem atom_shut {p q : Proto} (a : PAtom p q) (h : p.connected = false → p.tclosing = true) : q.connected = false → q.tclosing = true := by
  cases a with
  | send code data =>
    obtain ⟨futs, written, timers, kaStop, e, -, -, -⟩ := awaitSend_spec p code data
    rw [e]; exact h
  | cancelFut f => rw [cancelFut_eq]; exact h
  | dispatch m =>
    obtain ⟨futs, coll, spawned, recv, fates, e, -⟩ := dispatch_spec p m
    rw [e]; exact h
  | cancelAll => obtain ⟨e, -, -⟩ := cancelAll_spec p; rw [e]; exact h
  | lost => intro _; simp only [Proto.connectionLost]
  | disable => simp only [Proto.disableKeepalive]; rw [stopKeepalive_eq]; exact h
  | fire i =>
    simp only [Proto.timerFire]; split
    · exact h
    · exact h
  | tclose => intro _; rfl
  | _ => exact h

theorem steps_shut {p q : Proto} (a : PSteps p q) (h : p.connected = false → p.tclosing = true) : q.connected = false → q.tclosing = true := by
  induction a with
  | refl => exact h
  | tail _ a ih => exact atom_shut a ih

/-- A close is finished only by `closeFinish`, on a closed connection. -/
theorem step_closers (w : World) (e : Event) (i : Nat) (h : (w.step e).closers[i]? = some .done) :
    w.closers[i]? = some .done ∨ w.p.closed = true := by
  have start : ∀ (w : World) (t : Nat) (r : Req), (w.startAttempt t r).closers = w.closers := by
    intro w t r
    simp only [World.startAttempt, World.setReq]
    split
    · rfl
    · split
      · rfl
      · split
        · rfl
        · split <;> rfl
  have tail : ∀ (w : World) (c : Nat), (w.closeTail c).closers[i]? = some .done → w.closers[i]? = some .done := by
    intro w c h
    simp only [World.closeTail, List.getElem?_set] at h
    split at h
    · split at h <;> simp at h
    · exact h
  have snoc : ∀ (l : List Closer) (x : Closer), x ≠ .done → (l ++ [x])[i]? = some .done → l[i]? = some .done := by
    intro l x hx h
    rw [List.getElem?_append] at h
    split at h
    · exact h
    · rw [List.getElem?_singleton] at h
      split at h
      · exact absurd (Option.some.inj h) hx
      · cases h
  have undone : ∀ (c : Nat) (x : Closer), x ≠ .done → (w.closers.set c x)[i]? = some .done → w.closers[i]? = some .done := by
    intro c x hx h
    rw [List.getElem?_set] at h
    split at h
    · split at h
      · exact absurd (Option.some.inj h) hx
      · cases h
    · exact h
  cases e with
  | close force =>
    simp only [World.step] at h
    split at h
    · exact .inl (snoc _ _ (by simp) (tail _ _ h))
    · exact .inl (snoc _ _ (by simp) h)
  | closeResume c =>
    simp only [World.step] at h
    split at h
    · split at h
      · exact .inl (tail _ _ h)
      · exact .inl h
    · exact .inl h
  | closeFinish c =>
    simp only [World.step] at h
    split at h
    · split at h
      · exact .inl (undone _ _ (by simp) h)
      · split at h
        · rename_i hc; exact .inr hc
        · exact .inl h
    · exact .inl h
  | closeCancel c =>
    simp only [World.step] at h
    split at h
    · exact .inl h
    · exact .inl (undone _ _ (by simp) h)
    · exact .inl h
  | run t =>
    simp only [World.step] at h
    split at h
    · split at h
      · rw [start] at h; exact .inl h
      · exact .inl h
    · exact .inl h
  | wake t =>
    simp only [World.step] at h
    split at h
    · split at h
      · rw [start] at h; exact .inl h
      · exact .inl h
    · exact .inl h
  | resume t =>
    left
    simp only [World.step, World.setReq] at h
    repeat' (first | exact h | split at h)
  | timeout t =>
    left
    simp only [World.step, World.setReq] at h
    repeat' (first | exact h | split at h)
  | cancel t =>
    left
    simp only [World.step, World.setReq] at h
    repeat' (first | exact h | split at h)
  | lost =>
    left
    simp only [World.step] at h
    repeat' (first | exact h | split at h)
  | cleanup =>
    left
    simp only [World.step] at h
    repeat' (first | exact h | split at h)
  | _ => exact .inl h

theorem World.Sane.step {w : World} (h : w.Sane) (e : Event) : (w.step e).Sane := by
  refine ⟨steps_down (step_steps w e) h.closed, fun i hi => ?_, steps_shut (step_steps w e) h.down⟩
  rcases step_closers w e i hi with hd | hd
  · exact (step_later w e).disconnected (h.done i hd)
  · exact (step_later w e).disconnected (h.closed hd)

theorem World.Sane.run {w : World} (h : w.Sane) (es : List Event) : (w.run es).Sane := by
  induction es generalizing w with
  | nil => exact h
  | cons e es ih => exact ih (h.step e)

theorem World.Sane.init : World.init.Sane := ⟨by simp [World.init], by simp [World.init], by simp [World.init]⟩

/-- All connections. -/
def SaneConns (g : Gw) : Prop := ∀ (c : Nat) (x : Conn), g.conns[c]? = some x → x.w.Sane

theorem SaneConns.grows {g g' : Gw} (h : SaneConns g) (hg : Grows g g') : SaneConns g' := by
  intro c x' hx
  cases hc : g.conns[c]? with
  | none => obtain ⟨es, e, -⟩ := hg.new c x' hc hx; rw [e]; exact World.Sane.init.run es
  | some x =>
    obtain ⟨y, es, hy, e, -⟩ := hg.keep c x hc
    rw [hx] at hy; cases hy
    rw [e]; exact (h c x hc).run es

/-- The connection has gone down. -/
def Down (g : Gw) (c : Nat) : Prop := ∃ x : Conn, g.conns[c]? = some x ∧ x.w.p.connected = false

theorem Down.grows {g g' : Gw} {c : Nat} (h : Down g c) (hg : Grows g g') : Down g' c := by
  obtain ⟨x, hx, hd⟩ := h
  obtain ⟨y, es, hy, e, -⟩ := hg.keep c x hx
  exact ⟨y, hy, by rw [e]; exact (run_later _ _).disconnected hd⟩

theorem grows_len {g g' : Gw} (hg : Grows g g') {c : Nat} (h : c < g.conns.length) : c < g'.conns.length := by
  obtain ⟨x, hx⟩ : ∃ x, g.conns[c]? = some x := ⟨_, List.getElem?_eq_getElem h⟩
  obtain ⟨y, es, hy, -, -⟩ := hg.keep c x hx
  exact lt_of_getElem? hy

/-- The call of `async_close` ended: normally, and the connection is down, or with `CancelledError`. -/
theorem ended_down {g : Gw} (h : SaneConns g) {c i : Nat} (hc : c < g.conns.length) (he : g.closeEnded c i = true) :
    Down g c ∨ g.closeResult c i = .error .cancelled := by
  obtain ⟨x, hx⟩ : ∃ x, g.conns[c]? = some x := ⟨_, List.getElem?_eq_getElem hc⟩
  simp only [Gw.closeEnded, hx, beq_iff_eq, Bool.or_eq_true] at he
  rcases he with he | he
  · exact .inl ⟨x, hx, (h c x hx).done i he⟩
  · right; simp only [Gw.closeResult, hx]; rw [if_pos he]

/-- These are actions of a task that has closed only connections that are down. -/
def AllDown (l : List Act) (g : Gw) : Prop := ∀ c f, Act.cls c f ∈ l → c < g.conns.length ∧ Down g c

/-- The connections a task has closed exist, and are down, except the last one if it is waiting for that, or was
cancelled while it waited. -/
def Shuts (x : Option Task) (l : List Act) (g : Gw) : Prop :=
  AllDown l g ∨ ∃ c f h0, l = h0 ++ [.cls c f] ∧ AllDown h0 g ∧ c < g.conns.length ∧
    ((∃ i k, x = some (.closing c i k)) ∨ x = some (.done (.error .cancelled)))

theorem AllDown.grows {l : List Act} {g g' : Gw} (h : AllDown l g) (hg : Grows g g') : AllDown l g' :=
  fun c f hm => ⟨grows_len hg (h c f hm).1, (h c f hm).2.grows hg⟩

theorem AllDown.snoc {l : List Act} {g : Gw} (h : AllDown l g) {a : Act} (ha : ∀ c f, a = .cls c f → c < g.conns.length ∧ Down g c) :
    AllDown (l ++ [a]) g := by
  intro c f hm
  rcases List.mem_append.1 hm with hm | hm
  · exact h c f hm
  · exact ha c f (List.mem_singleton.1 hm).symm

/-- Nothing that was cancelled does anything more. -/
theorem dies_over {t : Nat} {co : Co Res} {g : Gw} (hd : co.Dies) {c : Nat} {f : Bool} {h0 : List Act} (hl : g.acts t = h0 ++ [.cls c f])
    (h : AllDown h0 g) (hc : c < g.conns.length) : Shuts (some (settle t co g).1) ((settle t co g).2.acts t) (settle t co g).2 := by
  obtain ⟨h1, h2⟩ := settle_dies t co g hd
  refine .inr ⟨c, f, h0, ?_, ?_, ?_, .inr (congrArg some h1)⟩
  · rcases h2 with e | e <;> rw [e] <;> exact hl
  · rcases h2 with e | e <;> rw [e] <;> exact h
  · rcases h2 with e | e <;> rw [e] <;> exact hc

theorem settle_over {E : Env} {U : Prop} {X : List Act → Val → Prop} {I : List Act → Prop} {t : Nat} :
    ∀ (co : Co Res) (g : Gw), Steps (mon E U X I) t co g → co.Frail → GInv U g → SaneConns g → AllDown (g.acts t) g →
      Shuts (some (settle t co g).1) ((settle t co g).2.acts t) (settle t co g).2
  | .ret a, g, _, _, _, _, h => .inl h
  | .throw e, g, _, _, _, _, h => .inl h
  | .get k, g, hs, hf, hi, hw, h => settle_over (k g) g hs (hf g) hi hw h
  | .upd f k, g, hs, hf, hi, hw, h => by
    have hg : Grows g (g.apply f) := micro_grows (Micro.upd (E := E) (U := U) t _ _ hs.1)
    exact settle_over k (g.apply f) hs.2 hf (micro_inv hi (Micro.upd (E := E) t _ _ hs.1)) (hw.grows hg) (h.grows hg)
  | .request c' code data r k, g, hs, hf, hi, hw, h => by
    simp only [settle]
    have hg := grows_ask g t c' code data r
    have h1 : AllDown ((g.ask t c' code data r).2.acts t) (g.ask t c' code data r).2 := by
      rw [acts_ask_same]
      exact (h.grows hg).snoc (by intro _ _ e; cases e)
    have hi1 : GInv U (g.ask t c' code data r).2 := micro_inv (E := E) hi (.ask t c' code data r g hs.1)
    split
    · rename_i o ho
      have hm : Micro E U (g.ask t c' code data r).2 ((g.ask t c' code data r).2.note t (.got o)) := .got t o _ ⟨_, _, ho⟩
      refine settle_over (k o) _ (hs.2 o ho) (hf.2 o) (micro_inv hi1 hm) ((hw.grows hg).grows (micro_grows hm)) ?_
      rw [acts_note_same]
      exact (h1.grows (micro_grows hm)).snoc (by intro _ _ e; cases e)
    · exact .inl h1
  | .openConn r k, g, hs, hf, hi, hw, h => by
    left
    simp only [settle]
    rw [acts_note_same]
    exact (h.grows (.same rfl)).snoc (by intro _ _ e; cases e)
  | .sleep k, g, hs, hf, hi, hw, h => .inl h
  | .close c' force k, g, hs, hf, hi, hw, h => by
    simp only [settle]
    have hg := grows_close g t c' force
    have hlt : c' < g.conns.length := hi.proto c' hs.1
    split
    · rename_i hc
      rcases ended_down (hw.grows hg) (grows_len hg hlt) hc with hd | hd
      · refine settle_over _ _ (hs.2 hc) (hf.2 _) (micro_inv (E := E) hi (.cls t c' force g)) (hw.grows hg) ?_
        rw [acts_close_same]
        refine (h.grows hg).snoc ?_
        intro c f e
        cases e
        exact ⟨grows_len hg hlt, hd⟩
      · rw [hd]
        exact dies_over hf.1 (acts_close_same ..) (h.grows hg) (grows_len hg hlt)
    · exact .inr ⟨c', force, g.acts t, acts_close_same .., h.grows hg, grows_len hg hlt, .inl ⟨_, k, rfl⟩⟩
  | .acquire k, g, hs, hf, hi, hw, h => by
    simp only [settle]
    split
    · rename_i hc
      exact settle_over _ _ (hs hc) (hf.2 _) (micro_inv (E := E) hi (.take t g hc.1)) (hw.grows (.same rfl)) h
    · exact .inl h

/-- The same in a system. -/
structure Shut (s : Sys) : Prop where
  conns : SaneConns s.g
  frail : ∀ (t : Nat) (x : Task), s.tasks[t]? = some x → x.Frail
  tasks : ∀ t, Shuts s.tasks[t]? (s.g.acts t) s.g

/-- A task that waits for the end of a connection does not go on before that. -/
theorem closing_waits {E : Env} {s : Sys} {t c i : Nat} {k : Except PyErr Unit → Co Res} (hk : s.tasks[t]? = some (.closing c i k)) {ev : Ev}
    (ho : ev.own t = true) : s.step E ev = s ∨
      (s.g.closeEnded c i = true ∧ s.step E ev = s.put t (settle t (k (s.g.closeResult c i)) s.g)) := by
  cases ev with
  | opened t' ok =>
    obtain rfl : t' = t := by simpa [Ev.own] using ho
    left; simp only [Sys.step, hk]
  | resume t' =>
    obtain rfl : t' = t := by simpa [Ev.own] using ho
    simp only [Sys.step, hk]
    cases hc : s.g.closeEnded c i with
    | true => exact .inr ⟨rfl, by simp⟩
    | false => exact .inl (by simp)
  | cancel t' =>
    obtain rfl : t' = t := by simpa [Ev.own] using ho
    left; simp only [Sys.step, hk]
  | _ => cases ho

theorem resumed_grows (E : Env) {W : Nat → Nat → Prop} {t : Nat} {g g0 : Gw} (h : Resumed W t g g0) : Grows g g0 := by
  cases h with
  | same => exact .refl _
  | got o ho => obtain ⟨c, r, ho, -⟩ := ho; exact micro_grows (Micro.got (E := E) (U := False) t o _ ⟨c, r, ho⟩)
  | opened => exact micro_grows (Micro.conn (E := E) (U := False) _)
  | granted w hl => exact .same rfl
  | left w => exact .same rfl

theorem resumed_down (E : Env) {W : Nat → Nat → Prop} {t : Nat} {g g0 : Gw} (h : Resumed W t g g0) (hd : AllDown (g.acts t) g) : AllDown (g0.acts t) g0 := by
  have hg := resumed_grows E h
  cases h with
  | got o ho => rw [acts_note_same]; exact (hd.grows hg).snoc (by intro _ _ e; cases e)
  | _ => exact hd.grows hg

theorem Shuts.grows {x : Option Task} {l : List Act} {g g' : Gw} (h : Shuts x l g) (hg : Grows g g') : Shuts x l g' := by
  rcases h with h | ⟨c, f, h0, e, h1, h2, h3⟩
  · exact .inl (h.grows hg)
  · exact .inr ⟨c, f, h0, e, h1.grows hg, grows_len hg h2, h3⟩

/-- A task that has ended does nothing. -/
theorem ended_stays {E : Env} {s : Sys} {t : Nat} {r : Except PyErr Res} (hk : s.tasks[t]? = some (.done r)) {ev : Ev}
    (ho : ev.own t = true) : s.step E ev = s := by
  cases ev with
  | opened t' ok =>
    obtain rfl : t' = t := by simpa [Ev.own] using ho
    simp only [Sys.step, hk]
  | resume t' =>
    obtain rfl : t' = t := by simpa [Ev.own] using ho
    simp only [Sys.step, hk]
  | cancel t' =>
    obtain rfl : t' = t := by simpa [Ev.own] using ho
    simp only [Sys.step, hk]
  | _ => cases ho

theorem Shut.step {E : Env} {s : Sys} (hs : SysOk E False s) (h : Shut s) (ev : Ev) : Shut (s.step E ev) := by
  have hM := mon_good E False noX (fun _ => True)
  have hG : Grows s.g (s.step E ev).g := star_grows (step_micro hs ev (fun u => u.elim))
  refine ⟨h.conns.grows hG, step_frail E s ev h.frail, fun t => ?_⟩
  have empty : ¬ t < (s.step E ev).tasks.length → AllDown ((s.step E ev).g.acts t) (s.step E ev).g := by
    intro hn c f hm
    simp only [Gw.acts, List.mem_map, List.mem_filter] at hm
    obtain ⟨x, ⟨hx, he⟩, -⟩ := hm
    have := hs.log.step E ev x hx
    rw [beq_iff_eq.1 he] at this
    exact absurd this hn
  by_cases ht : t < s.tasks.length
  · by_cases ho : ev.own t = true
    · rcases own_step_next E hM (Q := fun _ _ _ => True) ev (fun r hi => afterOpen_ok hc_true hs.inv trivial r trivial) ho (hs.tasks t ht) with
        he | ⟨co, g0, hr, he, hI, hwp, hnx⟩
      · rw [he]; exact h.tasks t
      · have hgr := resumed_grows E hr
        have hfr : co.Frail := next_frail h.frail hnx
        have down : Shuts (s.step E ev).tasks[t]? ((s.step E ev).g.acts t) (s.step E ev).g ∨ AllDown (g0.acts t) g0 := by
          rcases h.tasks t with h1 | ⟨c, f, h0, e, h1, h2, ⟨i, k, h3⟩ | h3⟩
          · exact .inr (resumed_down E hr h1)
          · rcases closing_waits (E := E) h3 ho with hx | ⟨hx, hy⟩
            · left; rw [hx]; exact h.tasks t
            · rcases ended_down h.conns h2 hx with hd | hd
              · refine .inr (resumed_down E hr ?_)
                rw [e]
                refine h1.snoc ?_
                intro c' f' e'
                cases e'
                exact ⟨h2, hd⟩
              · left
                rw [hy, hd]
                simp only [Sys.put, List.getElem?_set_self ht]
                exact dies_over (h.frail t _ h3).1 e h1 h2
          · left; rw [ended_stays h3 ho]; exact h.tasks t
        rcases down with hst | down
        · exact hst
        · have hst := (settle_ok hM (Q := fun _ _ _ => True) co g0 trivial hwp).2
          have hinv : GInv False g0 := by
            cases hr with
            | same => exact hs.inv
            | got o ho => obtain ⟨c, r, ho, -⟩ := ho; exact micro_inv (E := E) hs.inv (.got t o _ ⟨c, r, ho⟩)
            | opened => exact micro_inv (E := E) hs.inv (.conn _)
            | granted w hl => exact micro_inv (E := E) (micro_inv (E := E) hs.inv (.waiters w _)) (.take t _ hl)
            | left w => exact micro_inv (E := E) hs.inv (.waiters w _)
          have := settle_over (X := noX) (I := fun _ => True) co g0 hst hfr hinv (h.conns.grows hgr) down
          rw [he]
          simp only [Sys.put, List.getElem?_set_self ht]
          exact this
    · obtain ⟨h1, h2⟩ := step_other_task E s ev ht (by simpa using ho)
      rw [h1, h2]
      exact (h.tasks t).grows hG
  · rcases step_cases E s ev with ⟨t', co, g0, ho', ht', hr, he⟩ | ⟨co, g0, hsp, he⟩ | ⟨g', hg, he⟩
    · refine .inl (empty ?_)
      rw [he]
      simpa only [Sys.put, List.length_set] using ht
    · by_cases hlt : t < s.tasks.length + 1
      · obtain rfl : t = s.tasks.length := by omega
        have st := spawn_st (X := noX) hs.inv hs.log hsp trivial
        have hg0 : Grows s.g g0 := by
          cases hsp with
          | call a => exact .refl _
          | ping c => exact micro_grows (Micro.ping (E := E) (U := False) c _)
          | unsub h => exact .same rfl
        have := settle_over (X := noX) (I := fun _ => True) co g0 (settle_ok hM (Q := fun _ _ _ => True) co g0 trivial (spawn_wp hs (fun u => u.elim) hsp)).2
          (spawned_frail hsp) st.inv (h.conns.grows hg0) (by rw [st.acts]; intro c f hm; cases hm)
        rw [he]
        simp only [Sys.spawn, List.getElem?_concat_length]
        exact this
      · refine .inl (empty ?_)
        rw [he]
        simpa only [Sys.spawn, List.length_append, List.length_singleton] using hlt
    · refine .inl (empty ?_)
      rw [he]
      exact ht

theorem after_shut (E : Env) (clientId maxRetries : Int) (es : List Ev) : Shut (after E clientId maxRetries es) := by
  have key : ∀ rs : List Ev, Shut (after E clientId maxRetries rs.reverse) := by
    intro rs
    induction rs with
    | nil =>
      refine ⟨?_, ?_, ?_⟩
      · intro c x hx; simp [after, Sys.run, Sys.init] at hx
      · intro t x hx; simp [after, Sys.run, Sys.init] at hx
      · intro t; left; intro c f hm; simp [after, Sys.run, Sys.init, Gw.acts] at hm
    | cons ev rs ih =>
      rw [List.reverse_cons, after_snoc]
      exact ih.step ((SysOk.init E False clientId maxRetries).run _ (fun u => u.elim)) ev
  simpa using key es.reverse

end SL
