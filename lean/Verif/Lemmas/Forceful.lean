import Verif.Lemmas.Ends
/-!
# Who opens connections, and who closes them gracefully

`Co.Only o f` : the coroutine opens a connection only if `o`, and waits for outstanding requests on closing one only if `f`.
-/
set_option linter.unusedVariables false

namespace SL

open Co (state modify makeRequest pause closeConn withLock tryExcept ofExcept)

def Co.Only {α : Type} (o f : Prop) : Co α → Prop
  | .ret _ => True
  | .throw _ => True
  | .get k => ∀ g, (k g).Only o f
  | .upd _ k => k.Only o f
  | .request _ _ _ _ k => ∀ x, (k x).Only o f
  | .openConn _ k => o ∧ ∀ x, (k x).Only o f
  | .sleep k => ∀ x, (k x).Only o f
  | .close _ force k => (force = true ∨ f) ∧ ∀ x, (k x).Only o f
  | .acquire k => ∀ x, (k x).Only o f

section
variable {o f : Prop} {α β : Type}

theorem Co.only_bindE {h : Except PyErr α → Co β} (hf : ∀ x, (h x).Only o f) : ∀ x : Co α, x.Only o f → (x.bindE h).Only o f
  | .ret a, _ => hf _
  | .throw e, _ => hf _
  | .get k, h => fun g => only_bindE hf (k g) (h g)
  | .upd u k, h => only_bindE hf k h
  | .request _ _ _ _ k, h => fun x => only_bindE hf (k x) (h x)
  | .openConn _ k, h => ⟨h.1, fun x => only_bindE hf (k x) (h.2 x)⟩
  | .sleep k, h => fun x => only_bindE hf (k x) (h x)
  | .close _ _ k, h => ⟨h.1, fun x => only_bindE hf (k x) (h.2 x)⟩
  | .acquire k, h => fun x => only_bindE hf (k x) (h x)

theorem Co.only_bind {x : Co α} {h : α → Co β} (hx : x.Only o f) (hf : ∀ a, (h a).Only o f) : (x >>= h).Only o f := by
  refine only_bindE ?_ x hx
  intro r
  cases r with
  | ok a => exact hf a
  | error e => trivial

theorem Co.only_state {h : Gw → Co α} (hf : ∀ g, (h g).Only o f) : (state >>= h).Only o f := hf
theorem Co.only_modify (u : Gw → Gw) : (modify u).Only o f := trivial
theorem Co.only_ofExcept (x : Except PyErr α) : (ofExcept x).Only o f := by cases x <;> trivial
theorem Co.only_make (c : Nat) (code : Int) (data : Bytes) (r : Int) : (makeRequest c code data r).Only o f := fun x => only_ofExcept x
theorem Co.only_pause : pause.Only o f := fun x => only_ofExcept x
theorem Co.only_close (c : Nat) {force : Bool} (h : force = true ∨ f) : (closeConn c force).Only o f := ⟨h, fun x => only_ofExcept x⟩
theorem Co.only_try {x : Co α} {h : PyErr → Co α} (hx : x.Only o f) (hf : ∀ e, (h e).Only o f) : (tryExcept x h).Only o f := by
  refine only_bindE ?_ x hx
  intro r
  cases r with
  | ok a => trivial
  | error e => exact hf e
theorem Co.only_lock {x : Co α} (hx : x.Only o f) : (withLock x).Only o f := by
  intro r
  cases r with
  | error e => trivial
  | ok u =>
    refine only_bindE ?_ x hx
    intro r
    exact only_ofExcept r
theorem Co.only_ite {c : Prop} [Decidable c] {x y : Co α} (hx : x.Only o f) (hy : y.Only o f) : (if c then x else y).Only o f := by
  split
  · exact hx
  · exact hy
theorem Co.only_when {b : Bool} {x : Co Unit} (hx : x.Only o f) : (whenCo b x).Only o f := only_ite hx trivial

end

section
variable (E : Env) {o f : Prop}

open Co

theorem only_ack {code : Int} {payload : Except PyErr Bytes} (c : Nat) (r : Int) : (ackRequest code payload c r).Only o f :=
  only_bind (only_ofExcept _) (fun data => only_bind (only_make _ _ _ _) (fun v => only_ite trivial trivial))

theorem only_decode (D : Decoder) (b : Bytes) : (decodeCo E D b).Only o f :=
  only_state (fun g => only_bind (only_modify _) (fun _ => only_ofExcept _))

theorem only_query (D : Gw → Decoder) {code : Int} {payload : Except PyErr Bytes} (c : Nat) (r : Int) :
    (queryRequest E D code payload c r).Only o f := by
  refine only_bind (only_ofExcept _) (fun data => only_bind (only_make _ _ _ _) (fun v => ?_))
  split
  · exact only_state (fun g => only_bind (only_decode E _ _) (fun _ => trivial))
  · trivial

theorem only_unsubscribeGateway : unsubscribeGateway.Only o f := by
  refine only_state (fun g => only_ite (only_lock (only_state (fun g => ?_))) trivial)
  split
  · exact only_bind (only_modify _) (fun _ => only_bind (only_modify _) (fun _ => only_bind (only_modify _) (fun _ =>
        only_try (only_ack _ _) (fun e => only_ite trivial trivial))))
  · trivial

theorem only_disconnect {force : Bool} (h : force = true ∨ f) : (asyncDisconnect force).Only o f := by
  refine only_state (fun g => only_bind (only_when only_unsubscribeGateway) (fun _ => only_state (fun g => ?_)))
  split
  · exact only_close _ h
  · trivial

theorem only_ping : pingCo.Only o f := by
  refine only_bind (only_state (fun g => ?_)) (fun _ => trivial)
  split
  · exact only_try (only_ack _ _) (fun e => only_ite trivial trivial)
  · trivial

theorem only_unsub : unsubCo.Only o f := only_bind only_unsubscribeGateway (fun _ => trivial)

variable (ho : o)
include ho

theorem only_connect (a : ConnectArgs) : (asyncConnect a).Only o f := by
  intro g
  exact only_ite trivial (fun g => only_ite trivial ⟨ho, fun x => only_ofExcept x⟩)

theorem only_attempt {α : Type} (r : Int) {method : Nat → Int → Co α} (hm : ∀ c r, (method c r).Only o f) :
    (attemptRequest r method).Only o f := by
  refine only_bind (only_connect ho {}) (fun ok => only_ite (only_state (fun g => ?_)) trivial)
  split
  · exact hm _ _
  · trivial

theorem only_connected {α : Type} {method : Nat → Int → Co α} (hm : ∀ c r, (method c r).Only o f) :
    (connectedRequest method).Only o f :=
  only_state (fun g => only_try (only_attempt ho _ hm) (fun e => only_ite
    (only_bind (only_disconnect (.inl rfl)) (fun _ => only_bind only_pause (fun _ => only_attempt ho _ hm))) trivial))

theorem only_subscribeGateway : subscribeGateway.Only o f := by
  refine only_state (fun g => only_ite (only_lock (only_state (fun g => only_ite trivial ?_))) trivial)
  refine only_bind (only_connected ho (fun c r => only_ack _ _)) (fun _ => only_bind (only_modify _) (fun _ => only_state (fun g => ?_)))
  split
  · exact only_modify _
  · trivial

omit ho in
theorem only_registerAll (c : Nat) : ∀ l, (registerAll c l).Only o f
  | [] => trivial
  | (code, _) :: rest => only_bind (only_modify _) (fun _ => only_registerAll c rest)

theorem only_attach (c : Nat) : (attach c).Only o f :=
  only_bind (only_modify _) (fun _ => only_state (fun g => only_ite
    (only_bind (only_modify _) (fun _ => only_bind (only_registerAll c _) (fun _ => only_subscribeGateway ho))) trivial))

theorem only_poll {method : Nat → Int → Co (Option Bytes)} (key : Path) (hm : ∀ c r, (method c r).Only o f) : (poll key method).Only o f := by
  refine only_bind (only_connected ho hm) (fun raw => ?_)
  split
  · exact only_modify _
  · trivial

theorem only_getPump (i : Nat) : (getPump E i).Only o f := by
  have q : ∀ c r, (requestPump E i c r).Only o f := by
    generalize (i : Int) = j at *
    exact only_query E (fun _ => .pump j)
  simp only [getPump]
  generalize requestPump E i = m at q
  refine only_state (fun g => only_bind (only_ofExcept _) (fun f => ?_))
  split
  · exact only_bind (only_modify _) (fun _ => only_poll ho _ q)
  · trivial

theorem only_getPumpsFrom : ∀ n i, (getPumpsFrom E n i).Only o f
  | 0, _ => trivial
  | n + 1, i => only_bind (only_getPump E ho i) (fun _ => only_getPumpsFrom n (i + 1))

theorem only_getStatus : (getStatus E).Only o f := only_poll ho _ (only_query E _)
theorem only_getConfig : (getConfig E).Only o f := only_poll ho _ (only_query E _)
theorem only_getScg : (getScg E).Only o f := only_poll ho _ (only_query E _)
theorem only_getChemistry : (getChemistry E).Only o f := only_poll ho _ (only_query E _)
theorem only_getDatetime : (getDatetime E).Only o f := only_poll ho _ (only_query E _)

theorem only_update : (asyncUpdate E).Only o f :=
  only_state (fun g => only_ite (only_bind (only_getStatus E ho) (fun _ => only_bind (only_getPumpsFrom E ho 8 0) (fun _ =>
    only_bind (only_getChemistry E ho) (fun _ => only_bind (only_getScg E ho) (fun _ => only_getDatetime E ho))))) trivial)

theorem only_afterOpen (r : Int) (c : Nat) : (afterOpen E r c).Only o f := by
  refine only_bind ?_ (fun mac => ?_)
  · refine only_bind ?_ (fun mac => only_bind (only_ofExcept _) (fun msg => ?_))
    · refine only_bind (only_modify _) (fun _ => only_bind only_pause (fun _ => only_state (fun g => only_ite
        (only_bind (only_make _ _ _ _) (fun r => ?_)) trivial)))
      split
      · exact only_ofExcept _
      · trivial
    · refine only_bind (only_make _ _ _ _) (fun r => ?_)
      split <;> trivial
  · split
    · trivial
    · refine only_bind (only_modify _) (fun _ => only_bind ?_ (fun _ => only_state (fun g => only_ite ?_ trivial)))
      · exact only_state (fun g => only_bind (only_query E _ _ _) (fun _ => only_modify _))
      · refine only_bind (only_getConfig E ho) (fun _ => only_state (fun g => ?_))
        split
        · exact only_bind (only_attach ho _) (fun _ => trivial)
        · trivial

theorem only_setter (p : Except PyErr (Int × Except PyErr Bytes)) : (setterCo p).Only o f := by
  cases p with
  | error e => trivial
  | ok p => exact only_bind (only_connected ho (fun c r => only_ack c r)) (fun _ => trivial)

end

/-- The rest of a task. -/
def Task.Only (o f : Prop) : Task → Prop
  | .request _ _ k => ∀ x, (k x).Only o f
  | .opening _ k => o ∧ ∀ x, (k x).Only o f
  | .sleeping k => ∀ x, (k x).Only o f
  | .closing _ _ k => ∀ x, (k x).Only o f
  | .locked k => ∀ x, (k x).Only o f
  | .done _ => True

/-- The closing waits for no request. -/
def Gw.Cleared (g : Gw) (c i : Nat) : Prop :=
  ∀ y l, g.conns[c]? = some y → y.w.closers[i]? = some (.gathering l) → ∀ j ∈ l, y.w.p.futs[j]? ≠ some .pending

/-- A task that closes nothing gracefully. -/
structure Task.Forced (o f : Prop) (g : Gw) (x : Task) : Prop where
  only : x.Only o f
  clear : ¬ f → ∀ c i k, x = .closing c i k → g.Cleared c i

theorem finish_p (w : World) (i : Nat) : (w.step (.closeFinish i)).p = w.p := by
  simp only [World.step]
  split
  · split
    · rfl
    · split <;> rfl
  · rfl

theorem forced_close (t : Nat) (g : Gw) (c : Nat) : (g.startClose t c true).2.Cleared c (g.startClose t c true).1 := by
  intro y l hy hl j hj
  cases hx : g.conns[c]? with
  | none => simp [Gw.startClose, Gw.net, Gw.note, hx] at hy
  | some x =>
    have h1 : (g.startClose t c true).1 = x.w.closers.length := by simp only [Gw.startClose, hx]
    rw [h1] at hl
    have hy' : y = { x with w := (x.w.step (.close true)).step (.closeFinish x.w.closers.length) } := by
      simpa [Gw.startClose, Gw.net, Gw.note, hx] using hy.symm
    subst hy'
    have hlt : x.w.closers[x.w.closers.length]? = none := by simp
    have hlen : x.w.closers.length < (x.w.step (.close true)).closers.length := by
      simp only [World.step, World.closeTail]
      split <;> simp
    have h2 := List.getElem?_eq_getElem hlen
    obtain ⟨z, hz, hn⟩ := step_closes h2 (.closeFinish x.w.closers.length)
    change ((x.w.step (.close true)).step (.closeFinish x.w.closers.length)).closers[x.w.closers.length]? = some (.gathering l) at hl
    rw [hl] at hz
    cases hz
    have hfut : ((x.w.step (.close true)).step (.closeFinish x.w.closers.length)).p = (x.w.step (.close true)).p := finish_p _ _
    change ((x.w.step (.close true)).step (.closeFinish x.w.closers.length)).p.futs[j]? ≠ some .pending
    rw [hfut]
    have hp : (x.w.step (.close true)).p.futs = ({ x.w.p with closing := true } : Proto).cancelAll.futs := by
      simp only [World.step, World.closeTail]
      split <;> rfl
    rw [hp, (cancelAll_spec _).2.2 j]
    have hl0 : l = x.w.p.coll.map (·.2) := by
      rcases step_newCloser hlt (.close true) h2 with ⟨k, h3, -⟩ | ⟨h3, -⟩
      · exact hn.same _ _ h3 rfl
      · have := hn.rank
        rw [h3] at this
        simp [Closer.rank] at this
    rw [← hl0]
    split
    · simp
    · rename_i hc
      exact fun e => hc ⟨hj, e⟩

theorem settle_forced {o f : Prop} (t : Nat) : ∀ (co : Co Res) (g : Gw), co.Only o f → (settle t co g).1.Forced o f (settle t co g).2
  | .ret a, g, h => ⟨trivial, fun _ c i k e => by cases e⟩
  | .throw e, g, h => ⟨trivial, fun _ c i k e => by cases e⟩
  | .get k, g, h => settle_forced t (k g) g (h g)
  | .upd u k, g, h => settle_forced t k (g.apply u) h
  | .request c code data r k, g, h => by
    simp only [settle]
    split
    · exact settle_forced t _ _ (h _)
    · exact ⟨h, fun _ c i k e => by cases e⟩
  | .openConn r k, g, h => ⟨h, fun _ c i k e => by cases e⟩
  | .sleep k, g, h => ⟨h, fun _ c i k e => by cases e⟩
  | .close c force k, g, h => by
    simp only [settle]
    split
    · exact settle_forced t _ _ (h.2 _)
    · refine ⟨h.2, fun hnf c' i' k' e => ?_⟩
      cases e
      obtain rfl := h.1.resolve_right hnf
      exact forced_close t g c
  | .acquire k, g, h => by
    simp only [settle]
    split
    · exact settle_forced t _ _ (h _)
    · exact ⟨h, fun _ c i k e => by cases e⟩

/-- A step of the task, or none. -/
theorem task_only (E : Env) {o f : Prop} (s : Sys) {t : Nat} {x : Task} (hx : s.tasks[t]? = some x) (hO : x.Only o f) (ev : Ev) :
    (∃ co g0, co.Only o f ∧ s.step E ev = s.put t (settle t co g0)) ∨ (s.step E ev).tasks[t]? = some x := by
  by_cases hop : ev = .opened t true ∧ s.opening t
  · obtain ⟨rfl, r, k, hk⟩ := hop
    rw [hx] at hk
    cases hk
    exact .inl ⟨_, s.g.addConn, Co.only_bindE hO.2 _ (only_afterOpen E hO.1 r s.g.conns.length), by simp only [Sys.step, hx, if_true]⟩
  · rcases task_next (E := E) s hx ev (fun e h => hop ⟨e, h⟩) with ⟨co, g0, hg, he⟩ | h
    · refine .inl ⟨co, g0, ?_, he⟩
      cases x with
      | done r => exact hg.elim
      | opening r k => obtain ⟨e, rfl⟩ := hg; exact hO.2 _
      | request c i k => obtain ⟨e, rfl⟩ := hg; exact hO _
      | sleeping k => obtain ⟨e, rfl⟩ := hg; exact hO _
      | closing c i k => obtain ⟨e, rfl⟩ := hg; exact hO _
      | locked k => obtain ⟨e, rfl⟩ := hg; exact hO _
    · exact .inr h

section
variable {E : Env} {clientId maxRetries : Int} {es : List Ev} {σ : Nat → Ev}

local notation "S" => Sys.at E (after E clientId maxRetries es) σ

theorem at_forced {o f : Prop} {t n : Nat} {x : Task} (hx : (S n).tasks[t]? = some x) (hO : x.Forced o f (S n).g) {m : Nat} (hm : n ≤ m) :
    ∃ y, (S m).tasks[t]? = some y ∧ y.Forced o f (S m).g := by
  obtain ⟨d, rfl⟩ := Nat.exists_eq_add_of_le hm
  clear hm
  induction d with
  | zero => exact ⟨x, hx, hO⟩
  | succ d ih =>
    obtain ⟨y, h1, h2⟩ := ih
    rcases task_only E (S (n + d)) h1 h2.only (σ (n + d)) with ⟨co, g0, h3, h4⟩ | h3
    · refine ⟨(settle t co g0).1, ?_, ?_⟩
      · show ((S (n + d)).step E (σ (n + d))).tasks[t]? = _
        rw [h4]; exact put_task h1 _
      · show Task.Forced o f ((S (n + d)).step E (σ (n + d))).g _
        rw [h4]; exact settle_forced t co g0 h3
    · refine ⟨y, h3, h2.only, fun hnf c i k e => ?_⟩
      have hcl := h2.clear hnf c i k e
      subst e
      obtain ⟨z, w, j1, j2⟩ := at_closing h1
      obtain ⟨z', w', j3, j4, j5, j6, j7⟩ := closer_later (Nat.le_succ (n + d)) j1 j2
      intro z2 l hz2 hl j hj
      rw [show (S (n + (d + 1))).g.conns[c]? = _ from j3] at hz2
      cases hz2
      rw [j4] at hl
      cases hl
      cases w with
      | gathering l0 =>
        obtain rfl := j6 l0 l rfl rfl
        obtain ⟨es', he⟩ := at_conn j1
        have hlt := (closeOk_run es').gathering i l (by rw [← he]; exact j2) j hj
        rw [← he] at hlt
        exact over_stays j7 hlt (hcl z l j1 j2 j hj)
      | _ => simp [Closer.rank] at j5

theorem forced_closable {o f : Prop} (hnf : ¬ f) (hf : Fair E (after E clientId maxRetries es) σ) {t n : Nat} {x : Task} (hx : (S n).tasks[t]? = some x)
    (hO : x.Forced o f (S n).g) {m c i : Nat} (hm : n ≤ m) {k} (hk : (S m).tasks[t]? = some (.closing c i k)) :
    ∃ m' x y, m ≤ m' ∧ (S m').g.conns[c]? = some x ∧ x.w.closers[i]? = some y ∧ 1 < y.rank := by
  obtain ⟨y, h1, h2⟩ := at_forced hx hO hm
  rw [hk] at h1
  cases h1
  obtain ⟨z, w, h3, h4⟩ := at_closing hk
  refine close_finishes hf ?_
  cases w with
  | gathering l => exact close_cleared hf h3 h4 (Nat.le_refl _) h3 (h2.clear hnf c i k rfl z l h3 h4)
  | awaitClosed => exact ⟨m, z, _, Nat.le_refl _, h3, h4, by simp [Closer.rank]⟩
  | done => exact ⟨m, z, _, Nat.le_refl _, h3, h4, by simp [Closer.rank]⟩
  | cancelled => exact ⟨m, z, _, Nat.le_refl _, h3, h4, by simp [Closer.rank]⟩

end

end SL
