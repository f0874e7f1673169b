import Verif.Lemmas.Stages
import Verif.Lemmas.Setters
/-!
# What an answer leads to

`Co.Lands N x` : at every request the coroutine `x` can make, other than those of connection sequences, the rest of the coroutine satisfies `N`.
-/
set_option linter.unusedVariables false

namespace SL

open Co (state modify makeRequest pause closeConn withLock tryExcept ofExcept)

/-- See above. -/
def Co.Lands {α : Type} (N : Int → Bytes → (Except PyErr (Option Bytes) → Co α) → Prop) : Co α → Prop
  | .ret _ => True
  | .throw _ => True
  | .get k => ∀ g, (k g).Lands N
  | .upd _ k => k.Lands N
  | .request _ code data _ k => (code ∉ connectCodes → N code data k) ∧ ∀ o, (k o).Lands N
  | .openConn _ k => ∀ o, (k o).Lands N
  | .sleep k => ∀ o, (k o).Lands N
  | .close _ _ k => ∀ o, (k o).Lands N
  | .acquire k => ∀ o, (k o).Lands N

/-- It only makes requests of connection sequences. -/
def Co.Hushed {α : Type} (x : Co α) : Prop := x.Lands (fun _ _ _ => False)

/-- Run a coroutine that does not suspend. -/
def Co.runs {α : Type} : Co α → Gw → Option (Except PyErr α × Gw)
  | .ret a, g => some (.ok a, g)
  | .throw e, g => some (.error e, g)
  | .get k, g => (k g).runs g
  | .upd f k, g => k.runs (g.apply f)
  | _, _ => none

/-- The rest `k` of the coroutine answers as `A` says (where `A` says anything). -/
def Land {α : Type} (A : Option Bytes → Gw → Option (Except PyErr α × Gw)) (k : Except PyErr (Option Bytes) → Co α) : Prop :=
  ∀ v g r, A v g = some r → (k (.ok v)).runs g = some r

section
variable {α β : Type}

theorem Co.runs_bindE {f : Except PyErr α → Co β} : ∀ (x : Co α) (g : Gw) {r : Except PyErr α × Gw}, x.runs g = some r → (x.bindE f).runs g = (f r.1).runs r.2
  | .ret a, g, r, h => by cases h; rfl
  | .throw e, g, r, h => by cases h; rfl
  | .get k, g, r, h => runs_bindE (k g) g h
  | .upd u k, g, r, h => runs_bindE k (g.apply u) h
  | .request _ _ _ _ k, _, _, h => by cases h
  | .openConn _ k, _, _, h => by cases h
  | .sleep k, _, _, h => by cases h
  | .close _ _ k, _, _, h => by cases h
  | .acquire k, _, _, h => by cases h

theorem settle_runs (t : Nat) : ∀ (x : Co Res) (g : Gw) {r : Except PyErr Res × Gw}, x.runs g = some r → settle t x g = (.done r.1, r.2)
  | .ret a, g, r, h => by cases h; rfl
  | .throw e, g, r, h => by cases h; rfl
  | .get k, g, r, h => settle_runs t (k g) g h
  | .upd u k, g, r, h => settle_runs t k (g.apply u) h
  | .request _ _ _ _ k, _, _, h => by cases h
  | .openConn _ k, _, _, h => by cases h
  | .sleep k, _, _, h => by cases h
  | .close _ _ k, _, _, h => by cases h
  | .acquire k, _, _, h => by cases h

/-- An answer to the request leads where it led, followed by `f`. -/
theorem Land.bindE {A : Option Bytes → Gw → Option (Except PyErr α × Gw)} {A' : Option Bytes → Gw → Option (Except PyErr β × Gw)}
    {k : Except PyErr (Option Bytes) → Co α} (h : Land A k) {f : Except PyErr α → Co β}
    (hf : ∀ v g r, A' v g = some r → ∃ q, A v g = some q ∧ (f q.1).runs q.2 = some r) : Land A' (fun o => (k o).bindE f) := by
  intro v g r hr
  obtain ⟨q, h1, h2⟩ := hf v g r hr
  rw [Co.runs_bindE _ _ (h v g q h1), h2]

variable {N : Int → Bytes → (Except PyErr (Option Bytes) → Co α) → Prop}

theorem Co.lands_mono {N' : Int → Bytes → (Except PyErr (Option Bytes) → Co α) → Prop} (hN : ∀ code data k, N code data k → N' code data k) :
    ∀ x : Co α, x.Lands N → x.Lands N'
  | .ret a, _ => trivial
  | .throw e, _ => trivial
  | .get k, h => fun g => lands_mono hN (k g) (h g)
  | .upd u k, h => lands_mono hN k h
  | .request _ _ _ _ k, h => ⟨fun hc => hN _ _ _ (h.1 hc), fun o => lands_mono hN (k o) (h.2 o)⟩
  | .openConn _ k, h => fun o => lands_mono hN (k o) (h o)
  | .sleep k, h => fun o => lands_mono hN (k o) (h o)
  | .close _ _ k, h => fun o => lands_mono hN (k o) (h o)
  | .acquire k, h => fun o => lands_mono hN (k o) (h o)

theorem Co.Hushed.lands {x : Co α} (h : x.Hushed) : x.Lands N := Co.lands_mono (fun _ _ _ h => h.elim) x h

theorem Co.lands_bindE {N' : Int → Bytes → (Except PyErr (Option Bytes) → Co β) → Prop} {f : Except PyErr α → Co β}
    (hN : ∀ code data k, N code data k → N' code data (fun o => (k o).bindE f)) (hf : ∀ o, (f o).Lands N') :
    ∀ x : Co α, x.Lands N → (x.bindE f).Lands N'
  | .ret a, _ => hf _
  | .throw e, _ => hf _
  | .get k, h => fun g => lands_bindE hN hf (k g) (h g)
  | .upd u k, h => lands_bindE hN hf k h
  | .request _ _ _ _ k, h => ⟨fun hc => hN _ _ _ (h.1 hc), fun o => lands_bindE hN hf (k o) (h.2 o)⟩
  | .openConn _ k, h => fun o => lands_bindE hN hf (k o) (h o)
  | .sleep k, h => fun o => lands_bindE hN hf (k o) (h o)
  | .close _ _ k, h => fun o => lands_bindE hN hf (k o) (h o)
  | .acquire k, h => fun o => lands_bindE hN hf (k o) (h o)

theorem Co.lands_hushE {N' : Int → Bytes → (Except PyErr (Option Bytes) → Co β) → Prop} {f : Except PyErr α → Co β} {x : Co α} (hx : x.Hushed)
    (hf : ∀ o, (f o).Lands N') : (x.bindE f).Lands N' := lands_bindE (N := fun _ _ _ => False) (fun _ _ _ h => h.elim) hf x hx

/-- First something hushed. -/
theorem Co.lands_hush {N' : Int → Bytes → (Except PyErr (Option Bytes) → Co β) → Prop} {f : α → Co β} {x : Co α} (hx : x.Hushed)
    (hf : ∀ a, (f a).Lands N') : (x >>= f).Lands N' := by
  refine lands_hushE hx (fun o => ?_)
  cases o with
  | ok a => exact hf a
  | error e => trivial

theorem Co.lands_state {f : Gw → Co α} (hf : ∀ g, (f g).Lands N) : (state >>= f).Lands N := hf
theorem Co.hush_modify (f : Gw → Gw) : (modify f).Hushed := trivial
theorem Co.hush_ofExcept (x : Except PyErr α) : (ofExcept x).Hushed := by cases x <;> trivial
theorem Co.hush_make (c : Nat) {code : Int} (h : code ∈ connectCodes) (data : Bytes) (r : Int) : (makeRequest c code data r).Hushed :=
  ⟨fun hc => hc h, fun o => hush_ofExcept o⟩
theorem Co.hush_pause : pause.Hushed := fun o => hush_ofExcept o
theorem Co.hush_close (c : Nat) (force : Bool) : (closeConn c force).Hushed := fun o => hush_ofExcept o
theorem Co.hush_try {x : Co α} {f : PyErr → Co α} (hx : x.Hushed) (hf : ∀ e, (f e).Hushed) : (tryExcept x f).Hushed := by
  refine lands_hushE hx (fun o => ?_)
  cases o with
  | ok a => trivial
  | error e => exact hf e
theorem Co.hush_lock {x : Co α} (hx : x.Hushed) : (withLock x).Hushed := by
  intro o
  cases o with
  | error e => trivial
  | ok u => exact lands_hushE hx (fun o => hush_ofExcept o)
theorem Co.lands_ite {c : Prop} [Decidable c] {x y : Co α} (hx : x.Lands N) (hy : y.Lands N) : (if c then x else y).Lands N := by
  split
  · exact hx
  · exact hy
theorem Co.hush_when {b : Bool} {x : Co Unit} (hx : x.Hushed) : (whenCo b x).Hushed := lands_ite hx trivial

end

section
variable (E : Env)

open Co

theorem hush_connect (a : ConnectArgs) : (asyncConnect a).Hushed := by
  intro g
  exact lands_ite trivial (fun g => lands_ite trivial (fun o => hush_ofExcept o))

theorem hush_ack {code : Int} (h : code ∈ connectCodes) (payload : Except PyErr Bytes) (c : Nat) (r : Int) : (ackRequest code payload c r).Hushed :=
  lands_hush (hush_ofExcept _) (fun data => lands_hush (hush_make _ h _ _) (fun v => lands_ite trivial trivial))

theorem hush_decode (D : Decoder) (b : Bytes) : (decodeCo E D b).Hushed :=
  lands_state (fun g => lands_hush (hush_modify _) (fun _ => hush_ofExcept _))

theorem hush_query (D : Gw → Decoder) {code : Int} (h : code ∈ connectCodes) (payload : Except PyErr Bytes) (c : Nat) (r : Int) :
    (queryRequest E D code payload c r).Hushed := by
  refine lands_hush (hush_ofExcept _) (fun data => lands_hush (hush_make _ h _ _) (fun v => ?_))
  split
  · exact lands_state (fun g => lands_hush (hush_decode E _ _) (fun _ => trivial))
  · trivial

theorem hush_unsubscribeGateway : unsubscribeGateway.Hushed := by
  refine lands_state (fun g => lands_ite (hush_lock (lands_state (fun g => ?_))) trivial)
  split
  · exact lands_hush (hush_modify _) (fun _ => lands_hush (hush_modify _) (fun _ =>
      lands_hush (hush_modify _) (fun _ => hush_try (hush_ack (by simp [connectCodes]) _ _ _) (fun e => lands_ite trivial trivial))))
  · trivial

theorem hush_disconnect (force : Bool) : (asyncDisconnect force).Hushed := by
  refine lands_state (fun g => lands_hush (hush_when (hush_unsubscribeGateway)) (fun _ => lands_state (fun g => ?_)))
  split
  · exact hush_close _ _
  · trivial

theorem lands_attempt {α : Type} {N : Int → Bytes → (Except PyErr (Option Bytes) → Co α) → Prop} (r : Int) {method : Nat → Int → Co α}
    (hm : ∀ c r, (method c r).Lands N) : (attemptRequest r method).Lands N := by
  refine lands_hush (hush_connect _) (fun ok => lands_ite (lands_state (fun g => ?_)) trivial)
  split
  · exact hm _ _
  · trivial

/-- A managed request: `N` is about the answers that are not communication errors. -/
theorem lands_connected {α : Type} {N N' : Int → Bytes → (Except PyErr (Option Bytes) → Co α) → Prop} {method : Nat → Int → Co α}
    (hm : ∀ c r, (method c r).Lands N) (hN : ∀ code data k (f : PyErr → Co α), (∀ e, e.isComm = false → f e = .throw e) → N code data k →
      N' code data (fun o => (k o).bindE (fun | .ok a => .ret a | .error e => f e)))
    (hm' : ∀ c r, (method c r).Lands N') : (connectedRequest method).Lands N' := by
  refine lands_state (fun g => ?_)
  refine lands_bindE (f := fun | .ok a => .ret a | .error e => if e.isComm then do asyncDisconnect true; pause; attemptRequest g.maxRetries method else .throw e)
    (fun code data k h => hN code data k (fun e => if e.isComm then do asyncDisconnect true; pause; attemptRequest g.maxRetries method else .throw e)
      (fun e he => by simp [he]) h) (fun o => ?_) _ (lands_attempt _ hm)
  cases o with
  | ok a => trivial
  | error e => exact lands_ite (lands_hush (hush_disconnect _) (fun _ => lands_hush hush_pause (fun _ => lands_attempt _ hm'))) trivial

theorem hush_connected {α : Type} {method : Nat → Int → Co α} (hm : ∀ c r, (method c r).Hushed) : (connectedRequest method).Hushed :=
  lands_connected hm (fun _ _ _ _ _ h => h) hm

theorem hush_subscribeGateway : subscribeGateway.Hushed := by
  refine lands_state (fun g => lands_ite (hush_lock (lands_state (fun g => lands_ite trivial ?_))) trivial)
  refine lands_hush (hush_connected (fun c r => hush_ack (by simp [connectCodes]) _ _ _)) (fun _ => lands_hush (hush_modify _) (fun _ => lands_state (fun g => ?_)))
  split
  · exact hush_modify _
  · trivial

theorem hush_registerAll (c : Nat) : ∀ l, (registerAll c l).Hushed
  | [] => trivial
  | (code, _) :: rest => lands_hush (hush_modify _) (fun _ => hush_registerAll c rest)

theorem hush_attach (c : Nat) : (attach c).Hushed :=
  lands_hush (hush_modify _) (fun _ => lands_state (fun g => lands_ite
    (lands_hush (hush_modify _) (fun _ => lands_hush (hush_registerAll c _) (fun _ => hush_subscribeGateway))) trivial))

theorem hush_poll {method : Nat → Int → Co (Option Bytes)} (key : Path) (hm : ∀ c r, (method c r).Hushed) : (poll key method).Hushed := by
  refine lands_hush (hush_connected hm) (fun raw => ?_)
  split
  · exact hush_modify _
  · trivial

theorem hush_afterOpen (r : Int) (c : Nat) : (afterOpen E r c).Hushed := by
  refine lands_hush ?_ (fun mac => ?_)
  · refine lands_hush ?_ (fun mac => lands_hush (hush_ofExcept _) (fun msg => lands_hush (hush_make _ (by simp [connectCodes]) _ _) (fun r => ?_)))
    · refine lands_hush (hush_modify _) (fun _ => lands_hush hush_pause (fun _ => lands_state (fun g => lands_ite
        (lands_hush (hush_make _ (by simp [connectCodes]) _ _) (fun r => ?_)) trivial)))
      split
      · exact hush_ofExcept _
      · trivial
    · split <;> trivial
  · split
    · trivial
    · refine lands_hush (hush_modify _) (fun _ => lands_hush ?_ (fun _ => lands_state (fun g => lands_ite ?_ trivial)))
      · exact lands_state (fun g => lands_hush (hush_query E _ (by simp [connectCodes]) _ _ _) (fun _ => hush_modify _))
      · refine lands_hush (hush_poll _ (fun c r => hush_query E _ (by simp [connectCodes]) _ _ _)) (fun _ => lands_state (fun g => ?_))
        split
        · exact lands_hush (hush_attach _) (fun _ => trivial)
        · trivial

end

/-! ## Over a history -/

/-- The same for the rest of a task that has done `h`. -/
def Task.LandsAt (N : Int → Bytes → (Except PyErr (Option Bytes) → Co Res) → Prop) (h : List Act) : Task → Prop
  | .request c _ k => (∃ h0 code data, h = h0 ++ [.ask c code data] ∧ (code ∉ connectCodes → N code data k)) ∧ ∀ o, (k o).Lands N
  | .opening _ k => ∀ o, (k o).Lands N
  | .sleeping k => ∀ o, (k o).Lands N
  | .closing _ _ k => ∀ o, (k o).Lands N
  | .locked k => ∀ o, (k o).Lands N
  | .done _ => True

theorem settle_lands {N : Int → Bytes → (Except PyErr (Option Bytes) → Co Res) → Prop} (t : Nat) :
    ∀ (co : Co Res) (g : Gw), co.Lands N → (settle t co g).1.LandsAt N ((settle t co g).2.acts t)
  | .ret a, g, h => trivial
  | .throw e, g, h => trivial
  | .get k, g, h => settle_lands t (k g) g (h g)
  | .upd f k, g, h => settle_lands t k _ h
  | .request c code data r k, g, h => by
    simp only [settle]
    split
    · exact settle_lands t _ _ (h.2 _)
    · exact ⟨⟨_, code, data, acts_ask_same g t c code data r, h.1⟩, h.2⟩
  | .openConn r k, g, h => h
  | .sleep k, g, h => h
  | .close c force k, g, h => by
    simp only [settle]
    split
    · exact settle_lands t _ _ (h _)
    · exact h
  | .acquire k, g, h => by
    simp only [settle]
    split
    · exact settle_lands t _ _ (h _)
    · exact h

theorem lands_step (E : Env) {N : Int → Bytes → (Except PyErr (Option Bytes) → Co Res) → Prop} {s : Sys} {t : Nat} {x : Task} (hx : s.tasks[t]? = some x)
    (hl : x.LandsAt N (s.g.acts t)) (ev : Ev) : ∃ y, (s.step E ev).tasks[t]? = some y ∧ y.LandsAt N ((s.step E ev).g.acts t) := by
  have ht : t < s.tasks.length := (List.getElem?_eq_some_iff.1 hx).1
  have same : s.step E ev = s → ∃ y, (s.step E ev).tasks[t]? = some y ∧ y.LandsAt N ((s.step E ev).g.acts t) := by
    intro e; rw [e]; exact ⟨x, hx, hl⟩
  have put : ∀ co g0, s.step E ev = s.put t (settle t co g0) → co.Lands N → ∃ y, (s.step E ev).tasks[t]? = some y ∧ y.LandsAt N ((s.step E ev).g.acts t) := by
    intro co g0 e hc
    rw [e]
    exact ⟨_, put_task hx _, settle_lands t co g0 hc⟩
  cases ho : ev.own t with
  | false =>
    have := step_other_task E s ev ht ho
    exact ⟨x, this.1.trans hx, by rw [this.2]; exact hl⟩
  | true =>
    have ev_eq : (∃ ok, ev = .opened t ok) ∨ ev = .resume t ∨ ev = .cancel t := by
      cases ev <;> simp_all [Ev.own]
    cases x with
    | done r => exact same (by rcases ev_eq with ⟨ok, rfl⟩ | rfl | rfl <;> simp only [Sys.step, hx])
    | request c i k =>
      rcases ev_eq with ⟨ok, rfl⟩ | rfl | rfl
      · exact same (by simp only [Sys.step, hx])
      · cases h : s.g.outcome c i with
        | none => exact same (by simp only [Sys.step, hx, h])
        | some o => exact put (k o) (s.g.note t (.got o)) (by simp only [Sys.step, hx, h]) (hl.2 o)
      · exact same (by simp only [Sys.step, hx])
    | opening r k =>
      rcases ev_eq with ⟨ok, rfl⟩ | rfl | rfl
      · cases ok with
        | false => exact put (k (.error .slConnection)) s.g (by simp only [Sys.step, hx, Bool.false_eq_true, if_false]) (hl _)
        | true => exact put ((afterOpen E r s.g.conns.length).bindE k) s.g.addConn (by simp only [Sys.step, hx, if_true]) (Co.lands_hushE (hush_afterOpen E r _) hl)
      · exact same (by simp only [Sys.step, hx])
      · exact put (k (.error .cancelled)) s.g (by simp only [Sys.step, hx]) (hl _)
    | sleeping k =>
      rcases ev_eq with ⟨ok, rfl⟩ | rfl | rfl
      · exact same (by simp only [Sys.step, hx])
      · exact put (k (.ok ())) s.g (by simp only [Sys.step, hx]) (hl _)
      · exact put (k (.error .cancelled)) s.g (by simp only [Sys.step, hx]) (hl _)
    | closing c i k =>
      rcases ev_eq with ⟨ok, rfl⟩ | rfl | rfl
      · exact same (by simp only [Sys.step, hx])
      · by_cases h : s.g.closeEnded c i = true
        · exact put (k (s.g.closeResult c i)) s.g (by simp only [Sys.step, hx, h, if_true]) (hl _)
        · exact same (by simp only [Sys.step, hx, h]; rfl)
      · exact same (by simp only [Sys.step, hx])
    | locked k =>
      rcases ev_eq with ⟨ok, rfl⟩ | rfl | rfl
      · exact same (by simp only [Sys.step, hx])
      · by_cases h : s.g.lock = none ∧ s.g.waiters.head? = some t
        · exact put (k (.ok ())) ((s.g.setWaiters s.g.waiters.tail).take t) (by simp only [Sys.step, hx]; rw [if_pos h]) (hl _)
        · exact same (by simp only [Sys.step, hx]; rw [if_neg h])
      · exact put (k (.error .cancelled)) (s.g.setWaiters (s.g.waiters.filter (· ≠ t))) (by simp only [Sys.step, hx]) (hl _)

theorem lands_run (E : Env) {N : Int → Bytes → (Except PyErr (Option Bytes) → Co Res) → Prop} {t : Nat} : ∀ (es : List Ev) {s : Sys} {x : Task},
    s.tasks[t]? = some x → x.LandsAt N (s.g.acts t) → ∃ y, (s.run E es).tasks[t]? = some y ∧ y.LandsAt N ((s.run E es).g.acts t)
  | [], _, x, hx, hl => ⟨x, hx, hl⟩
  | ev :: es, s, x, hx, hl => by
    obtain ⟨y, h1, h2⟩ := lands_step E hx hl ev
    exact lands_run E es h1 h2

end SL
