import Verif.Lemmas.Wired
/-!
# A cancelled call gives up

`Co.Frail x` : wherever the coroutine `x` waits, a `CancelledError` raised there ends it: it only releases the lock, if it
holds it.
-/
set_option linter.unusedVariables false

namespace SL

open Co (state modify makeRequest pause closeConn withLock tryExcept ofExcept)

/-- The coroutine ends with `CancelledError`, and does nothing but release the lock. -/
def Co.Dies {α : Type} : Co α → Prop
  | .throw e => e = .cancelled
  | .upd f k => f = Gw.release ∧ k.Dies
  | _ => False

/-- A `CancelledError` anywhere ends the coroutine. -/
def Co.Frail {α : Type} : Co α → Prop
  | .ret _ => True
  | .throw _ => True
  | .get k => ∀ g, (k g).Frail
  | .upd _ k => k.Frail
  | .request _ _ _ _ k => (k (.error .cancelled)).Dies ∧ ∀ o, (k o).Frail
  | .openConn _ k => (k (.error .cancelled)).Dies ∧ ∀ o, (k o).Frail
  | .sleep k => (k (.error .cancelled)).Dies ∧ ∀ o, (k o).Frail
  | .close _ _ k => (k (.error .cancelled)).Dies ∧ ∀ o, (k o).Frail
  | .acquire k => (k (.error .cancelled)).Dies ∧ ∀ o, (k o).Frail

section
variable {α β : Type}

theorem Co.dies_bindE {f : Except PyErr α → Co β} (hf : (f (.error .cancelled)).Dies) : ∀ x : Co α, x.Dies → (x.bindE f).Dies
  | .throw e, h => by cases h; exact hf
  | .upd u k, h => ⟨h.1, dies_bindE hf k h.2⟩
  | .ret a, h => h.elim
  | .get k, h => h.elim
  | .request _ _ _ _ k, h => h.elim
  | .openConn _ k, h => h.elim
  | .sleep k, h => h.elim
  | .close _ _ k, h => h.elim
  | .acquire k, h => h.elim

theorem Co.frail_bindE {f : Except PyErr α → Co β} (hd : (f (.error .cancelled)).Dies) (hf : ∀ o, (f o).Frail) :
    ∀ x : Co α, x.Frail → (x.bindE f).Frail
  | .ret a, _ => hf _
  | .throw e, _ => hf _
  | .get k, h => fun g => frail_bindE hd hf (k g) (h g)
  | .upd u k, h => frail_bindE hd hf k h
  | .request _ _ _ _ k, h => ⟨dies_bindE hd _ h.1, fun o => frail_bindE hd hf (k o) (h.2 o)⟩
  | .openConn _ k, h => ⟨dies_bindE hd _ h.1, fun o => frail_bindE hd hf (k o) (h.2 o)⟩
  | .sleep k, h => ⟨dies_bindE hd _ h.1, fun o => frail_bindE hd hf (k o) (h.2 o)⟩
  | .close _ _ k, h => ⟨dies_bindE hd _ h.1, fun o => frail_bindE hd hf (k o) (h.2 o)⟩
  | .acquire k, h => ⟨dies_bindE hd _ h.1, fun o => frail_bindE hd hf (k o) (h.2 o)⟩

theorem Co.frail_bind {x : Co α} {f : α → Co β} (hx : x.Frail) (hf : ∀ a, (f a).Frail) : (x >>= f).Frail := by
  refine frail_bindE (f := fun o => match o with | .ok a => f a | .error e => .throw e) rfl ?_ x hx
  intro o
  cases o with
  | ok a => exact hf a
  | error e => trivial

theorem Co.frail_state {f : Gw → Co α} (hf : ∀ g, (f g).Frail) : (state >>= f).Frail := hf
theorem Co.frail_modify (f : Gw → Gw) : (modify f).Frail := trivial
theorem Co.frail_ofExcept (x : Except PyErr α) : (ofExcept x).Frail := by cases x <;> trivial
theorem Co.frail_make (c : Nat) (code : Int) (data : Bytes) (r : Int) : (makeRequest c code data r).Frail := ⟨rfl, fun o => frail_ofExcept o⟩
theorem Co.frail_pause : pause.Frail := ⟨rfl, fun o => frail_ofExcept o⟩
theorem Co.frail_close (c : Nat) (force : Bool) : (closeConn c force).Frail := ⟨rfl, fun o => frail_ofExcept o⟩
theorem Co.frail_try {x : Co α} {f : PyErr → Co α} (hx : x.Frail) (hf : ∀ e, (f e).Frail) (hd : f .cancelled = .throw .cancelled) :
    (tryExcept x f).Frail := by
  refine frail_bindE (f := fun o => match o with | .ok a => .ret a | .error e => f e) ?_ ?_ x hx
  · show (f .cancelled).Dies
    rw [hd]; exact rfl
  · intro o
    cases o with
    | ok a => trivial
    | error e => exact hf e
theorem Co.frail_lock {x : Co α} (hx : x.Frail) : (withLock x).Frail := by
  refine ⟨rfl, fun o => ?_⟩
  cases o with
  | error e => trivial
  | ok u => exact frail_bindE (f := fun r => .upd Gw.release (ofExcept r)) ⟨rfl, rfl⟩ (fun o => frail_ofExcept o) x hx
theorem Co.frail_ite {c : Prop} [Decidable c] {x y : Co α} (hx : x.Frail) (hy : y.Frail) : (if c then x else y).Frail := by
  split
  · exact hx
  · exact hy
theorem Co.frail_when {b : Bool} {x : Co Unit} (hx : x.Frail) : (whenCo b x).Frail := frail_ite hx trivial

end

section
variable (E : Env)

open Co

theorem frail_connect (a : ConnectArgs) : (asyncConnect a).Frail := by
  intro g
  exact frail_ite trivial (fun g => frail_ite trivial ⟨rfl, fun o => frail_ofExcept o⟩)

theorem frail_ack (code : Int) (payload : Except PyErr Bytes) (c : Nat) (r : Int) : (ackRequest code payload c r).Frail :=
  frail_bind (frail_ofExcept _) (fun data => frail_bind (frail_make _ _ _ _) (fun v => frail_ite trivial trivial))

theorem frail_decode (D : Decoder) (b : Bytes) : (decodeCo E D b).Frail :=
  frail_state (fun g => frail_bind (frail_modify _) (fun _ => frail_ofExcept _))

theorem frail_query (D : Gw → Decoder) (code : Int) (payload : Except PyErr Bytes) (c : Nat) (r : Int) :
    (queryRequest E D code payload c r).Frail := by
  refine frail_bind (frail_ofExcept _) (fun data => frail_bind (frail_make _ _ _ _) (fun v => ?_))
  split
  · exact frail_state (fun g => frail_bind (frail_decode E _ _) (fun _ => trivial))
  · trivial

theorem frail_unsubscribeGateway : unsubscribeGateway.Frail := by
  refine frail_state (fun g => frail_ite (frail_lock (frail_state (fun g => ?_))) trivial)
  split
  · exact frail_bind (frail_modify _) (fun _ => frail_bind (frail_modify _) (fun _ =>
      frail_bind (frail_modify _) (fun _ => frail_try (frail_ack _ _ _ _) (fun e => frail_ite trivial trivial) rfl)))
  · trivial

theorem frail_disconnect (force : Bool) : (asyncDisconnect force).Frail := by
  refine frail_state (fun g => frail_bind (frail_when (frail_unsubscribeGateway)) (fun _ => frail_state (fun g => ?_)))
  split
  · exact frail_close _ _
  · trivial

theorem frail_attempt {α : Type} (r : Int) {method : Nat → Int → Co α} (hm : ∀ c r, (method c r).Frail) :
    (attemptRequest r method).Frail := by
  refine frail_bind (frail_connect _) (fun ok => frail_ite (frail_state (fun g => ?_)) trivial)
  split
  · exact hm _ _
  · trivial

theorem frail_connected {α : Type} {method : Nat → Int → Co α} (hm : ∀ c r, (method c r).Frail) :
    (connectedRequest method).Frail :=
  frail_state (fun g => frail_try (frail_attempt _ hm) (fun e => frail_ite
    (frail_bind (frail_disconnect _) (fun _ => frail_bind frail_pause (fun _ => frail_attempt _ hm))) trivial) rfl)

theorem frail_subscribeGateway : subscribeGateway.Frail := by
  refine frail_state (fun g => frail_ite (frail_lock (frail_state (fun g => frail_ite trivial ?_))) trivial)
  refine frail_bind (frail_connected (fun c r => frail_ack _ _ _ _)) (fun _ => frail_bind (frail_modify _) (fun _ => frail_state (fun g => ?_)))
  split
  · exact frail_modify _
  · trivial

theorem frail_registerAll (c : Nat) : ∀ l, (registerAll c l).Frail
  | [] => trivial
  | (code, _) :: rest => frail_bind (frail_modify _) (fun _ => frail_registerAll c rest)

theorem frail_attach (c : Nat) : (attach c).Frail :=
  frail_bind (frail_modify _) (fun _ => frail_state (fun g => frail_ite
    (frail_bind (frail_modify _) (fun _ => frail_bind (frail_registerAll c _) (fun _ => frail_subscribeGateway))) trivial))

theorem frail_poll {method : Nat → Int → Co (Option Bytes)} (key : Path) (hm : ∀ c r, (method c r).Frail) : (poll key method).Frail := by
  refine frail_bind (frail_connected hm) (fun raw => ?_)
  split
  · exact frail_modify _
  · trivial

theorem frail_requestPump (j : Int) (c : Nat) (r : Int) : (requestPump E j c r).Frail :=
  frail_query E (fun _ => .pump j) 12584 (packObjs [.int 0, .int j]) c r

theorem frail_getPump (i : Nat) : (getPump E i).Frail := by
  have q : ∀ c r, (requestPump E i c r).Frail := by
    generalize (i : Int) = j
    exact frail_requestPump E j
  simp only [getPump]
  generalize requestPump E i = m at q
  refine frail_state (fun g => frail_bind (frail_ofExcept _) (fun f => ?_))
  split
  · exact frail_bind (frail_modify _) (fun _ => frail_poll _ q)
  · trivial

theorem frail_getPumpsFrom : ∀ n i, (getPumpsFrom E n i).Frail
  | 0, _ => trivial
  | n + 1, i => frail_bind (frail_getPump E i) (fun _ => frail_getPumpsFrom n (i + 1))

theorem frail_update : (asyncUpdate E).Frail := by
  have q : ∀ (D : Gw → Decoder) code payload, ∀ c r, (queryRequest E D code payload c r).Frail := fun D code payload c r => frail_query E D _ _ _ _
  exact frail_state (fun g => frail_ite (frail_bind (frail_poll _ (q _ _ _)) (fun _ => frail_bind (frail_getPumpsFrom E 8 0) (fun _ =>
    frail_bind (frail_poll _ (q _ _ _)) (fun _ => frail_bind (frail_poll _ (q _ _ _)) (fun _ => frail_poll _ (q _ _ _)))))) trivial)

theorem frail_require (b : Except PyErr Bool) : (require b).Frail := by
  cases b with
  | error e => trivial
  | ok b => cases b <;> trivial

theorem frail_subscribe (cb code : Nat) : (subscribe cb code).Frail := by
  refine frail_state (fun g => ?_)
  split
  · exact frail_bind (frail_modify _) (fun _ => frail_bind (frail_modify _) (fun _ => frail_state (fun g' =>
      frail_bind (frail_when frail_subscribeGateway) (fun _ => trivial))))
  · trivial

/-- Every API call. -/
theorem frail_call (a : Call) : (a.co E).Frail := by
  have q : ∀ (D : Gw → Decoder) code payload, ∀ c r, (queryRequest E D code payload c r).Frail := fun D code payload c r => frail_query E D _ _ _ _
  have k : ∀ code payload, ∀ c r, (ackRequest code payload c r).Frail := fun code payload c r => frail_ack _ _ _ _
  have rq := frail_require
  cases a with
  | connect x => exact frail_bind (frail_connect x) (fun _ => trivial)
  | disconnect force => exact frail_bind (frail_disconnect force) (fun _ => trivial)
  | update => exact frail_bind (frail_update E) (fun _ => trivial)
  | getConfig => exact frail_bind (frail_poll _ (q _ _ _)) (fun _ => trivial)
  | getStatus => exact frail_bind (frail_poll _ (q _ _ _)) (fun _ => trivial)
  | getPumps => exact frail_bind (frail_getPumpsFrom E 8 0) (fun _ => trivial)
  | getChemistry => exact frail_bind (frail_poll _ (q _ _ _)) (fun _ => trivial)
  | getScg => exact frail_bind (frail_poll _ (q _ _ _)) (fun _ => trivial)
  | getDatetime => exact frail_bind (frail_poll _ (q _ _ _)) (fun _ => trivial)
  | setCircuit x y =>
    exact frail_bind (frail_state (fun g => frail_bind (rq _) (fun _ => frail_bind (rq _) (fun _ => frail_connected (k _ _))))) (fun _ => trivial)
  | setHeatTemp x y =>
    exact frail_bind (frail_state (fun g => frail_bind (rq _) (fun _ => frail_bind (rq _) (fun _ => frail_connected (k _ _))))) (fun _ => trivial)
  | setHeatMode x y =>
    exact frail_bind (frail_state (fun g => frail_bind (rq _) (fun _ => frail_bind (rq _) (fun _ => frail_connected (k _ _))))) (fun _ => trivial)
  | setColorLights x => exact frail_bind (frail_bind (rq _) (fun _ => frail_connected (k _ _))) (fun _ => trivial)
  | setScg x y z w =>
    exact frail_bind (frail_state (fun g => frail_bind (frail_ofExcept _) (fun _ => frail_connected (k _ _)))) (fun _ => trivial)
  | setChem x y z w u v =>
    exact frail_bind (frail_state (fun g => frail_bind (frail_ofExcept _) (fun _ => frail_bind (frail_ofExcept _) (fun _ => frail_connected (k _ _))))) (fun _ => trivial)
  | setDateTime x y =>
    exact frail_bind (frail_ite trivial (frail_state (fun g => frail_bind (frail_ofExcept _) (fun _ => frail_bind (frail_ofExcept _) (fun _ => frail_connected (k _ _)))))) (fun _ => trivial)
  | subscribe cb code => exact frail_bind (frail_subscribe cb code) (fun _ => trivial)
  | send code data => exact frail_bind (frail_connected (fun c r => frail_make _ _ _ _)) (fun _ => trivial)

theorem frail_ping : pingCo.Frail := by
  refine frail_bind (frail_state (fun g => ?_)) (fun _ => trivial)
  split
  · exact frail_try (frail_ack _ _ _ _) (fun e => frail_ite trivial trivial) rfl
  · trivial

theorem frail_unsub : unsubCo.Frail := frail_bind (frail_unsubscribeGateway) (fun _ => trivial)

theorem frail_afterOpen (r : Int) (c : Nat) : (afterOpen E r c).Frail := by
  refine frail_bind ?_ (fun mac => ?_)
  · refine frail_bind ?_ (fun mac => frail_bind (frail_ofExcept _) (fun msg => frail_bind (frail_make _ _ _ _) (fun r => ?_)))
    · refine frail_bind (frail_modify _) (fun _ => frail_bind frail_pause (fun _ => frail_state (fun g => frail_ite
        (frail_bind (frail_make _ _ _ _) (fun r => ?_)) trivial)))
      split
      · exact frail_ofExcept _
      · trivial
    · split <;> trivial
  · split
    · trivial
    · refine frail_bind (frail_modify _) (fun _ => frail_bind ?_ (fun _ => frail_state (fun g => frail_ite ?_ trivial)))
      · exact frail_state (fun g => frail_bind (frail_query E _ _ _ _ _) (fun _ => frail_modify _))
      · refine frail_bind (frail_poll _ (fun c r => frail_query E _ _ _ _ _)) (fun _ => frail_state (fun g => ?_))
        split
        · exact frail_bind (frail_attach _) (fun _ => trivial)
        · trivial

end

/-! ## Over a history -/

/-- The same for the rest of a task. -/
def Task.Frail : Task → Prop
  | .request _ _ k => (k (.error .cancelled)).Dies ∧ ∀ o, (k o).Frail
  | .opening _ k => (k (.error .cancelled)).Dies ∧ ∀ o, (k o).Frail
  | .sleeping k => (k (.error .cancelled)).Dies ∧ ∀ o, (k o).Frail
  | .closing _ _ k => (k (.error .cancelled)).Dies ∧ ∀ o, (k o).Frail
  | .locked k => (k (.error .cancelled)).Dies ∧ ∀ o, (k o).Frail
  | .done _ => True

theorem settle_frail (t : Nat) : ∀ (co : Co Res) (g : Gw), co.Frail → (settle t co g).1.Frail
  | .ret a, g, h => trivial
  | .throw e, g, h => trivial
  | .get k, g, h => settle_frail t (k g) g (h g)
  | .upd f k, g, h => settle_frail t k _ h
  | .request c code data r k, g, h => by
    simp only [settle]
    split
    · exact settle_frail t _ _ (h.2 _)
    · exact h
  | .openConn r k, g, h => h
  | .sleep k, g, h => h
  | .close c force k, g, h => by
    simp only [settle]
    split
    · exact settle_frail t _ _ (h.2 _)
    · exact h
  | .acquire k, g, h => by
    simp only [settle]
    split
    · exact settle_frail t _ _ (h.2 _)
    · exact h

/-- A coroutine that gives up ends its task; all that changes is the lock. -/
theorem settle_dies (t : Nat) : ∀ (co : Co Res) (g : Gw), co.Dies →
    (settle t co g).1 = .done (.error .cancelled) ∧ ((settle t co g).2 = g ∨ (settle t co g).2 = g.release)
  | .throw e, g, h => by cases h; exact ⟨rfl, .inl rfl⟩
  | .upd f k, g, h => by
    obtain ⟨rfl, hk⟩ := h
    have := settle_dies t k (g.apply Gw.release) hk
    refine ⟨this.1, .inr ?_⟩
    rcases this.2 with e | e
    · exact e
    · exact e
  | .ret a, g, h => h.elim
  | .get k, g, h => h.elim
  | .request _ _ _ _ k, g, h => h.elim
  | .openConn _ k, g, h => h.elim
  | .sleep k, g, h => h.elim
  | .close _ _ k, g, h => h.elim
  | .acquire k, g, h => h.elim

theorem step_frail (E : Env) (s : Sys) (ev : Ev) (h : ∀ (t : Nat) (x : Task), s.tasks[t]? = some x → x.Frail) :
    ∀ (t : Nat) (x : Task), (s.step E ev).tasks[t]? = some x → x.Frail := by
  have put : ∀ (t : Nat) (co : Co Res) (g : Gw), co.Frail → ∀ (t' : Nat) (x : Task), (s.put t (settle t co g)).tasks[t']? = some x → x.Frail := by
    intro t co g hc t' x hx
    simp only [Sys.put, List.getElem?_set] at hx
    split at hx
    · split at hx
      · cases hx; exact settle_frail t co g hc
      · cases hx
    · exact h t' x hx
  have spawn : ∀ (g : Gw) (co : Co Res), co.Frail → ∀ (t' : Nat) (x : Task), (Sys.spawn { s with g := g } co).tasks[t']? = some x → x.Frail := by
    intro g co hc t' x hx
    simp only [Sys.spawn, List.getElem?_append] at hx
    split at hx
    · exact h t' x hx
    · rw [List.getElem?_singleton] at hx
      split at hx
      · cases hx; exact settle_frail _ co _ hc
      · cases hx
  cases ev with
  | call a => exact spawn s.g _ (frail_call E a)
  | opened t ok =>
    simp only [Sys.step]
    split
    · rename_i r k hk
      have hf := h t _ hk
      split
      · exact put t _ _ (Co.frail_bindE hf.1 hf.2 _ (frail_afterOpen E r _))
      · exact put t _ _ (hf.2 _)
    · exact h
  | resume t =>
    simp only [Sys.step]
    split
    · rename_i c r k hk
      split
      · exact put t _ _ ((h t _ hk).2 _)
      · exact h
    · rename_i k hk; exact put t _ _ ((h t _ hk).2 _)
    · rename_i c i k hk
      split
      · exact put t _ _ ((h t _ hk).2 _)
      · exact h
    · rename_i k hk
      split
      · exact put t _ _ ((h t _ hk).2 _)
      · exact h
    · exact h
  | cancel t =>
    simp only [Sys.step]
    split
    · rename_i r k hk; exact put t _ _ ((h t _ hk).2 _)
    · rename_i k hk; exact put t _ _ ((h t _ hk).2 _)
    · rename_i k hk; exact put t _ _ ((h t _ hk).2 _)
    · exact h
  | ping c =>
    simp only [Sys.step]
    split
    · split
      · exact spawn _ _ frail_ping
      · exact h
    · exact h
  | runUnsub =>
    simp only [Sys.step]
    split
    · exact spawn _ _ frail_unsub
    · exact h
  | setMaxRetries n => exact h
  | unsubscribe u => exact h
  | registerHandler code k => simp only [Sys.step]; split <;> exact h
  | removeHandler code => simp only [Sys.step]; split <;> exact h
  | net c e => simp only [Sys.step]; split <;> exact h
  | handle c => exact h
  | tick now => exact h

theorem next_frail {E : Env} {s : Sys} (h : ∀ (t : Nat) (x : Task), s.tasks[t]? = some x → x.Frail) {t : Nat} {co : Co Res}
    (hn : s.Next E t co) : co.Frail := by
  cases hn with
  | opened hk => exact Co.frail_bindE (h t _ hk).1 (h t _ hk).2 _ (frail_afterOpen E _ _)
  | opening hk => exact (h t _ hk).2 _
  | request hk => exact (h t _ hk).2 _
  | sleeping hk => exact (h t _ hk).2 _
  | closing hk => exact (h t _ hk).2 _
  | locked hk => exact (h t _ hk).2 _

theorem spawned_frail {E : Env} {g g0 : Gw} {ev : Ev} {co : Co Res} (h : Spawned E g ev co g0) : co.Frail := by
  cases h with
  | call a => exact frail_call E a
  | ping c => exact frail_ping
  | unsub h => exact frail_unsub

theorem after_frail (E : Env) (clientId maxRetries : Int) (es : List Ev) {t : Nat} {x : Task}
    (h : (after E clientId maxRetries es).tasks[t]? = some x) : x.Frail := by
  have key : ∀ (es : List Ev) (s : Sys), (∀ (t : Nat) (x : Task), s.tasks[t]? = some x → x.Frail) → ∀ (t : Nat) (x : Task), (s.run E es).tasks[t]? = some x → x.Frail := by
    intro es
    induction es with
    | nil => exact fun s h => h
    | cons e es ih => exact fun s h => ih _ (step_frail E s e h)
  exact key es _ (by intro t x hx; simp [Sys.init] at hx) t x h

end SL
