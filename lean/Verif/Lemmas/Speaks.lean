import Verif.Lemmas.Shy
import Verif.Lemmas.Setters
import Verif.Lemmas.Requests
/-!
# What the tasks send

`Co.Speaks P id` : every request the coroutine can ever make, on a gateway with client id `id`, satisfies `P`.
-/
set_option linter.unusedVariables false

namespace SL

open Co (state modify makeRequest pause closeConn withLock tryExcept ofExcept)

/-- Every connection has a history in which only requests satisfying `P` were made. -/
def ConnsSay (P : Int → Bytes → Prop) (l : List Conn) : Prop :=
  ∀ x ∈ l, ∃ es, x.w = World.init.run es ∧ ∀ code data r, Event.call code data r ∈ es → P code data

/-- A change of the state that makes no request and leaves the client id alone. -/
def Mute (f : Gw → Gw) : Prop := ∀ g, (f g).clientId = g.clientId ∧ ∀ P, ConnsSay P g.conns → ConnsSay P (f g).conns

theorem connsSay_modify {P : Int → Bytes → Prop} {l : List Conn} (h : ConnsSay P l) (c : Nat) (f : Conn → Conn)
    (hf : ∀ x : Conn, (∃ es, x.w = World.init.run es ∧ ∀ code data r, Event.call code data r ∈ es → P code data) →
      ∃ es, (f x).w = World.init.run es ∧ ∀ code data r, Event.call code data r ∈ es → P code data) : ConnsSay P (l.modify c f) := by
  intro x hx
  obtain ⟨i, hi⟩ := List.getElem?_of_mem hx
  rw [List.getElem?_modify] at hi
  cases hy : l[i]? with
  | none => simp [hy] at hi
  | some y =>
    have hm := h y (List.mem_of_getElem? hy)
    simp only [hy, Option.map_eq_map, Option.map_some, Option.some.injEq] at hi
    subst hi
    split
    · exact hf y hm
    · exact hm

theorem connsSay_net {P : Int → Bytes → Prop} {g : Gw} (h : ConnsSay P g.conns) (c : Nat) (e : Event)
    (he : ∀ code data r, e = .call code data r → P code data) : ConnsSay P (g.net c e).conns := by
  refine connsSay_modify h c _ (fun x ⟨es, hx, hc⟩ => ⟨es ++ [e], by rw [world_run_append, ← hx]; rfl, ?_⟩)
  intro code data r hm
  rcases List.mem_append.1 hm with hm | hm
  · exact hc code data r hm
  · exact he code data r (List.mem_singleton.1 hm).symm

theorem connsSay_mono {P P' : Int → Bytes → Prop} (hP : ∀ code data, P code data → P' code data) {l : List Conn} (h : ConnsSay P l) : ConnsSay P' l := by
  intro x hx
  obtain ⟨es, h1, h2⟩ := h x hx
  exact ⟨es, h1, fun code data r hm => hP _ _ (h2 code data r hm)⟩

theorem mute_same {f : Gw → Gw} (h1 : ∀ g, (f g).clientId = g.clientId) (h2 : ∀ g, (f g).conns = g.conns) : Mute f :=
  fun g => ⟨h1 g, fun P h => by rw [h2 g]; exact h⟩

theorem mute_net (c : Nat) (e : Event) (he : ∀ code data r, e ≠ .call code data r) : Mute (·.net c e) :=
  fun g => ⟨rfl, fun P h => connsSay_net h c e (fun code data r h' => absurd h' (he code data r))⟩

/-- The state: the client id, and the requests made so far. -/
structure GwSays (P : Int → Bytes → Prop) (id : Int) (g : Gw) : Prop where
  id : g.clientId = id
  conns : ConnsSay P g.conns
  log : ∀ t c code data, (t, Act.ask c code data) ∈ g.log → P code data

theorem GwSays.mono {P P' : Int → Bytes → Prop} {id : Int} (hP : ∀ code data, P code data → P' code data) {g : Gw} (h : GwSays P id g) : GwSays P' id g :=
  ⟨h.id, connsSay_mono hP h.conns, fun t c code data hm => hP _ _ (h.log t c code data hm)⟩

theorem GwSays.mute {P : Int → Bytes → Prop} {id : Int} {g g' : Gw} (h : GwSays P id g) (h1 : g'.clientId = g.clientId)
    (h2 : ConnsSay P g'.conns) (h3 : g'.log = g.log) : GwSays P id g' :=
  ⟨h1.trans h.id, h2, by rw [h3]; exact h.log⟩

theorem GwSays.same {P : Int → Bytes → Prop} {id : Int} {g g' : Gw} (h : GwSays P id g) (h1 : g'.clientId = g.clientId)
    (h2 : g'.conns = g.conns) (h3 : g'.log = g.log) : GwSays P id g' := h.mute h1 (by rw [h2]; exact h.conns) h3

theorem GwSays.upd {P : Int → Bytes → Prop} {id : Int} {g : Gw} (h : GwSays P id g) {f : Gw → Gw} (hf : Mute f) : GwSays P id (g.apply f) :=
  h.mute (hf g).1 ((hf g).2 P h.conns) rfl

theorem GwSays.net {P : Int → Bytes → Prop} {id : Int} {g : Gw} (h : GwSays P id g) (c : Nat) (e : Event)
    (he : ∀ code data r, e = .call code data r → P code data) : GwSays P id (g.net c e) :=
  h.mute rfl (connsSay_net h.conns c e he) rfl

theorem GwSays.note {P : Int → Bytes → Prop} {id : Int} {g : Gw} (h : GwSays P id g) (t : Nat) (a : Act)
    (ha : ∀ c code data, a = .ask c code data → P code data) : GwSays P id (g.note t a) := by
  refine ⟨h.id, h.conns, ?_⟩
  intro t' c code data hm
  rcases List.mem_append.1 hm with hm | hm
  · exact h.log t' c code data hm
  · have := List.mem_singleton.1 hm
    simp only [Prod.mk.injEq] at this
    exact ha c code data this.2.symm

theorem GwSays.ask {P : Int → Bytes → Prop} {id : Int} {g : Gw} (h : GwSays P id g) (t c : Nat) (code : Int) (data : Bytes) (r : Int)
    (hp : P code data) : GwSays P id (g.ask t c code data r).2 := by
  refine ((h.net c _ ?_).net c _ ?_).note t _ ?_
  · intro _ _ _ e; cases e; exact hp
  · intro _ _ _ e; cases e
  · intro _ _ _ e; cases e; exact hp

theorem GwSays.close {P : Int → Bytes → Prop} {id : Int} {g : Gw} (h : GwSays P id g) (t c : Nat) (force : Bool) :
    GwSays P id (g.startClose t c force).2 := by
  refine ((h.net c _ ?_).net c _ ?_).note t _ ?_
  · intro _ _ _ e; cases e
  · intro _ _ _ e; cases e
  · intro _ _ _ e; cases e

/-- Every request the coroutine can make satisfies `P`, if the gateway's client id is `id`. -/
def Co.Speaks {α : Type} (P : Int → Bytes → Prop) (id : Int) : Co α → Prop
  | .ret _ => True
  | .throw _ => True
  | .get k => ∀ g, g.clientId = id → (k g).Speaks P id
  | .upd f k => Mute f ∧ k.Speaks P id
  | .request _ code data _ k => P code data ∧ ∀ o, (k o).Speaks P id
  | .openConn _ k => ∀ o, (k o).Speaks P id
  | .sleep k => ∀ o, (k o).Speaks P id
  | .close _ _ k => ∀ o, (k o).Speaks P id
  | .acquire k => ∀ o, (k o).Speaks P id

section
variable {P P' : Int → Bytes → Prop} {id : Int} {α β : Type}

theorem Co.speaks_mono (hP : ∀ code data, P code data → P' code data) : ∀ x : Co α, x.Speaks P id → x.Speaks P' id
  | .ret a, _ => trivial
  | .throw e, _ => trivial
  | .get k, h => fun g hg => speaks_mono hP (k g) (h g hg)
  | .upd u k, h => ⟨h.1, speaks_mono hP k h.2⟩
  | .request _ _ _ _ k, h => ⟨hP _ _ h.1, fun o => speaks_mono hP (k o) (h.2 o)⟩
  | .openConn _ k, h => fun o => speaks_mono hP (k o) (h o)
  | .sleep k, h => fun o => speaks_mono hP (k o) (h o)
  | .close _ _ k, h => fun o => speaks_mono hP (k o) (h o)
  | .acquire k, h => fun o => speaks_mono hP (k o) (h o)

theorem Co.speaks_bindE {f : Except PyErr α → Co β} (hf : ∀ o, (f o).Speaks P id) : ∀ x : Co α, x.Speaks P id → (x.bindE f).Speaks P id
  | .ret a, _ => hf _
  | .throw e, _ => hf _
  | .get k, h => fun g hg => speaks_bindE hf (k g) (h g hg)
  | .upd u k, h => ⟨h.1, speaks_bindE hf k h.2⟩
  | .request _ _ _ _ k, h => ⟨h.1, fun o => speaks_bindE hf (k o) (h.2 o)⟩
  | .openConn _ k, h => fun o => speaks_bindE hf (k o) (h o)
  | .sleep k, h => fun o => speaks_bindE hf (k o) (h o)
  | .close _ _ k, h => fun o => speaks_bindE hf (k o) (h o)
  | .acquire k, h => fun o => speaks_bindE hf (k o) (h o)

theorem Co.speaks_bind {x : Co α} {f : α → Co β} (hx : x.Speaks P id) (hf : ∀ a, (f a).Speaks P id) : (x >>= f).Speaks P id := by
  refine speaks_bindE ?_ x hx
  intro o
  cases o with
  | ok a => exact hf a
  | error e => trivial

theorem Co.speaks_state {f : Gw → Co α} (hf : ∀ g, g.clientId = id → (f g).Speaks P id) : (state >>= f).Speaks P id := hf
theorem Co.speaks_modify {f : Gw → Gw} (hf : Mute f) : (modify f).Speaks P id := ⟨hf, trivial⟩
theorem Co.speaks_ofExcept (x : Except PyErr α) : (ofExcept x).Speaks P id := by cases x <;> trivial
theorem Co.speaks_ofExcept_bind {x : Except PyErr β} {f : β → Co α} (hf : ∀ a, x = .ok a → (f a).Speaks P id) : (ofExcept x >>= f).Speaks P id := by
  cases x with
  | ok a => exact hf a rfl
  | error e => trivial
theorem Co.speaks_make {code : Int} {data : Bytes} (h : P code data) (c : Nat) (r : Int) : (makeRequest c code data r).Speaks P id :=
  ⟨h, fun o => speaks_ofExcept o⟩
theorem Co.speaks_pause : pause.Speaks P id := fun o => speaks_ofExcept o
theorem Co.speaks_close (c : Nat) (force : Bool) : (closeConn c force).Speaks P id := fun o => speaks_ofExcept o
theorem Co.speaks_try {x : Co α} {f : PyErr → Co α} (hx : x.Speaks P id) (hf : ∀ e, (f e).Speaks P id) : (tryExcept x f).Speaks P id := by
  refine speaks_bindE ?_ x hx
  intro o
  cases o with
  | ok a => trivial
  | error e => exact hf e
theorem Co.speaks_lock {x : Co α} (hx : x.Speaks P id) : (withLock x).Speaks P id := by
  intro o
  cases o with
  | error e => trivial
  | ok u =>
    refine speaks_bindE ?_ x hx
    intro o
    exact ⟨mute_same (fun _ => rfl) (fun _ => rfl), speaks_ofExcept o⟩
theorem Co.speaks_ite {c : Prop} [Decidable c] {x y : Co α} (hx : x.Speaks P id) (hy : y.Speaks P id) : (if c then x else y).Speaks P id := by
  split
  · exact hx
  · exact hy
theorem Co.speaks_when {b : Bool} {x : Co Unit} (hx : x.Speaks P id) : (whenCo b x).Speaks P id := speaks_ite hx trivial

end

/-- The messages the program sends by itself satisfy `P`. -/
structure Vocab (P : Int → Bytes → Prop) (id : Int) : Prop where
  challenge : P 14 []
  login : P 27 loginBytes
  ping : P 16 []
  version : P 8120 []
  dateTime : P 8110 []
  status : ∀ b, packObjs [.int 0] = .ok b → P 12526 b
  config : ∀ b, packObjs [.int 0, .int 0] = .ok b → P 12532 b
  scg : ∀ b, packObjs [.int 0] = .ok b → P 12572 b
  chemistry : ∀ b, packObjs [.int 0] = .ok b → P 12592 b
  pump : ∀ i : Nat, i < 8 → ∀ b, packObjs [.int 0, .int i] = .ok b → P 12584 b
  addClient : ∀ b, packObjs [.int 0, .int id] = .ok b → P 12522 b
  removeClient : ∀ b, packObjs [.int 0, .int id] = .ok b → P 12524 b

section
variable (E : Env) {P : Int → Bytes → Prop} {id : Int} (V : Vocab P id)

open Co

theorem says_connect (a : ConnectArgs) : (asyncConnect a).Speaks P id := by
  intro g hg
  exact speaks_ite trivial ⟨mute_same (fun _ => rfl) (fun _ => rfl), fun g hg => speaks_ite trivial (fun o => speaks_ofExcept o)⟩

theorem says_ack {code : Int} {payload : Except PyErr Bytes} (h : ∀ b, payload = .ok b → P code b) (c : Nat) (r : Int) :
    (ackRequest code payload c r).Speaks P id :=
  speaks_ofExcept_bind (fun data hd => speaks_bind (speaks_make (h data hd) _ _) (fun v => speaks_ite trivial trivial))

theorem says_decode (D : Decoder) (b : Bytes) : (decodeCo E D b).Speaks P id :=
  speaks_state (fun g _ => speaks_bind (speaks_modify (mute_same (f := fun g' => g'.setData (decodeWith (D.prog E.pyFloat) b g.data).2) (fun _ => rfl) (fun _ => rfl)))
    (fun _ => speaks_ofExcept _))

theorem says_query (D : Gw → Decoder) {code : Int} {payload : Except PyErr Bytes} (h : ∀ b, payload = .ok b → P code b) (c : Nat) (r : Int) :
    (queryRequest E D code payload c r).Speaks P id := by
  refine speaks_ofExcept_bind (fun data hd => speaks_bind (speaks_make (h data hd) _ _) (fun v => ?_))
  split
  · exact speaks_state (fun g _ => speaks_bind (says_decode E _ _) (fun _ => trivial))
  · trivial

include V

theorem says_unsubscribeGateway : unsubscribeGateway.Speaks P id := by
  refine speaks_state (fun g _ => speaks_ite (speaks_lock (speaks_state (fun g hg => ?_))) trivial)
  split
  · refine speaks_bind (speaks_modify (mute_same (f := fun g => g.setClient false) (fun _ => rfl) (fun _ => rfl))) (fun _ =>
      speaks_bind (speaks_modify (mute_net _ _ (by simp))) (fun _ => speaks_bind (speaks_modify (mute_net _ _ (by simp))) (fun _ =>
        speaks_try (says_ack (fun b hb => V.removeClient b ?_) _ _) (fun e => speaks_ite trivial trivial))))
    rw [← hg]; exact hb
  · trivial

theorem says_disconnect (force : Bool) : (asyncDisconnect force).Speaks P id := by
  refine speaks_state (fun g _ => speaks_bind (speaks_when (says_unsubscribeGateway V)) (fun _ => speaks_state (fun g _ => ?_)))
  split
  · exact speaks_close _ _
  · trivial

omit V in
theorem says_attempt {α : Type} (r : Int) {method : Nat → Int → Co α} (hm : ∀ c r, (method c r).Speaks P id) :
    (attemptRequest r method).Speaks P id := by
  refine speaks_bind (says_connect {}) (fun ok => speaks_ite (speaks_state (fun g _ => ?_)) trivial)
  split
  · exact hm _ _
  · trivial

theorem says_connected {α : Type} {method : Nat → Int → Co α} (hm : ∀ c r, (method c r).Speaks P id) :
    (connectedRequest method).Speaks P id :=
  speaks_state (fun g _ => speaks_try (says_attempt _ hm) (fun e => speaks_ite
    (speaks_bind (says_disconnect V _) (fun _ => speaks_bind speaks_pause (fun _ => says_attempt _ hm))) trivial))

theorem says_subscribeGateway : subscribeGateway.Speaks P id := by
  refine speaks_state (fun g _ => speaks_ite (speaks_lock (speaks_state (fun g hg => speaks_ite trivial ?_))) trivial)
  refine speaks_bind (says_connected V (fun c r => says_ack (fun b hb => V.addClient b ?_) _ _)) (fun _ =>
    speaks_bind (speaks_modify (mute_same (f := fun g => g.setClient true) (fun _ => rfl) (fun _ => rfl))) (fun _ => speaks_state (fun g _ => ?_)))
  · rw [← hg]; exact hb
  · split
    · exact speaks_modify (mute_net _ _ (by simp))
    · trivial

omit V in
theorem says_registerAll (c : Nat) : ∀ l, (registerAll c l).Speaks P id
  | [] => trivial
  | (code, _) :: rest => speaks_bind (speaks_modify (mute_net _ _ (by simp))) (fun _ => says_registerAll c rest)

theorem says_attach (c : Nat) : (attach c).Speaks P id :=
  speaks_bind (speaks_modify (mute_same (f := fun g => g.attachTo c) (fun _ => rfl) (fun _ => rfl))) (fun _ => speaks_state (fun g _ => speaks_ite
    (speaks_bind (speaks_modify (mute_net _ _ (by simp))) (fun _ => speaks_bind (says_registerAll c _) (fun _ => says_subscribeGateway V))) trivial))

theorem says_poll {method : Nat → Int → Co (Option Bytes)} (key : Path) (hm : ∀ c r, (method c r).Speaks P id) : (poll key method).Speaks P id := by
  refine speaks_bind (says_connected V hm) (fun raw => ?_)
  split
  · exact speaks_modify (mute_same (f := fun g => g.putLast _ _) (fun _ => rfl) (fun _ => rfl))
  · trivial

omit V in
theorem says_requestPump (j : Int) (h : ∀ b, packObjs [.int 0, .int j] = .ok b → P 12584 b) (c : Nat) (r : Int) : (requestPump E j c r).Speaks P id :=
  says_query E (fun _ => .pump j) h c r

theorem says_getPump (i : Nat) (hi : i < 8) : (getPump E i).Speaks P id := by
  have q : ∀ c r, (requestPump E i c r).Speaks P id := by
    have := V.pump i hi
    generalize (i : Int) = j at *
    exact says_requestPump E j this
  simp only [getPump]
  generalize requestPump E i = m at q
  refine speaks_state (fun g _ => speaks_bind (speaks_ofExcept _) (fun f => ?_))
  split
  · exact speaks_bind (speaks_modify (mute_same (f := fun g => g.putLastNew [.s "pumps"] (.dict [])) (fun _ => rfl) (fun _ => rfl))) (fun _ => says_poll V _ q)
  · trivial

theorem says_getPumpsFrom : ∀ n i, n + i ≤ 8 → (getPumpsFrom E n i).Speaks P id
  | 0, _, _ => trivial
  | n + 1, i, h => speaks_bind (says_getPump E V i (by omega)) (fun _ => says_getPumpsFrom n (i + 1) (by omega))

omit V in
theorem ok_inj {P : Bytes → Prop} {a : Bytes} (h : P a) : ∀ b, (Except.ok a : Except PyErr Bytes) = .ok b → P b := by
  intro b e; cases e; exact h

theorem says_getStatus : (getStatus E).Speaks P id := says_poll V _ (says_query E _ V.status)
theorem says_getConfig : (getConfig E).Speaks P id := says_poll V _ (says_query E _ V.config)
theorem says_getScg : (getScg E).Speaks P id := says_poll V _ (says_query E _ V.scg)
theorem says_getChemistry : (getChemistry E).Speaks P id := says_poll V _ (says_query E _ V.chemistry)
theorem says_getDatetime : (getDatetime E).Speaks P id := says_poll V _ (says_query E _ (ok_inj V.dateTime))

theorem says_update : (asyncUpdate E).Speaks P id :=
  speaks_state (fun g _ => speaks_ite (speaks_bind (says_getStatus E V) (fun _ => speaks_bind (says_getPumpsFrom E V 8 0 (by omega)) (fun _ =>
    speaks_bind (says_getChemistry E V) (fun _ => speaks_bind (says_getScg E V) (fun _ => says_getDatetime E V))))) trivial)

theorem says_ping : pingCo.Speaks P id := by
  refine speaks_bind (speaks_state (fun g _ => ?_)) (fun _ => trivial)
  split
  · exact speaks_try (says_ack (ok_inj V.ping) _ _) (fun e => speaks_ite trivial trivial)
  · trivial

theorem says_unsub : unsubCo.Speaks P id := speaks_bind (says_unsubscribeGateway V) (fun _ => trivial)

theorem mute_raw (c : Nat) (b : Bytes) : Mute (·.writeRaw c b) :=
  fun g => ⟨rfl, fun P h => connsSay_modify h c _ (fun x hx => hx)⟩

theorem says_afterOpen (r : Int) (c : Nat) : (afterOpen E r c).Speaks P id := by
  refine speaks_bind ?_ (fun mac => ?_)
  · refine speaks_bind ?_ (fun mac => speaks_ofExcept_bind (fun msg hm => ?_))
    · refine speaks_bind (speaks_modify (mute_raw V _ _)) (fun _ => speaks_bind speaks_pause (fun _ => speaks_state (fun g _ => speaks_ite
        (speaks_bind (speaks_make V.challenge _ _) (fun r => ?_)) trivial)))
      split
      · exact speaks_ofExcept _
      · trivial
    · rw [login_bytes] at hm
      cases hm
      refine speaks_bind (speaks_make V.login _ _) (fun r => ?_)
      split <;> trivial
  · split
    · trivial
    · refine speaks_bind (speaks_modify (mute_same (f := fun g => g.setProto _ _) (fun _ => rfl) (fun _ => rfl))) (fun _ => speaks_bind ?_ (fun _ =>
        speaks_state (fun g _ => speaks_ite ?_ trivial)))
      · exact speaks_state (fun g _ => speaks_bind (says_query E _ (ok_inj V.version) _ _) (fun _ =>
          speaks_modify (mute_same (f := fun g => g.putLast _ _) (fun _ => rfl) (fun _ => rfl))))
      · refine speaks_bind (says_getConfig E V) (fun _ => speaks_state (fun g _ => ?_))
        split
        · exact speaks_bind (says_attach V _) (fun _ => trivial)
        · trivial

/-- The calls other than the setters and sending by hand. -/
theorem says_call (a : Call) (ha : setterPlan E a = none) (hs : ∀ code data, a = .send code data → P code data) : (a.co E).Speaks P id := by
  cases a with
  | connect x => exact speaks_bind (says_connect x) (fun _ => trivial)
  | disconnect force => exact speaks_bind (says_disconnect V force) (fun _ => trivial)
  | update => exact speaks_bind (says_update E V) (fun _ => trivial)
  | getConfig => exact speaks_bind (says_getConfig E V) (fun _ => trivial)
  | getStatus => exact speaks_bind (says_getStatus E V) (fun _ => trivial)
  | getPumps => exact speaks_bind (says_getPumpsFrom E V 8 0 (by omega)) (fun _ => trivial)
  | getChemistry => exact speaks_bind (says_getChemistry E V) (fun _ => trivial)
  | getScg => exact speaks_bind (says_getScg E V) (fun _ => trivial)
  | getDatetime => exact speaks_bind (says_getDatetime E V) (fun _ => trivial)
  | setCircuit x y => cases ha
  | setHeatTemp x y => cases ha
  | setHeatMode x y => cases ha
  | setColorLights x => cases ha
  | setScg x y z w => cases ha
  | setChem x y z w u v => cases ha
  | setDateTime x y => cases ha
  | subscribe cb code =>
    refine speaks_bind (speaks_state (fun g _ => ?_)) (fun _ => trivial)
    split
    · refine speaks_bind (speaks_modify (mute_same (f := fun g => (g.addListener code cb).2) ?_ ?_)) (fun _ =>
        speaks_bind (speaks_modify (mute_net _ _ (by simp))) (fun _ => speaks_state (fun g _ =>
          speaks_bind (speaks_when (says_subscribeGateway V)) (fun _ => trivial))))
      · intro g; simp only [Gw.addListener]; split <;> rfl
      · intro g; simp only [Gw.addListener]; split <;> rfl
    · trivial
  | send code data => exact speaks_bind (says_connected V (fun c r => speaks_make (hs code data rfl) c r)) (fun _ => trivial)

theorem says_setter (p : Except PyErr (Int × Except PyErr Bytes)) (h : ∀ code data, p = .ok (code, .ok data) → P code data) : (setterCo p).Speaks P id := by
  cases p with
  | error e => trivial
  | ok p =>
    refine speaks_bind (says_connected V (fun c r => says_ack (fun b hb => ?_) c r)) (fun _ => trivial)
    exact h p.1 b (by rw [← hb])

end

/-! ## Over a history -/

/-- The rest of a task makes only requests satisfying `P`. -/
def Task.Speaks (P : Int → Bytes → Prop) (id : Int) : Task → Prop
  | .request _ _ k => ∀ o, (k o).Speaks P id
  | .opening _ k => ∀ o, (k o).Speaks P id
  | .sleeping k => ∀ o, (k o).Speaks P id
  | .closing _ _ k => ∀ o, (k o).Speaks P id
  | .locked k => ∀ o, (k o).Speaks P id
  | .done _ => True

theorem settle_says {P : Int → Bytes → Prop} {id : Int} (t : Nat) :
    ∀ (co : Co Res) (g : Gw), co.Speaks P id → GwSays P id g → (settle t co g).1.Speaks P id ∧ GwSays P id (settle t co g).2
  | .ret a, g, _, h => ⟨trivial, h⟩
  | .throw e, g, _, h => ⟨trivial, h⟩
  | .get k, g, ha, h => settle_says t (k g) g (ha g h.id) h
  | .upd f k, g, ha, h => settle_says t k (g.apply f) ha.2 (h.upd ha.1)
  | .request c code data r k, g, ha, h => by
    simp only [settle]
    split
    · rename_i o _
      exact settle_says t (k o) _ (ha.2 o) ((h.ask _ _ _ _ _ ha.1).note _ _ (by intro _ _ _ e; cases e))
    · exact ⟨ha.2, h.ask _ _ _ _ _ ha.1⟩
  | .openConn r k, g, ha, h => ⟨ha, h.note _ _ (by intro _ _ _ e; cases e)⟩
  | .sleep k, g, ha, h => ⟨ha, h⟩
  | .close c force k, g, ha, h => by
    simp only [settle]
    split
    · exact settle_says t (k ((g.startClose t c force).2.closeResult c (g.startClose t c force).1)) _ (ha _) (h.close _ _ _)
    · exact ⟨ha, h.close _ _ _⟩
  | .acquire k, g, ha, h => by
    simp only [settle]
    split
    · exact settle_says t (k (.ok ())) _ (ha _) (h.same rfl rfl rfl)
    · exact ⟨ha, h.same rfl rfl rfl⟩

/-- All tasks. -/
structure SysSays (P : Int → Bytes → Prop) (id : Int) (s : Sys) : Prop where
  tasks : ∀ x ∈ s.tasks, x.Speaks P id
  g : GwSays P id s.g

theorem Task.Speaks.mono {P P' : Int → Bytes → Prop} {id : Int} (hP : ∀ code data, P code data → P' code data) {x : Task} (h : x.Speaks P id) : x.Speaks P' id := by
  cases x with
  | done r => trivial
  | _ => exact fun o => Co.speaks_mono hP _ (h o)

theorem SysSays.mono {P P' : Int → Bytes → Prop} {id : Int} (hP : ∀ code data, P code data → P' code data) {s : Sys} (h : SysSays P id s) : SysSays P' id s :=
  ⟨fun x hx => (h.tasks x hx).mono hP, h.g.mono hP⟩

theorem SysSays.step {E : Env} {P : Int → Bytes → Prop} {id : Int} (V : Vocab P id) {s : Sys} (h : SysSays P id s) (ev : Ev)
    (hev : ∀ a, ev = .call a → (∀ f, setterPlan E a = some f → ∀ d code data, f d = .ok (code, .ok data) → P code data) ∧
      ∀ code data, a = .send code data → P code data) : SysSays P id (s.step E ev) := by
  have mem : ∀ {t : Nat} {x : Task}, s.tasks[t]? = some x → x.Speaks P id := fun hx => h.tasks _ (List.mem_of_getElem? hx)
  have put : ∀ (g0 : Gw) (r : Task × Gw), r.1.Speaks P id → GwSays P id r.2 → SysSays P id ⟨r.2, s.tasks ++ [r.1]⟩ := by
    intro g0 r h1 h2
    refine ⟨fun x hx => ?_, h2⟩
    rcases List.mem_append.1 hx with hx | hx
    · exact h.tasks x hx
    · rw [List.mem_singleton.1 hx]; exact h1
  have spawn : ∀ (co : Co Res) (g0 : Gw), co.Speaks P id → GwSays P id g0 → SysSays P id (Sys.spawn { s with g := g0 } co) := by
    intro co g0 hco hg
    have := settle_says s.tasks.length co g0 hco hg
    exact put g0 _ this.1 this.2
  have own : ∀ (t : Nat) (co : Co Res) (g0 : Gw), co.Speaks P id → GwSays P id g0 → SysSays P id (s.put t (settle t co g0)) := by
    intro t co g0 hco hg
    have := settle_says t co g0 hco hg
    refine ⟨fun x hx => ?_, this.2⟩
    rcases List.mem_or_eq_of_mem_set hx with hx | rfl
    · exact h.tasks x hx
    · exact this.1
  have env : ∀ g0 : Gw, GwSays P id g0 → SysSays P id { s with g := g0 } := fun g0 hg => ⟨h.tasks, hg⟩
  cases ev with
  | call a =>
    obtain ⟨h1, h2⟩ := hev a rfl
    cases hp : setterPlan E a with
    | none => exact spawn _ s.g (says_call E V a hp h2) h.g
    | some f =>
      have := settle_says s.tasks.length (setterCo (f s.g.data)) s.g (says_setter V _ (h1 f hp s.g.data)) h.g
      refine put s.g (settle s.tasks.length (a.co E) s.g) ?_ ?_
      · rw [settle_look, setter_look E hp, ← settle_look]; exact this.1
      · rw [settle_look, setter_look E hp, ← settle_look]; exact this.2
  | setMaxRetries n =>
    refine env _ (h.g.same ?_ ?_ ?_) <;> simp only [Gw.setMaxRetries] <;> split <;> rfl
  | unsubscribe u =>
    refine env _ ?_
    simp only [Gw.unsubscribe]
    split
    · split
      · split
        · split
          · rename_i l _ _ _ _
            simp only [Gw.dropCode]
            have h0 : GwSays P id ((s.g.setSet u.set (l.erase u.cb)).delListener u.code) := h.g.same rfl rfl rfl
            split
            · split
              · rename_i c _ _
                have h1 := h0.net c (.unregister u.code) (by intro _ _ _ e; cases e)
                split
                · exact h1.same rfl rfl rfl
                · exact h1
              · exact h0
            · exact h0
          · exact h.g.same rfl rfl rfl
        · exact h.g.same rfl rfl rfl
      · exact h.g
    · exact h.g
  | registerHandler code h' =>
    simp only [Sys.step]
    split
    · exact env _ (h.g.net _ _ (by intro _ _ _ e; cases e))
    · exact h
  | removeHandler code =>
    simp only [Sys.step]
    split
    · exact env _ (h.g.net _ _ (by intro _ _ _ e; cases e))
    · exact h
  | opened t ok =>
    simp only [Sys.step]
    split
    · rename_i r k hk
      have hk := mem hk
      split
      · refine own t _ _ (Co.speaks_bindE hk _ (says_afterOpen E V r _)) (h.g.mute rfl ?_ rfl)
        intro x hx
        rcases List.mem_append.1 hx with hx | hx
        · exact h.g.conns x hx
        · rw [List.mem_singleton.1 hx]
          exact ⟨[], rfl, by intro _ _ _ hm; cases hm⟩
      · exact own t _ _ (hk _) h.g
    · exact h
  | resume t =>
    simp only [Sys.step]
    split
    · rename_i c r k hk
      have hk := mem hk
      split
      · exact own t _ _ (hk _) (h.g.note _ _ (by intro _ _ _ e; cases e))
      · exact h
    · rename_i k hk
      exact own t _ _ (mem hk _) h.g
    · rename_i c i k hk
      have hk := mem hk
      split
      · exact own t _ _ (hk _) h.g
      · exact h
    · rename_i k hk
      have hk := mem hk
      split
      · exact own t _ _ (hk _) (h.g.same rfl rfl rfl)
      · exact h
    · exact h
  | cancel t =>
    simp only [Sys.step]
    split
    · rename_i r k hk
      exact own t _ _ (mem hk _) h.g
    · rename_i k hk
      exact own t _ _ (mem hk _) h.g
    · rename_i k hk
      exact own t _ _ (mem hk _) (h.g.same rfl rfl rfl)
    · exact h
  | net c e =>
    simp only [Sys.step]
    split
    · rename_i he
      have h0 : GwSays P id (s.g.lostCallback c e) := by
        simp only [Gw.lostCallback]
        split
        · split
          · exact h.g.same rfl rfl rfl
          · exact h.g
        · exact h.g
      refine env _ (h0.net c e ?_)
      intro _ _ _ e'
      subst e'
      cases he
    · exact h
  | handle c =>
    refine env _ ?_
    simp only [Gw.runHandler]
    split
    · rename_i x hx
      split
      · rename_i hd msg hm
        have h0 : GwSays P id { s.g with conns := s.g.conns.modify c (fun x => { x with handled := x.handled + 1 }) } :=
          h.g.mute rfl (connsSay_modify h.g.conns c _ (fun x hx => hx)) rfl
        split
        · simp only [Gw.commonCallback]
          have note : ∀ (g : Gw) (code : Nat), GwSays P id g → GwSays P id (Gw.commonCallback.notify g code).2 := by
            intro g code hg
            simp only [Gw.commonCallback.notify]
            split
            · exact hg.same rfl rfl rfl
            · exact hg
          split
          · split
            · exact note _ _ (h0.same rfl rfl rfl)
            · exact h0.same rfl rfl rfl
          · exact note _ _ h0
        · exact h0.same rfl rfl rfl
      · exact h.g
    · exact h.g
  | ping c =>
    simp only [Sys.step]
    split
    · split
      · exact spawn _ _ (says_ping V) (h.g.mute rfl (connsSay_modify h.g.conns c _ (fun x hx => hx)) rfl)
      · exact h
    · exact h
  | runUnsub =>
    simp only [Sys.step]
    split
    · exact spawn _ _ (says_unsub V) (h.g.same rfl rfl rfl)
    · exact h
  | tick now => exact env _ (h.g.same rfl rfl rfl)

/-- What is written on a connection is framed requests. -/
theorem connsSay_written {P : Int → Bytes → Prop} {l : List Conn} (h : ConnsSay P l) {x : Conn} (hx : x ∈ l) {n : Nat} {bs : Bytes}
    (hw : (n, bs) ∈ x.w.p.written) : ∃ (code : Nat) (data : Bytes), P code data ∧ bs = Spec.frame (n % 32767) code data := by
  obtain ⟨es, he, hc⟩ := h x hx
  rw [he] at hw
  obtain ⟨code, data, h1, h2⟩ := (C12_wire es).1 n bs hw
  refine ⟨code, data, ?_, h2⟩
  have hok := worldOk es
  have hn : n < (World.init.run es).p.futs.length := by
    rw [← (invIds es).calls]; exact lt_of_getElem? h1
  obtain ⟨t, r, hr, hm⟩ := hok.owner n hn
  obtain ⟨_, h3⟩ := (hok.reqs t r hr).mine n hm
  rw [h1] at h3
  simp only [Option.some.injEq, Prod.mk.injEq] at h3
  have := (hok.reqs t r hr).called
  rw [← h3.1, ← h3.2] at this
  exact hc _ _ _ this

end SL
