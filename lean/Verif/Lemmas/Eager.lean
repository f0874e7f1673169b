import Verif.Lemmas.Latest
/-!
# No reply is passed over

A coroutine that is handed the reply to its query decodes it before it does anything else, and if the decoder raises, it ends with that exception.
-/
set_option linter.unusedVariables false
set_option maxRecDepth 20000
namespace SL

/-- It raises `e` before it suspends and changes no data. -/
def Co.Fails {α : Type} (e : PyErr) : Co α → Gw → Prop
  | .throw e', _ => e' = e
  | .get k, g => (k g).Fails e g
  | .upd f k, g => (g.apply f).data = g.data ∧ k.Fails e (g.apply f)
  | _, _ => False

/-- An exception that is no communication error goes through. -/
def Passes {α β : Type} (f : Except PyErr α → Co β) : Prop := ∀ e, e.isComm = false → ∀ g, (f (.error e)).Fails e g

/-- It decodes `b`, the reply to this query, before anything else. -/
def Co.Debt {α : Type} (E : Env) (code : Int) (payload b : Bytes) : Co α → Gw → Prop
  | .get k, g => (k g).Debt E code payload b g
  | .upd f k, g => ∃ D, Queries D code payload ∧ (g.apply f).data = (decodeWith (D.prog E.pyFloat) b g.data).2 ∧ k.Dry ∧
      ∀ e, e.isComm = false → (decodeWith (D.prog E.pyFloat) b g.data).1 = .error e → k.Fails e (g.apply f)
  | _, _ => False

/-- The reply to a query will be decoded at once. -/
def Owes {α : Type} (E : Env) (code : Int) (payload : Bytes) (k : Except PyErr (Option Bytes) → Co α) : Prop :=
  (∃ D, Queries D code payload) → ∀ x xs g, (k (.ok (some (x :: xs)))).Debt E code payload (x :: xs) g

/-- The replies to its queries are decoded at once. -/
def Co.Eager {α : Type} (E : Env) : Co α → Prop
  | .ret a => True
  | .throw e => True
  | .get k => ∀ g : Gw, (k g).Eager E
  | .upd f k => k.Eager E
  | .request _ code data _ k => (∀ o, (k o).Eager E) ∧ Owes E code data k
  | .openConn _ k => (∀ o, (k o).Eager E) ∧ Passes k ∧ ∀ o, (k o).Dry
  | .sleep k => ∀ o, (k o).Eager E
  | .close _ _ k => ∀ o, (k o).Eager E
  | .acquire k => ∀ o, (k o).Eager E

section
variable {α β : Type} {E : Env}

theorem Co.fails_bindE {f : Except PyErr α → Co β} (hf : Passes f) {e : PyErr} (he : e.isComm = false) : ∀ (x : Co α) (g : Gw), x.Fails e g → (x.bindE f).Fails e g
  | .ret a, g, w => w.elim
  | .throw e', g, w => by cases w; exact hf e he g
  | .get k, g, w => fails_bindE hf he (k g) g w
  | .upd _ k, g, w => ⟨w.1, fails_bindE hf he k _ w.2⟩
  | .request _ _ _ _ k, g, w => w.elim
  | .openConn _ k, g, w => w.elim
  | .sleep k, g, w => w.elim
  | .close _ _ k, g, w => w.elim
  | .acquire k, g, w => w.elim

theorem Co.debt_bindE {f : Except PyErr α → Co β} (hf : Passes f) (hd : ∀ o, (f o).Dry) {code : Int} {payload b : Bytes} :
    ∀ (x : Co α) (g : Gw), x.Debt E code payload b g → (x.bindE f).Debt E code payload b g
  | .ret a, g, w => w.elim
  | .throw e', g, w => w.elim
  | .get k, g, w => debt_bindE hf hd (k g) g w
  | .upd _ k, g, ⟨D, h1, h2, h3, h4⟩ => ⟨D, h1, h2, Co.dry_bindE h3 hd, fun e he hx => fails_bindE hf he k _ (h4 e he hx)⟩
  | .request _ _ _ _ k, g, w => w.elim
  | .openConn _ k, g, w => w.elim
  | .sleep k, g, w => w.elim
  | .close _ _ k, g, w => w.elim
  | .acquire k, g, w => w.elim

theorem Co.eager_bindE {f : Except PyErr α → Co β} (hf : Passes f) (hd : ∀ o, (f o).Dry) (he : ∀ o, (f o).Eager E) : ∀ x : Co α, x.Eager E → (x.bindE f).Eager E
  | .ret a, w => he _
  | .throw e, w => he _
  | .get k, w => fun g => eager_bindE hf hd he (k g) (w g)
  | .upd _ k, w => eager_bindE hf hd he k w
  | .request _ _ _ _ k, w => ⟨fun o => eager_bindE hf hd he (k o) (w.1 o), fun hD x xs g => debt_bindE hf hd _ g (w.2 hD x xs g)⟩
  | .openConn _ k, w => ⟨fun o => eager_bindE hf hd he (k o) (w.1 o), fun e hc g => fails_bindE hf hc _ g (w.2.1 e hc g), fun o => Co.dry_bindE (w.2.2 o) hd⟩
  | .sleep k, w => fun o => eager_bindE hf hd he (k o) (w o)
  | .close _ _ k, w => fun o => eager_bindE hf hd he (k o) (w o)
  | .acquire k, w => fun o => eager_bindE hf hd he (k o) (w o)

theorem Co.eager_throw (e : PyErr) : (Co.throw e : Co α).Eager E := trivial
theorem Co.eager_ret (a : α) : (Co.ret a).Eager E := trivial
theorem Co.eager_bind {x : Co α} {f : α → Co β} (hx : x.Eager E) (hf : ∀ a, (f a).Eager E) (hd : ∀ a, (f a).Dry) : (x >>= f).Eager E := by
  refine eager_bindE (f := fun o => match o with | .ok a => f a | .error e => .throw e) (fun e _ g => rfl) ?_ ?_ x hx
  · intro o
    cases o with
    | ok a => exact hd a
    | error e => exact trivial
  · intro o
    cases o with
    | ok a => exact hf a
    | error e => exact trivial
theorem Co.debt_bind {x : Co α} {f : α → Co β} {code : Int} {payload b : Bytes} {g : Gw} (hx : x.Debt E code payload b g) (hd : ∀ a, (f a).Dry) :
    (x >>= f).Debt E code payload b g := by
  refine debt_bindE (f := fun o => match o with | .ok a => f a | .error e => .throw e) (fun e _ g => rfl) ?_ x g hx
  intro o
  cases o with
  | ok a => exact hd a
  | error e => exact trivial
theorem Co.eager_state {f : Gw → Co α} (hf : ∀ g, (f g).Eager E) : (state >>= f).Eager E := fun g => hf g
theorem Co.eager_modify (f : Gw → Gw) : (modify f).Eager E := trivial
theorem Co.eager_ofExcept (x : Except PyErr α) : (ofExcept x).Eager E := by cases x <;> trivial
theorem Co.eager_pause : pause.Eager E := fun o => eager_ofExcept o
theorem Co.eager_close (c : Nat) (force : Bool) : (closeConn c force).Eager E := fun o => eager_ofExcept o
theorem Co.eager_try {x : Co α} {f : PyErr → Co α} (hx : x.Eager E) (hf : ∀ e, (f e).Eager E) (hd : ∀ e, (f e).Dry)
    (hp : ∀ e, e.isComm = false → f e = .throw e) : (tryExcept x f).Eager E := by
  refine eager_bindE (f := fun o => match o with | .ok a => .ret a | .error e => f e) ?_ ?_ ?_ x hx
  · intro e he g
    show (f e).Fails e g
    rw [hp e he]; rfl
  · intro o
    cases o with
    | ok a => exact trivial
    | error e => exact hd e
  · intro o
    cases o with
    | ok a => exact trivial
    | error e => exact hf e
theorem Co.eager_lock {x : Co α} (hx : x.Eager E) : (withLock x).Eager E := by
  intro o
  cases o with
  | error e => exact trivial
  | ok u =>
    refine eager_bindE (f := fun r => .upd Gw.release (ofExcept r)) (fun e _ g => ⟨rfl, rfl⟩) (fun o => ⟨.inr (fun _ => rfl), dry_ofExcept o⟩) ?_ x hx
    exact fun o => eager_ofExcept o
theorem Co.eager_ite {c : Prop} [Decidable c] {x y : Co α} (hx : x.Eager E) (hy : y.Eager E) : (if c then x else y).Eager E := by
  split
  · exact hx
  · exact hy
theorem Co.eager_when {b : Bool} {x : Co Unit} (hx : x.Eager E) : (whenCo b x).Eager E := eager_ite hx (eager_ret _)
/-- A request that is no query. -/
theorem Co.eager_make (c : Nat) {code : Int} (data : Bytes) (r : Int) (hc : code ∉ [(12526 : Int), 12532, 12572, 12592, 12584, 8120, 8110]) :
    (makeRequest c code data r).Eager E := by
  refine ⟨fun o => eager_ofExcept o, ?_⟩
  rintro ⟨D, hD⟩
  exfalso
  apply hc
  cases hD <;> simp

end

section
variable (E : Env)

open Co

theorem eager_connect (a : ConnectArgs) : (asyncConnect a).Eager E := by
  intro g
  refine (eager_ite (eager_ret _) ?_)
  intro g
  refine (eager_ite (eager_throw _) ?_)
  exact ⟨fun o => eager_ofExcept o, fun e _ g => rfl, fun o => dry_ofExcept o⟩

theorem eager_ack {code : Int} (hc : code ∉ [(12526 : Int), 12532, 12572, 12592, 12584, 8120, 8110]) (payload : Except PyErr Bytes) (c : Nat) (r : Int) :
    (ackRequest code payload c r).Eager E :=
  eager_bind (eager_ofExcept _) (fun data => eager_bind (eager_make _ _ _ hc) (fun v => eager_ite (eager_ret _) (eager_throw _))
    (fun v => dry_ite (dry_ret _) (dry_throw _)))
    (fun data => dry_bind (dry_make _ _ _ _) (fun v => dry_ite (dry_ret _) (dry_throw _)))

theorem eager_decode (D : Decoder) (b : Bytes) : (decodeCo E D b).Eager E := fun g => eager_ofExcept _

theorem debt_decode {D : Decoder} {b : Bytes} {code : Int} {payload : Bytes} (h : Queries D code payload) (g : Gw) :
    (decodeCo E D b).Debt E code payload b g := by
  refine ⟨D, h, rfl, dry_ofExcept _, fun e he hx => ?_⟩
  have hx' : (decodeWith (D.prog E.pyFloat) b g.data).1 = .error e := hx
  show Co.Fails e (ofExcept (decodeWith (D.prog E.pyFloat) b g.data).1) _
  rw [hx']
  rfl

theorem eager_query {D : Gw → Decoder} {code : Int} {payload : Except PyErr Bytes} (hD : ∀ g, (D g).query = some (code, payload)) (c : Nat) (r : Int) :
    (queryRequest E D code payload c r).Eager E := by
  cases hp : payload with
  | error e => exact trivial
  | ok data =>
    show Co.Eager E (.request c code data r _)
    refine ⟨fun o => ?_, ?_⟩
    · cases o with
      | error e => exact trivial
      | ok v =>
        show Co.Eager E (match v with
          | some (b :: bs) => (do
            let g ← state
            decodeCo E (D g) (b :: bs)
            return some (b :: bs) : Co (Option Bytes))
          | _ => return none)
        split
        · exact fun g => eager_bind (eager_decode E _ _) (fun _ => eager_ret _) (fun _ => dry_ret _)
        · exact trivial
    · rintro - x xs g
      show Co.Debt E code data (x :: xs) (decodeCo E (D g) (x :: xs) >>= fun _ => (pure (some (x :: xs)) : Co (Option Bytes))) g
      exact debt_bind (debt_decode E (query_queries (hD g) hp) g) (fun _ => dry_ret _)


/-- Both. -/
def Co.Keen {α : Type} (x : Co α) : Prop := x.Eager E ∧ x.Dry

section
variable {α β : Type} {E}
theorem Co.keen_throw (e : PyErr) : (Co.throw e : Co α).Keen E := ⟨trivial, trivial⟩
theorem Co.keen_ret (a : α) : (Co.ret a).Keen E := ⟨trivial, trivial⟩
theorem Co.keen_bind {x : Co α} {f : α → Co β} (hx : x.Keen E) (hf : ∀ a, (f a).Keen E) : (x >>= f).Keen E :=
  ⟨eager_bind hx.1 (fun a => (hf a).1) (fun a => (hf a).2), dry_bind hx.2 (fun a => (hf a).2)⟩
theorem Co.keen_state {f : Gw → Co α} (hf : ∀ g, (f g).Keen E) : (state >>= f).Keen E := ⟨fun g => (hf g).1, fun g => (hf g).2⟩
theorem Co.keen_modify {f : Gw → Gw} (h : ∀ g, (f g).data = g.data) : (modify f).Keen E := ⟨trivial, dry_modify h⟩
theorem Co.keen_ofExcept (x : Except PyErr α) : (ofExcept x).Keen E := ⟨eager_ofExcept x, dry_ofExcept x⟩
theorem Co.keen_pause : pause.Keen E := ⟨eager_pause, dry_pause⟩
theorem Co.keen_close (c : Nat) (force : Bool) : (closeConn c force).Keen E := ⟨eager_close c force, dry_close c force⟩
theorem Co.keen_try {x : Co α} {f : PyErr → Co α} (hx : x.Keen E) (hf : ∀ e, (f e).Keen E) (hp : ∀ e, e.isComm = false → f e = .throw e := by
    intro e he; simp [he]) : (tryExcept x f).Keen E :=
  ⟨eager_try hx.1 (fun e => (hf e).1) (fun e => (hf e).2) hp, dry_try hx.2 (fun e => (hf e).2)⟩
theorem Co.keen_lock {x : Co α} (hx : x.Keen E) : (withLock x).Keen E := ⟨eager_lock hx.1, dry_lock hx.2⟩
theorem Co.keen_ite {c : Prop} [Decidable c] {x y : Co α} (hx : x.Keen E) (hy : y.Keen E) : (if c then x else y).Keen E :=
  ⟨eager_ite hx.1 hy.1, dry_ite hx.2 hy.2⟩
theorem Co.keen_when {b : Bool} {x : Co Unit} (hx : x.Keen E) : (whenCo b x).Keen E := ⟨eager_when hx.1, dry_when hx.2⟩
theorem Co.keen_make (c : Nat) {code : Int} (data : Bytes) (r : Int) (hc : code ∉ [(12526 : Int), 12532, 12572, 12592, 12584, 8120, 8110] := by decide) :
    (makeRequest c code data r).Keen E := ⟨eager_make c data r hc, dry_make c code data r⟩
end

theorem keen_connect (a : ConnectArgs) : (asyncConnect a).Keen E := ⟨eager_connect E a, dry_connect a⟩
theorem keen_ack {code : Int} {payload : Except PyErr Bytes} (c : Nat) (r : Int)
    (hc : code ∉ [(12526 : Int), 12532, 12572, 12592, 12584, 8120, 8110] := by decide) : (ackRequest code payload c r).Keen E :=
  ⟨eager_ack E hc payload c r, dry_ack code payload c r⟩
theorem keen_query {D : Gw → Decoder} {code : Int} {payload : Except PyErr Bytes} (c : Nat) (r : Int)
    (hD : ∀ g, (D g).query = some (code, payload) := by intro g; rfl) : (queryRequest E D code payload c r).Keen E :=
  ⟨eager_query E hD c r, dry_query E D code payload c r⟩

theorem keen_unsubscribeGateway : unsubscribeGateway.Keen E := by
  refine keen_state (fun g => keen_ite (keen_lock (keen_state (fun g => ?_))) (keen_ret _))
  split
  · exact keen_bind (keen_modify (fun _ => rfl)) (fun _ => keen_bind (keen_modify (fun _ => rfl)) (fun _ =>
      keen_bind (keen_modify (fun _ => rfl)) (fun _ => keen_try (keen_ack E _ _) (fun e => keen_ite (keen_ret _) (keen_throw _)))))
  · exact keen_ret _

theorem keen_disconnect (force : Bool) : (asyncDisconnect force).Keen E := by
  refine keen_state (fun g => keen_bind (keen_when (keen_unsubscribeGateway E)) (fun _ => keen_state (fun g => ?_)))
  split
  · exact keen_close _ _
  · exact keen_throw _

theorem keen_attempt {α : Type} (r : Int) {method : Nat → Int → Co α} (hm : ∀ c r, (method c r).Keen E) : (attemptRequest r method).Keen E := by
  refine keen_bind (keen_connect E _) (fun ok => keen_ite (keen_state (fun g => ?_)) (keen_throw _))
  split
  · exact hm _ _
  · exact keen_throw _

theorem keen_connected {α : Type} {method : Nat → Int → Co α} (hm : ∀ c r, (method c r).Keen E) : (connectedRequest method).Keen E :=
  keen_state (fun g => keen_try (keen_attempt E _ hm) (fun e => keen_ite
    (keen_bind (keen_disconnect E _) (fun _ => keen_bind keen_pause (fun _ => keen_attempt E _ hm))) (keen_throw _)))

theorem keen_poll {method : Nat → Int → Co (Option Bytes)} (key : Path) (hm : ∀ c r, (method c r).Keen E) : (poll key method).Keen E := by
  refine keen_bind (keen_connected E hm) (fun raw => ?_)
  split
  · exact keen_modify (fun _ => rfl)
  · exact keen_ret _

theorem keen_subscribeGateway : subscribeGateway.Keen E := by
  refine keen_state (fun g => keen_ite (keen_lock (keen_state (fun g => keen_ite (keen_ret _) ?_))) (keen_ret _))
  refine keen_bind (keen_connected E (fun c r => keen_ack E _ _)) (fun _ => keen_bind (keen_modify (fun _ => rfl)) (fun _ => keen_state (fun g => ?_)))
  split
  · exact keen_modify (fun _ => rfl)
  · exact keen_throw _

theorem keen_registerAll (c : Nat) : ∀ l, (registerAll c l).Keen E
  | [] => keen_ret _
  | (code, _) :: rest => keen_bind (keen_modify (fun _ => rfl)) (fun _ => keen_registerAll c rest)

theorem keen_attach (c : Nat) : (attach c).Keen E :=
  keen_bind (keen_modify (fun _ => rfl)) (fun _ => keen_state (fun g => keen_ite
    (keen_bind (keen_modify (fun _ => rfl)) (fun _ => keen_bind (keen_registerAll E c _) (fun _ => keen_subscribeGateway E))) (keen_ret _)))

theorem keen_afterOpen (r : Int) (c : Nat) : (afterOpen E r c).Keen E := by
  refine keen_bind ?_ (fun mac => ?_)
  · refine keen_bind ?_ (fun mac => keen_bind (keen_ofExcept _) (fun msg => keen_bind (keen_make (code := 27) _ _ _) (fun r => ?_)))
    · refine keen_bind (keen_modify (fun _ => rfl)) (fun _ => keen_bind keen_pause (fun _ => keen_state (fun g => ?_)))
      refine keen_ite (keen_bind (keen_make (code := 14) _ _ _) (fun r => ?_)) (keen_throw _)
      split
      · exact keen_ofExcept _
      · exact keen_throw _
    · split <;> exact ⟨trivial, trivial⟩
  · split
    · exact ⟨trivial, trivial⟩
    · refine keen_bind (keen_modify (fun _ => rfl)) (fun _ => keen_bind ?_ (fun _ => ?_))
      · exact keen_state (fun g => keen_bind (keen_query E _ _) (fun raw => keen_modify (fun _ => rfl)))
      · refine keen_state (fun g => keen_ite (keen_bind (keen_poll E _ (fun c r => keen_query E _ _)) (fun _ => keen_state (fun g => ?_))) (keen_ret _))
        split
        · exact keen_bind (keen_attach E _) (fun _ => keen_ret _)
        · exact keen_throw _

theorem keen_requestPump (i : Int) (c : Nat) (r : Int) : (requestPump E i c r).Keen E :=
  keen_query (D := fun _ => .pump i) (code := 12584) (payload := packObjs [.int 0, .int i]) E c r

theorem keen_getPump (i : Nat) : (getPump E i).Keen E := by
  have h : (modify (fun g => g.putLastNew [.s "pumps"] (.dict []))).Keen E := keen_modify (fun _ => rfl)
  refine keen_state (fun g => keen_bind (keen_ofExcept _) (fun fl => ?_))
  refine keen_ite (keen_bind h (fun _ => ?_)) (keen_ret _)
  generalize (i : Int) = j
  exact keen_poll E _ (fun c r => keen_requestPump E j c r)

theorem keen_getPumpsFrom : ∀ (n i : Nat), (getPumpsFrom E n i).Keen E
  | 0, i => keen_ret _
  | n + 1, i => keen_bind (keen_getPump E i) (fun _ => keen_getPumpsFrom n (i + 1))

theorem keen_update : (asyncUpdate E).Keen E := by
  refine keen_state (fun g => keen_ite ?_ (keen_throw _))
  exact keen_bind (keen_poll E _ (fun c r => keen_query E _ _)) (fun _ => keen_bind (keen_getPumpsFrom E _ _) (fun _ =>
    keen_bind (keen_poll E _ (fun c r => keen_query E _ _)) (fun _ => keen_bind (keen_poll E _ (fun c r => keen_query E _ _)) (fun _ =>
      keen_poll E _ (fun c r => keen_query E _ _)))))

theorem keen_require (b : Except PyErr Bool) : (require b).Keen E := by
  unfold require
  split <;> exact ⟨trivial, trivial⟩

theorem keen_subscribe (cb code : Nat) : (subscribe cb code).Keen E := by
  refine keen_state (fun g => ?_)
  split
  · exact keen_bind (keen_modify (fun g => addListener_data g _ _)) (fun _ => keen_bind (keen_modify (fun _ => rfl)) (fun _ => keen_state (fun g' =>
      keen_bind (keen_when (keen_subscribeGateway E)) (fun _ => keen_ret _))))
  · exact keen_ret _

theorem keen_call (a : Call) (hs : ∀ code data, a ≠ .send code data) : (a.co E).Keen E := by
  have ack : ∀ {code : Int} {p : Except PyErr Bytes}, code ∉ [(12526 : Int), 12532, 12572, 12592, 12584, 8120, 8110] → (connectedRequest (ackRequest code p)).Keen E :=
    fun hc => keen_connected E (fun c r => keen_ack E _ _ hc)
  have q : ∀ {D : Gw → Decoder} {code : Int} {p : Except PyErr Bytes} {key : Path}, (∀ g, (D g).query = some (code, p)) → (poll key (queryRequest E D code p)).Keen E :=
    fun hD => keen_poll E _ (fun c r => keen_query E _ _ hD)
  cases a with
  | connect a => exact keen_bind (keen_connect E a) (fun _ => keen_ret _)
  | disconnect f => exact keen_bind (keen_disconnect E f) (fun _ => keen_ret _)
  | update => exact keen_bind (keen_update E) (fun _ => keen_ret _)
  | getConfig => exact keen_bind (q (fun g => rfl)) (fun _ => keen_ret _)
  | getStatus => exact keen_bind (q (fun g => rfl)) (fun _ => keen_ret _)
  | getPumps => exact keen_bind (keen_getPumpsFrom E _ _) (fun _ => keen_ret _)
  | getChemistry => exact keen_bind (q (fun g => rfl)) (fun _ => keen_ret _)
  | getScg => exact keen_bind (q (fun g => rfl)) (fun _ => keen_ret _)
  | getDatetime => exact keen_bind (q (fun g => rfl)) (fun _ => keen_ret _)
  | setCircuit a b =>
    exact keen_bind (keen_state (fun g => keen_bind (keen_require E _) (fun _ => keen_bind (keen_require E _) (fun _ => ack (by decide))))) (fun _ => keen_ret _)
  | setHeatTemp a b =>
    exact keen_bind (keen_state (fun g => keen_bind (keen_require E _) (fun _ => keen_bind (keen_require E _) (fun _ => ack (by decide))))) (fun _ => keen_ret _)
  | setHeatMode a b =>
    exact keen_bind (keen_state (fun g => keen_bind (keen_require E _) (fun _ => keen_bind (keen_require E _) (fun _ => ack (by decide))))) (fun _ => keen_ret _)
  | setColorLights a => exact keen_bind (keen_bind (keen_require E _) (fun _ => ack (by decide))) (fun _ => keen_ret _)
  | setScg a b c d => exact keen_bind (keen_state (fun g => keen_bind (keen_ofExcept _) (fun _ => ack (by decide)))) (fun _ => keen_ret _)
  | setChem a b c d e f =>
    exact keen_bind (keen_state (fun g => keen_bind (keen_ofExcept _) (fun _ => keen_bind (keen_ofExcept _) (fun _ => ack (by decide))))) (fun _ => keen_ret _)
  | setDateTime t v =>
    exact keen_bind (keen_ite (keen_throw _) (keen_state (fun g => keen_bind (keen_ofExcept _) (fun _ => keen_bind (keen_ofExcept _) (fun _ => ack (by decide))))))
      (fun _ => keen_ret _)
  | subscribe cb code => exact keen_bind (keen_subscribe E cb code) (fun _ => keen_ret _)
  | send code data => exact absurd rfl (hs code data)

theorem keen_ping : pingCo.Keen E := by
  refine keen_bind (keen_state (fun g => ?_)) (fun _ => keen_ret _)
  split
  · exact keen_try (keen_ack E _ _) (fun e => keen_ite (keen_ret _) (keen_throw _))
  · exact keen_throw _

theorem keen_unsub : unsubCo.Keen E := keen_bind (keen_unsubscribeGateway E) (fun _ => keen_ret _)

end
end SL
