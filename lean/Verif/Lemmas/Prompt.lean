import Verif.Lemmas.Named
import Verif.Spec.Latest
/-!
# Replies are read at once

A coroutine changes the data only between the moment it is handed a reply and the next time it suspends.
-/
set_option linter.unusedVariables false
set_option maxRecDepth 20000
namespace SL

/-- The data are changed only when `b`, or when a reply has been handed over since the last suspension. -/
def Co.Prompt {α : Type} : Prop → Co α → Prop
  | _, .ret a => True
  | _, .throw e => True
  | b, .get k => ∀ g : Gw, (k g).Prompt b
  | b, .upd f k => (b ∨ ∀ g, (f g).data = g.data) ∧ k.Prompt b
  | b, .request _ _ _ _ k => ∀ o, (k o).Prompt True
  | b, .openConn _ k => ∀ o, (k o).Prompt False
  | b, .sleep k => ∀ o, (k o).Prompt False
  | b, .close _ _ k => ∀ o, (k o).Prompt False
  | b, .acquire k => ∀ o, (k o).Prompt False

theorem Co.Prompt.mono {α : Type} : ∀ (x : Co α) {b b' : Prop}, (b → b') → x.Prompt b → x.Prompt b'
  | .ret a, _, _, _, _ => trivial
  | .throw e, _, _, _, _ => trivial
  | .get k, _, _, h, w => fun g => Co.Prompt.mono (k g) h (w g)
  | .upd _ k, _, _, h, w => ⟨w.1.imp h id, Co.Prompt.mono k h w.2⟩
  | .request _ _ _ _ k, _, _, h, w => w
  | .openConn _ k, _, _, h, w => w
  | .sleep k, _, _, h, w => w
  | .close _ _ k, _, _, h, w => w
  | .acquire k, _, _, h, w => w

/-- It changes no data before it has been handed a reply. -/
def Co.Dry {α : Type} (x : Co α) : Prop := x.Prompt False

section
variable {α β : Type}

theorem Co.Dry.any {x : Co α} (h : x.Dry) (b : Prop) : x.Prompt b := Co.Prompt.mono x False.elim h

theorem Co.prompt_bindE {f : Except PyErr α → Co β} (hf : ∀ o, (f o).Dry) : ∀ (x : Co α) (b : Prop), x.Prompt b → (x.bindE f).Prompt b
  | .ret a, b, w => (hf _).any b
  | .throw e, b, w => (hf _).any b
  | .get k, b, w => fun g => prompt_bindE hf (k g) b (w g)
  | .upd _ k, b, w => ⟨w.1, prompt_bindE hf k b w.2⟩
  | .request _ _ _ _ k, b, w => fun o => prompt_bindE hf (k o) _ (w o)
  | .openConn _ k, b, w => fun o => prompt_bindE hf (k o) _ (w o)
  | .sleep k, b, w => fun o => prompt_bindE hf (k o) _ (w o)
  | .close _ _ k, b, w => fun o => prompt_bindE hf (k o) _ (w o)
  | .acquire k, b, w => fun o => prompt_bindE hf (k o) _ (w o)

theorem Co.dry_throw (e : PyErr) : (Co.throw e : Co α).Dry := trivial
theorem Co.dry_ret (a : α) : (Co.ret a).Dry := trivial
theorem Co.dry_pure (a : α) : (pure a : Co α).Dry := trivial
theorem Co.dry_bindE {x : Co α} {f : Except PyErr α → Co β} (hx : x.Dry) (hf : ∀ o, (f o).Dry) : (x.bindE f).Dry := prompt_bindE hf x _ hx
theorem Co.dry_bind {x : Co α} {f : α → Co β} (hx : x.Dry) (hf : ∀ a, (f a).Dry) : (x >>= f).Dry := by
  refine dry_bindE (f := fun o => match o with | .ok a => f a | .error e => .throw e) hx ?_
  intro o
  cases o with
  | ok a => exact hf a
  | error e => exact trivial
theorem Co.prompt_bind {x : Co α} {f : α → Co β} {b : Prop} (hx : x.Prompt b) (hf : ∀ a, (f a).Dry) : (x >>= f).Prompt b := by
  refine prompt_bindE (f := fun o => match o with | .ok a => f a | .error e => .throw e) ?_ x b hx
  intro o
  cases o with
  | ok a => exact hf a
  | error e => exact trivial
theorem Co.dry_state {f : Gw → Co α} (hf : ∀ g, (f g).Dry) : (state >>= f).Dry := fun g => hf g
theorem Co.dry_modify {f : Gw → Gw} (h : ∀ g, (f g).data = g.data) : (modify f).Dry := ⟨.inr h, trivial⟩
theorem Co.dry_ofExcept (x : Except PyErr α) : (ofExcept x).Dry := by cases x <;> trivial
theorem Co.dry_make (c : Nat) (code : Int) (data : Bytes) (r : Int) : (makeRequest c code data r).Dry := fun o => (dry_ofExcept o).any _
/-- After a reply the data may change. -/
theorem Co.dry_make_bind (c : Nat) (code : Int) (data : Bytes) (r : Int) {f : Option Bytes → Co α} (hf : ∀ v, (f v).Prompt True) :
    (makeRequest c code data r >>= f).Dry := by
  intro o
  cases o with
  | ok v => exact hf v
  | error e => exact trivial
theorem Co.dry_pause : pause.Dry := fun o => dry_ofExcept o
theorem Co.dry_close (c : Nat) (force : Bool) : (closeConn c force).Dry := fun o => dry_ofExcept o
theorem Co.dry_try {x : Co α} {f : PyErr → Co α} (hx : x.Dry) (hf : ∀ e, (f e).Dry) : (tryExcept x f).Dry := by
  refine dry_bindE (f := fun o => match o with | .ok a => .ret a | .error e => f e) hx ?_
  intro o
  cases o with
  | ok a => exact trivial
  | error e => exact hf e
theorem Co.dry_lock {x : Co α} (hx : x.Dry) : (withLock x).Dry := by
  intro o
  cases o with
  | error e => exact trivial
  | ok u => exact dry_bindE (f := fun r => .upd Gw.release (ofExcept r)) hx (fun o => ⟨.inr (fun _ => rfl), dry_ofExcept o⟩)
theorem Co.dry_ite {c : Prop} [Decidable c] {x y : Co α} (hx : x.Dry) (hy : y.Dry) : (if c then x else y).Dry := by
  split
  · exact hx
  · exact hy
theorem Co.dry_when {b : Bool} {x : Co Unit} (hx : x.Dry) : (whenCo b x).Dry := dry_ite hx (dry_ret _)

end

section
variable (E : Env)

open Co

theorem dry_connect (a : ConnectArgs) : (asyncConnect a).Dry := by
  intro g
  refine (dry_ite (dry_ret _) ?_)
  refine ⟨.inr (fun _ => rfl), fun g => ?_⟩
  refine (dry_ite (dry_throw _) ?_)
  exact fun o => dry_ofExcept o

theorem dry_ack (code : Int) (payload : Except PyErr Bytes) (c : Nat) (r : Int) : (ackRequest code payload c r).Dry :=
  dry_bind (dry_ofExcept _) (fun data => dry_bind (dry_make _ _ _ _) (fun v => dry_ite (dry_ret _) (dry_throw _)))

theorem prompt_decode (D : Decoder) (b : Bytes) : (decodeCo E D b).Prompt True :=
  fun g => ⟨.inl trivial, (dry_ofExcept _).any _⟩

theorem dry_query (D : Gw → Decoder) (code : Int) (payload : Except PyErr Bytes) (c : Nat) (r : Int) :
    (queryRequest E D code payload c r).Dry := by
  refine dry_bind (dry_ofExcept _) (fun data => dry_make_bind _ _ _ _ (fun v => ?_))
  split
  · exact fun g => prompt_bind (prompt_decode E _ _) (fun _ => dry_ret _)
  · exact trivial

theorem dry_unsubscribeGateway : unsubscribeGateway.Dry := by
  refine dry_state (fun g => dry_ite (dry_lock (dry_state (fun g => ?_))) (dry_ret _))
  split
  · exact dry_bind (dry_modify (fun _ => rfl)) (fun _ => dry_bind (dry_modify (fun _ => rfl)) (fun _ =>
      dry_bind (dry_modify (fun _ => rfl)) (fun _ => dry_try (dry_ack _ _ _ _) (fun e => dry_ite (dry_ret _) (dry_throw _)))))
  · exact dry_ret _

theorem dry_disconnect (force : Bool) : (asyncDisconnect force).Dry := by
  refine dry_state (fun g => dry_bind (dry_when dry_unsubscribeGateway) (fun _ => dry_state (fun g => ?_)))
  split
  · exact dry_close _ _
  · exact dry_throw _

theorem dry_attempt {α : Type} (r : Int) {method : Nat → Int → Co α} (hm : ∀ c r, (method c r).Dry) : (attemptRequest r method).Dry := by
  refine dry_bind (dry_connect _) (fun ok => dry_ite (dry_state (fun g => ?_)) (dry_throw _))
  split
  · exact hm _ _
  · exact dry_throw _

theorem dry_connected {α : Type} {method : Nat → Int → Co α} (hm : ∀ c r, (method c r).Dry) : (connectedRequest method).Dry :=
  dry_state (fun g => dry_try (dry_attempt _ hm) (fun e => dry_ite
    (dry_bind (dry_disconnect _) (fun _ => dry_bind dry_pause (fun _ => dry_attempt _ hm))) (dry_throw _)))

theorem dry_poll {method : Nat → Int → Co (Option Bytes)} (key : Path) (hm : ∀ c r, (method c r).Dry) : (poll key method).Dry := by
  refine dry_bind (dry_connected hm) (fun raw => ?_)
  split
  · exact dry_modify (fun _ => rfl)
  · exact dry_ret _

theorem dry_subscribeGateway : subscribeGateway.Dry := by
  refine dry_state (fun g => dry_ite (dry_lock (dry_state (fun g => dry_ite (dry_ret _) ?_))) (dry_ret _))
  refine dry_bind (dry_connected (fun c r => dry_ack _ _ _ _)) (fun _ => dry_bind (dry_modify (fun _ => rfl)) (fun _ => dry_state (fun g => ?_)))
  split
  · exact dry_modify (fun _ => rfl)
  · exact dry_throw _

theorem dry_registerAll (c : Nat) : ∀ l, (registerAll c l).Dry
  | [] => dry_ret _
  | (code, _) :: rest => dry_bind (dry_modify (fun _ => rfl)) (fun _ => dry_registerAll c rest)

theorem dry_attach (c : Nat) : (attach c).Dry :=
  dry_bind (dry_modify (fun _ => rfl)) (fun _ => dry_state (fun g => dry_ite
    (dry_bind (dry_modify (fun _ => rfl)) (fun _ => dry_bind (dry_registerAll c _) (fun _ => dry_subscribeGateway))) (dry_ret _)))

theorem dry_afterOpen (r : Int) (c : Nat) : (afterOpen E r c).Dry := by
  refine dry_bind ?_ (fun mac => ?_)
  · refine dry_bind ?_ (fun mac => dry_bind (dry_ofExcept _) (fun msg => dry_bind (dry_make _ _ _ _) (fun r => ?_)))
    · refine dry_bind (dry_modify (fun _ => rfl)) (fun _ => dry_bind dry_pause (fun _ => dry_state (fun g => ?_)))
      refine dry_ite (dry_bind (dry_make _ _ _ _) (fun r => ?_)) (dry_throw _)
      split
      · exact dry_ofExcept _
      · exact dry_throw _
    · split <;> exact trivial
  · split
    · exact trivial
    · refine dry_bind (dry_modify (fun _ => rfl)) (fun _ => dry_bind ?_ (fun _ => ?_))
      · exact dry_state (fun g => dry_bind (dry_query E _ _ _ _ _) (fun raw => dry_modify (fun _ => rfl)))
      · refine dry_state (fun g => dry_ite (dry_bind (dry_poll _ (fun c r => dry_query E _ _ _ _ _)) (fun _ => dry_state (fun g => ?_))) (dry_ret _))
        split
        · exact dry_bind (dry_attach _) (fun _ => dry_ret _)
        · exact dry_throw _

theorem dry_requestPump (i : Int) (c : Nat) (r : Int) : (requestPump E i c r).Dry :=
  dry_query E (fun _ => .pump i) 12584 (packObjs [.int 0, .int i]) c r

theorem dry_getPump (i : Nat) : (getPump E i).Dry := by
  have h : (modify (fun g => g.putLastNew [.s "pumps"] (.dict []))).Dry := dry_modify (fun _ => rfl)
  refine dry_state (fun g => dry_bind (dry_ofExcept _) (fun fl => ?_))
  refine dry_ite (dry_bind h (fun _ => ?_)) (dry_ret _)
  generalize (i : Int) = j
  exact dry_poll _ (fun c r => dry_requestPump E j c r)

theorem dry_getPumpsFrom : ∀ (n i : Nat), (getPumpsFrom E n i).Dry
  | 0, i => dry_ret _
  | n + 1, i => dry_bind (dry_getPump E i) (fun _ => dry_getPumpsFrom n (i + 1))

theorem dry_update : (asyncUpdate E).Dry := by
  refine dry_state (fun g => dry_ite ?_ (dry_throw _))
  exact dry_bind (dry_poll _ (fun c r => dry_query E _ _ _ _ _)) (fun _ => dry_bind (dry_getPumpsFrom E _ _) (fun _ =>
    dry_bind (dry_poll _ (fun c r => dry_query E _ _ _ _ _)) (fun _ => dry_bind (dry_poll _ (fun c r => dry_query E _ _ _ _ _)) (fun _ =>
      dry_poll _ (fun c r => dry_query E _ _ _ _ _)))))

theorem dry_require (b : Except PyErr Bool) : (require b).Dry := by
  unfold require
  split <;> exact trivial

theorem addListener_data (g : Gw) (code cb : Nat) : (g.addListener code cb).2.data = g.data := by
  simp only [Gw.addListener]
  split <;> rfl

theorem dry_subscribe (cb code : Nat) : (subscribe cb code).Dry := by
  refine dry_state (fun g => ?_)
  split
  · exact dry_bind (dry_modify (fun g => addListener_data g _ _)) (fun _ => dry_bind (dry_modify (fun _ => rfl)) (fun _ => dry_state (fun g' =>
      dry_bind (dry_when dry_subscribeGateway) (fun _ => dry_ret _))))
  · exact dry_ret _

theorem dry_call (a : Call) : (a.co E).Dry := by
  have ack : ∀ {code : Int} {p : Except PyErr Bytes}, (connectedRequest (ackRequest code p)).Dry := dry_connected (fun c r => dry_ack _ _ _ _)
  have q : ∀ {D : Gw → Decoder} {code : Int} {p : Except PyErr Bytes} {key : Path}, (poll key (queryRequest E D code p)).Dry :=
    dry_poll _ (fun c r => dry_query E _ _ _ _ _)
  cases a with
  | connect a => exact dry_bind (dry_connect a) (fun _ => dry_ret _)
  | disconnect f => exact dry_bind (dry_disconnect f) (fun _ => dry_ret _)
  | update => exact dry_bind (dry_update E) (fun _ => dry_ret _)
  | getConfig => exact dry_bind q (fun _ => dry_ret _)
  | getStatus => exact dry_bind q (fun _ => dry_ret _)
  | getPumps => exact dry_bind (dry_getPumpsFrom E _ _) (fun _ => dry_ret _)
  | getChemistry => exact dry_bind q (fun _ => dry_ret _)
  | getScg => exact dry_bind q (fun _ => dry_ret _)
  | getDatetime => exact dry_bind q (fun _ => dry_ret _)
  | setCircuit a b =>
    exact dry_bind (dry_state (fun g => dry_bind (dry_require _) (fun _ => dry_bind (dry_require _) (fun _ => ack)))) (fun _ => dry_ret _)
  | setHeatTemp a b =>
    exact dry_bind (dry_state (fun g => dry_bind (dry_require _) (fun _ => dry_bind (dry_require _) (fun _ => ack)))) (fun _ => dry_ret _)
  | setHeatMode a b =>
    exact dry_bind (dry_state (fun g => dry_bind (dry_require _) (fun _ => dry_bind (dry_require _) (fun _ => ack)))) (fun _ => dry_ret _)
  | setColorLights a => exact dry_bind (dry_bind (dry_require _) (fun _ => ack)) (fun _ => dry_ret _)
  | setScg a b c d => exact dry_bind (dry_state (fun g => dry_bind (dry_ofExcept _) (fun _ => ack))) (fun _ => dry_ret _)
  | setChem a b c d e f =>
    exact dry_bind (dry_state (fun g => dry_bind (dry_ofExcept _) (fun _ => dry_bind (dry_ofExcept _) (fun _ => ack)))) (fun _ => dry_ret _)
  | setDateTime t v =>
    exact dry_bind (dry_ite (dry_throw _) (dry_state (fun g => dry_bind (dry_ofExcept _) (fun _ => dry_bind (dry_ofExcept _) (fun _ => ack)))))
      (fun _ => dry_ret _)
  | subscribe cb code => exact dry_bind (dry_subscribe cb code) (fun _ => dry_ret _)
  | send code data => exact dry_bind (dry_connected (fun c r => dry_make _ _ _ _)) (fun _ => dry_ret _)

theorem dry_ping : pingCo.Dry := by
  refine dry_bind (dry_state (fun g => ?_)) (fun _ => dry_ret _)
  split
  · exact dry_try (dry_ack _ _ _ _) (fun e => dry_ite (dry_ret _) (dry_throw _))
  · exact dry_throw _

theorem dry_unsub : unsubCo.Dry := dry_bind dry_unsubscribeGateway (fun _ => dry_ret _)

end
end SL
