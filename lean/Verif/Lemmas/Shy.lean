import Verif.Lemmas.Safe
import Verif.Spec.Handshake
/-!
# Which connections the tasks talk to

`Co.shy` : a task talks only to the gateway's (or client manager's) current connection, or to a connection it has just
opened and which nobody else knows; and it opens a connection only when the gateway is not connected.
-/
set_option linter.unusedVariables false

namespace SL

open Co (state modify makeRequest pause closeConn withLock tryExcept ofExcept)

theorem login_bytes : loginMessage = .ok loginBytes := by decide +kernel

/-- The gateway or its client manager uses connection `c`. -/
def Using (g : Gw) (c : Nat) : Prop := g.protocol = some c ∨ g.cmProto = some c

theorem Using.apply {g : Gw} {c : Nat} {f : Gw → Gw} (h1 : (f g).protocol = g.protocol) (h2 : (f g).cmProto = g.cmProto) (h : Using g c) :
    Using (g.apply f) c := h.imp (fun h => h1.trans h) (fun h => h2.trans h)

/-- A connection a task has opened, and how many of the greetings it has sent there. -/
abbrev Own := Option (Nat × Nat)

def Own.Free (own : Own) (g : Gw) : Prop := ∀ c i, own = some (c, i) → ¬ Using g c

theorem Own.free_none (g : Gw) : Own.Free none g := by intro c i h; cases h

/-- One greeting more. -/
def Own.next (c i : Nat) : Own := if i < 2 then some (c, i + 1) else none

/-- What a change must leave alone. -/
structure Shies (own : Own) (g g' : Gw) : Prop where
  use : ∀ c, Using g' c → Using g c ∨ own = some (c, 2)
  raw : g'.conns.map (·.raw) = g.conns.map (·.raw)
  proto : g'.protocol = g.protocol ∨ ∃ c, own = some (c, 2) ∧ g'.protocol = some c

def Co.shy {α : Type} (Q : Own → Except PyErr α → Gw → Prop) : Co α → Own → Gw → Prop
  | .ret a, own, g => Q own (.ok a) g
  | .throw e, own, g => Q own (.error e) g
  | .get k, own, g => (k g).shy Q own g
  | .upd f k, own, g => Shies own g (g.apply f) ∧ k.shy Q own (g.apply f)
  | .request c code data r k, own, g =>
    (∃ i, own = some (c, i) ∧ greetings[i]? = some (code, data) ∧ (i < 2 → ¬ Using g c) ∧
      ∀ g' o, Own.Free (Own.next c i) g' → (k o).shy Q (Own.next c i) g') ∨
    (Using g c ∧ Own.Free own g ∧ ∀ g' o, (k o).shy Q none g')
  | .openConn r k, own, g => Own.Free own g ∧ g.isConnected = false ∧ ∀ own' g' o, Own.Free own' g' → (k o).shy Q own' g'
  | .sleep k, own, g => Own.Free own g ∧ ∀ g' o, Own.Free own g' → (k o).shy Q own g'
  | .close c force k, own, g => Own.Free own g ∧ ∀ g' o, Own.Free own g' → (k o).shy Q own g'
  | .acquire k, own, g => Own.Free own g ∧ ∀ g' o, Own.Free own g' → (k o).shy Q own g'

section
variable {α β : Type}

theorem Co.shy_mono {Q Q' : Own → Except PyErr α → Gw → Prop} (hQ : ∀ own o g, Q own o g → Q' own o g) :
    ∀ (x : Co α) (own : Own) (g : Gw), x.shy Q own g → x.shy Q' own g
  | .ret a, own, g, h => hQ _ _ _ h
  | .throw e, own, g, h => hQ _ _ _ h
  | .get k, own, g, h => shy_mono hQ (k g) own g h
  | .upd f k, own, g, h => ⟨h.1, shy_mono hQ k own _ h.2⟩
  | .request c code data r k, own, g, h =>
    h.imp (fun ⟨i, h1, h2, h3, h4⟩ => ⟨i, h1, h2, h3, fun g' o hf => shy_mono hQ (k o) _ _ (h4 g' o hf)⟩)
      (fun ⟨h1, h2, h3⟩ => ⟨h1, h2, fun g' o => shy_mono hQ (k o) _ _ (h3 g' o)⟩)
  | .openConn r k, own, g, h => ⟨h.1, h.2.1, fun own' g' o hf => shy_mono hQ (k o) _ _ (h.2.2 own' g' o hf)⟩
  | .sleep k, own, g, h => ⟨h.1, fun g' o hf => shy_mono hQ (k o) _ _ (h.2 g' o hf)⟩
  | .close c force k, own, g, h => ⟨h.1, fun g' o hf => shy_mono hQ (k o) _ _ (h.2 g' o hf)⟩
  | .acquire k, own, g, h => ⟨h.1, fun g' o hf => shy_mono hQ (k o) _ _ (h.2 g' o hf)⟩

theorem Co.shy_bindE {Q : Own → Except PyErr β → Gw → Prop} (f : Except PyErr α → Co β) :
    ∀ (x : Co α) (own : Own) (g : Gw), x.shy (fun own o g => (f o).shy Q own g) own g → (x.bindE f).shy Q own g
  | .ret a, own, g, h => h
  | .throw e, own, g, h => h
  | .get k, own, g, h => shy_bindE f (k g) own g h
  | .upd u k, own, g, h => ⟨h.1, shy_bindE f k own _ h.2⟩
  | .request c code data r k, own, g, h =>
    h.imp (fun ⟨i, h1, h2, h3, h4⟩ => ⟨i, h1, h2, h3, fun g' o hf => shy_bindE f (k o) _ _ (h4 g' o hf)⟩)
      (fun ⟨h1, h2, h3⟩ => ⟨h1, h2, fun g' o => shy_bindE f (k o) _ _ (h3 g' o)⟩)
  | .openConn r k, own, g, h => ⟨h.1, h.2.1, fun own' g' o hf => shy_bindE f (k o) _ _ (h.2.2 own' g' o hf)⟩
  | .sleep k, own, g, h => ⟨h.1, fun g' o hf => shy_bindE f (k o) _ _ (h.2 g' o hf)⟩
  | .close c force k, own, g, h => ⟨h.1, fun g' o hf => shy_bindE f (k o) _ _ (h.2 g' o hf)⟩
  | .acquire k, own, g, h => ⟨h.1, fun g' o hf => shy_bindE f (k o) _ _ (h.2 g' o hf)⟩

/-- However it ends, the task leaves its own connection alone. -/
def shyEnd {α : Type} (own : Own) (_ : Except PyErr α) (g : Gw) : Prop := Own.Free own g

/-- Fine from the state `g` on, whatever the task owns. -/
def Co.TameAt (x : Co α) (g : Gw) : Prop := ∀ own : Own, own.Free g → x.shy shyEnd own g

/-- Fine from any state on. -/
def Co.Tame (x : Co α) : Prop := ∀ g, x.TameAt g

theorem Co.tame_bindE {x : Co α} {g : Gw} {f : Except PyErr α → Co β} (hx : x.TameAt g) (hf : ∀ o, (f o).Tame) : (x.bindE f).TameAt g := by
  intro own h
  exact shy_bindE f x own g (shy_mono (fun own o g hq => hf o g own hq) x own g (hx own h))

theorem Co.tame_bind {x : Co α} {g : Gw} {f : α → Co β} (hx : x.TameAt g) (hf : ∀ a, (f a).Tame) : (x >>= f).TameAt g := by
  refine tame_bindE hx (fun o => ?_)
  cases o with
  | ok a => exact hf a
  | error e => exact fun g own h => h

theorem Co.tame_ret (a : α) (g : Gw) : (pure a : Co α).TameAt g := fun own h => h
theorem Co.tame_throw (e : PyErr) (g : Gw) : (Co.throw e : Co α).TameAt g := fun own h => h
theorem Co.tame_state {f : Gw → Co α} {g : Gw} (hf : (f g).TameAt g) : (state >>= f).TameAt g := hf
theorem Co.tame_modify {f : Gw → Gw} {g : Gw} {k : Unit → Co α} (hs : ∀ c, Using (f g) c → Using g c)
    (hr : (f g).conns.map (·.raw) = g.conns.map (·.raw)) (hk : (k ()).TameAt (g.apply f))
    (hp : (f g).protocol = g.protocol := by rfl) : (modify f >>= k).TameAt g := by
  intro own h
  refine ⟨⟨fun c hc => .inl (hs c hc), hr, .inl hp⟩, hk own (fun c i e hu => h c i e (hs c hu))⟩
theorem Co.tame_modify' {f : Gw → Gw} {g : Gw} (hs : ∀ c, Using (f g) c → Using g c)
    (hr : (f g).conns.map (·.raw) = g.conns.map (·.raw)) (hp : (f g).protocol = g.protocol := by rfl) : (modify f).TameAt g := by
  intro own h
  exact ⟨⟨fun c hc => .inl (hs c hc), hr, .inl hp⟩, fun c i e hu => h c i e (hs c hu)⟩
theorem Co.tame_ofExcept (x : Except PyErr α) (g : Gw) : (ofExcept x).TameAt g := by cases x <;> exact fun own h => h
theorem Co.tame_ofExcept_bind {x : Except PyErr β} {g : Gw} {f : β → Co α} (hf : ∀ a, (f a).TameAt g) : (ofExcept x >>= f).TameAt g := by
  cases x with
  | ok a => exact hf a
  | error e => exact fun own h => h
theorem Co.tame_make {c : Nat} {g : Gw} (hu : Using g c) (code : Int) (data : Bytes) (r : Int) : (makeRequest c code data r).TameAt g :=
  fun own h => .inr ⟨hu, h, fun g' o => tame_ofExcept o g' none (Own.free_none g')⟩
theorem Co.tame_pause (g : Gw) : pause.TameAt g := fun own h => ⟨h, fun g' o hf => tame_ofExcept o g' own hf⟩
theorem Co.tame_close (c : Nat) (force : Bool) (g : Gw) : (closeConn c force).TameAt g :=
  fun own h => ⟨h, fun g' o hf => tame_ofExcept o g' own hf⟩
theorem Co.tame_try {x : Co α} {g : Gw} {f : PyErr → Co α} (hx : x.TameAt g) (hf : ∀ e, (f e).Tame) : (tryExcept x f).TameAt g := by
  refine tame_bindE hx (fun o => ?_)
  cases o with
  | ok a => exact fun g own h => h
  | error e => exact hf e
theorem Co.tame_lock {x : Co α} (hx : x.Tame) (g : Gw) : (withLock x).TameAt g := by
  refine fun own h => ⟨h, fun g' o hf => ?_⟩
  cases o with
  | error e => exact hf
  | ok u =>
    refine tame_bindE (hx g') (fun o => ?_) own hf
    intro g own hf
    exact ⟨⟨fun c hc => .inl hc, rfl, .inl rfl⟩, tame_ofExcept o _ own hf⟩
theorem Co.tame_ite {c : Prop} [Decidable c] {x y : Co α} {g : Gw} (hx : x.TameAt g) (hy : y.TameAt g) : (if c then x else y).TameAt g := by
  split
  · exact hx
  · exact hy
theorem Co.tame_when {b : Bool} {x : Co Unit} {g : Gw} (hx : x.TameAt g) : (whenCo b x).TameAt g := tame_ite hx (fun own h => h)

end

theorem raw_net (g : Gw) (c : Nat) (e : Event) : (g.net c e).conns.map (·.raw) = g.conns.map (·.raw) := by
  simp only [Gw.net]
  apply List.ext_getElem?
  intro i
  simp only [List.getElem?_map, List.getElem?_modify]
  cases g.conns[i]? with
  | none => rfl
  | some x =>
    by_cases h : c = i <;> simp [h]

section
variable (E : Env)

open Co

theorem tame_connect (a : ConnectArgs) : (asyncConnect a).Tame := by
  intro g own h
  change Co.shy _ (if g.isConnected then _ else _) own g
  split
  · exact h
  · rename_i hc
    have hc : g.isConnected = false := by simpa using hc
    refine ⟨⟨fun c hc => .inl hc, rfl, .inl rfl⟩, ?_⟩
    change Co.shy _ (if (g.remember a).noIp then _ else _) own (g.remember a)
    split
    · exact h
    · exact ⟨h, hc, fun own' g' o hf => tame_ofExcept o g' own' hf⟩

theorem tame_ack {c : Nat} {g : Gw} (hu : Using g c) (code : Int) (payload : Except PyErr Bytes) (r : Int) :
    (ackRequest code payload c r).TameAt g := by
  exact tame_ofExcept_bind (fun data => tame_bind (tame_make hu _ _ _) (fun v g => tame_ite (tame_ret _ g) (tame_throw _ g)))

theorem tame_decode (D : Decoder) (b : Bytes) : (decodeCo E D b).Tame :=
  fun g => tame_state (tame_modify (f := fun g' => g'.setData (decodeWith (D.prog E.pyFloat) b g.data).2) (fun c h => h) rfl (tame_ofExcept _ _))

theorem tame_query {c : Nat} {g : Gw} (hu : Using g c) (D : Gw → Decoder) (code : Int) (payload : Except PyErr Bytes) (r : Int) :
    (queryRequest E D code payload c r).TameAt g := by
  refine tame_ofExcept_bind (fun data => tame_bind (tame_make hu _ _ _) (fun v g => ?_))
  split
  · exact tame_state (tame_bind (tame_decode E _ _ g) (fun _ g => tame_ret _ g))
  · exact tame_ret _ g

theorem tame_unsubscribeGateway : unsubscribeGateway.Tame := by
  refine fun g => tame_state (tame_ite (tame_lock (fun g => tame_state ?_) g) (tame_ret _ g))
  split
  · rename_i c hcl hcm
    refine tame_modify (f := fun g => g.setClient false) (fun c h => h) rfl ?_
    refine tame_modify (f := fun g => g.net c .disableKeepalive) (fun c h => h) (raw_net _ _ _) ?_
    refine tame_modify (f := fun g => g.net c .unregisterAll) (fun c h => h) (raw_net _ _ _) ?_
    have hu : Using (((g.apply (fun g => g.setClient false)).apply (fun g => g.net c .disableKeepalive)).apply (fun g => g.net c .unregisterAll)) c :=
      Using.apply (f := fun g => g.net c .unregisterAll) rfl rfl (Using.apply (f := fun g => g.net c .disableKeepalive) rfl rfl
        (Using.apply (f := fun g => g.setClient false) rfl rfl (.inr hcm)))
    have := tame_ack hu 12524 (packObjs [.int 0, .int g.clientId]) 0
    generalize ((g.apply (fun g => g.setClient false)).apply (fun g => g.net c .disableKeepalive)).apply (fun g => g.net c .unregisterAll) = g1 at this
    refine tame_try ?_ (fun e g => tame_ite (tame_ret _ g) (tame_throw _ g))
    exact this
  · exact tame_ret _ g

theorem tame_disconnect (force : Bool) : (asyncDisconnect force).Tame := by
  refine fun g => tame_state (tame_bind (tame_when (tame_unsubscribeGateway g)) (fun _ g => tame_state ?_))
  split
  · exact tame_close _ _ g
  · exact tame_throw _ g

theorem tame_attempt {α : Type} (r : Int) {method : Nat → Int → Co α} (hm : ∀ c r g, Using g c → (method c r).TameAt g) :
    (attemptRequest r method).Tame := by
  refine fun g => tame_bind (tame_connect {} g) (fun ok g => tame_ite (tame_state ?_) (tame_throw _ g))
  split
  · rename_i c hp
    exact hm _ _ _ (.inl hp)
  · exact tame_throw _ g

theorem tame_connected {α : Type} {method : Nat → Int → Co α} (hm : ∀ c r g, Using g c → (method c r).TameAt g) :
    (connectedRequest method).Tame :=
  fun g => tame_state (tame_try (tame_attempt _ hm g) (fun e g => tame_ite
    (tame_bind (tame_disconnect _ g) (fun _ g => tame_bind (tame_pause g) (fun _ g => tame_attempt _ hm g))) (tame_throw _ g)))

theorem tame_subscribeGateway : subscribeGateway.Tame := by
  refine fun g => tame_state (tame_ite (tame_lock (fun g => tame_state (tame_ite (tame_ret _ g) ?_)) g) (tame_ret _ g))
  refine tame_bind (tame_connected (fun c r g hu => tame_ack hu _ _ _) g) (fun _ g => tame_modify (f := fun g => g.setClient true) (fun c h => h) rfl (tame_state ?_))
  split
  · exact tame_modify' (f := fun g => g.net _ (.enableKeepalive 0)) (fun c h => h) (raw_net _ _ _)
  · exact tame_throw _ _

theorem tame_registerAll (c : Nat) : ∀ l, (registerAll c l).Tame
  | [], g => tame_ret _ g
  | (code, _) :: rest, g => tame_modify (f := fun g => g.net c (.register code (commonHandler code))) (fun c h => h) (raw_net _ _ _)
    (tame_registerAll c rest _)

theorem tame_attach {c : Nat} {g : Gw} (hu : Using g c) : (attach c).TameAt g := by
  refine tame_modify (f := fun g => g.attachTo c) ?_ rfl (tame_state (tame_ite ?_ (tame_ret _ _)))
  · rintro c' (h | h)
    · exact .inl h
    · cases h; exact hu
  · exact tame_modify (f := fun g => g.net c .unregisterAll) (fun c h => h) (raw_net _ _ _)
      (tame_bind (tame_registerAll c _ _) (fun _ => tame_subscribeGateway))

theorem tame_poll {method : Nat → Int → Co (Option Bytes)} (key : Path) (hm : ∀ c r g, Using g c → (method c r).TameAt g) : (poll key method).Tame := by
  refine fun g => tame_bind (tame_connected hm g) (fun raw g => ?_)
  split
  · exact tame_modify' (f := fun g => g.putLast _ _) (fun c h => h) rfl
  · exact tame_ret _ g

theorem tame_requestPump (j : Int) (c : Nat) (r : Int) (g : Gw) (hu : Using g c) : (requestPump E j c r).TameAt g :=
  tame_query E hu (fun _ => .pump j) 12584 (packObjs [.int 0, .int j]) r

theorem tame_getPump (i : Nat) : (getPump E i).Tame := by
  have q : ∀ c r g, Using g c → (requestPump E i c r).TameAt g := by
    generalize (i : Int) = j
    exact tame_requestPump E j
  simp only [getPump]
  generalize requestPump E i = m at q
  refine fun g => tame_state (tame_bind (tame_ofExcept _ g) (fun f g => ?_))
  split
  · exact tame_modify (f := fun g => g.putLastNew [.s "pumps"] (.dict [])) (fun c h => h) rfl (tame_poll _ q _)
  · exact tame_ret _ g

theorem tame_getPumpsFrom : ∀ n i, (getPumpsFrom E n i).Tame
  | 0, _, g => tame_ret _ g
  | n + 1, i, g => tame_bind (tame_getPump E i g) (fun _ => tame_getPumpsFrom n (i + 1))

theorem tame_update : (asyncUpdate E).Tame := by
  have q : ∀ (D : Gw → Decoder) code payload, ∀ c r g, Using g c → (queryRequest E D code payload c r).TameAt g :=
    fun D code payload c r g hu => tame_query E hu D _ _ _
  exact fun g => tame_state (tame_ite (tame_bind (tame_poll _ (q _ _ _) g) (fun _ g => tame_bind (tame_getPumpsFrom E 8 0 g) (fun _ g =>
    tame_bind (tame_poll _ (q _ _ _) g) (fun _ g => tame_bind (tame_poll _ (q _ _ _) g) (fun _ => tame_poll _ (q _ _ _)))))) (tame_throw _ g))

theorem tame_require (b : Except PyErr Bool) : (require b).Tame := by
  intro g
  cases b with
  | error e => exact tame_throw _ g
  | ok b =>
    cases b
    · exact tame_throw _ g
    · exact tame_ret _ g

theorem tame_call (a : Call) : (a.co E).Tame := by
  have q : ∀ (D : Gw → Decoder) code payload, ∀ c r g, Using g c → (queryRequest E D code payload c r).TameAt g :=
    fun D code payload c r g hu => tame_query E hu D _ _ _
  have k : ∀ code payload, ∀ c r g, Using g c → (ackRequest code payload c r).TameAt g := fun code payload c r g hu => tame_ack hu _ _ _
  have rq := tame_require
  intro g
  cases a with
  | connect x => exact tame_bind (tame_connect x g) (fun _ g => tame_ret _ g)
  | disconnect force => exact tame_bind (tame_disconnect force g) (fun _ g => tame_ret _ g)
  | update => exact tame_bind (tame_update E g) (fun _ g => tame_ret _ g)
  | getConfig => exact tame_bind (tame_poll _ (q _ _ _) g) (fun _ g => tame_ret _ g)
  | getStatus => exact tame_bind (tame_poll _ (q _ _ _) g) (fun _ g => tame_ret _ g)
  | getPumps => exact tame_bind (tame_getPumpsFrom E 8 0 g) (fun _ g => tame_ret _ g)
  | getChemistry => exact tame_bind (tame_poll _ (q _ _ _) g) (fun _ g => tame_ret _ g)
  | getScg => exact tame_bind (tame_poll _ (q _ _ _) g) (fun _ g => tame_ret _ g)
  | getDatetime => exact tame_bind (tame_poll _ (q _ _ _) g) (fun _ g => tame_ret _ g)
  | setCircuit x y =>
    exact tame_bind (tame_state (tame_bind (rq _ g) (fun _ g => tame_bind (rq _ g) (fun _ => tame_connected (k _ _))))) (fun _ g => tame_ret _ g)
  | setHeatTemp x y =>
    exact tame_bind (tame_state (tame_bind (rq _ g) (fun _ g => tame_bind (rq _ g) (fun _ => tame_connected (k _ _))))) (fun _ g => tame_ret _ g)
  | setHeatMode x y =>
    exact tame_bind (tame_state (tame_bind (rq _ g) (fun _ g => tame_bind (rq _ g) (fun _ => tame_connected (k _ _))))) (fun _ g => tame_ret _ g)
  | setColorLights x => exact tame_bind (tame_bind (rq _ g) (fun _ => tame_connected (k _ _))) (fun _ g => tame_ret _ g)
  | setScg x y z w =>
    exact tame_bind (tame_state (tame_bind (tame_ofExcept _ g) (fun _ => tame_connected (k _ _)))) (fun _ g => tame_ret _ g)
  | setChem x y z w u v =>
    exact tame_bind (tame_state (tame_bind (tame_ofExcept _ g) (fun _ g => tame_bind (tame_ofExcept _ g) (fun _ => tame_connected (k _ _))))) (fun _ g => tame_ret _ g)
  | setDateTime x y =>
    exact tame_bind (tame_ite (tame_throw _ g) (tame_state (tame_bind (tame_ofExcept _ g) (fun _ g => tame_bind (tame_ofExcept _ g) (fun _ => tame_connected (k _ _)))))) (fun _ g => tame_ret _ g)
  | subscribe cb code =>
    refine tame_bind (tame_state ?_) (fun _ g => tame_ret _ g)
    split
    · refine tame_modify (f := fun g => (g.addListener code cb).2) ?_ ?_ ?_ (by simp only [Gw.addListener]; split <;> rfl)
      · intro c h
        simp only [Gw.addListener] at h
        split at h <;> exact h
      · simp only [Gw.addListener]
        split <;> rfl
      · exact tame_modify (f := fun g => g.net _ (.register code (commonHandler code))) (fun c h => h) (raw_net _ _ _)
          (tame_state (tame_bind (tame_when (tame_subscribeGateway _)) (fun _ g => tame_ret _ g)))
    · exact tame_ret _ g
  | send code data => exact tame_bind (tame_connected (fun c r g hu => tame_make hu _ _ _) g) (fun _ g => tame_ret _ g)

theorem tame_ping : pingCo.Tame := by
  refine fun g => tame_bind (tame_state ?_) (fun _ g => tame_ret _ g)
  split
  · rename_i c hc
    exact tame_try (tame_ack (.inr hc) _ _ _) (fun e g => tame_ite (tame_ret _ g) (tame_throw _ g))
  · exact tame_throw _ g

theorem tame_unsub : unsubCo.Tame := fun g => tame_bind (tame_unsubscribeGateway g) (fun _ g => tame_ret _ g)


/-- The postcondition of the first part of a sequence. -/
def seqShy {α β : Type} (Q : Own → Except PyErr β → Gw → Prop) (f : α → Co β) : Own → Except PyErr α → Gw → Prop
  | own, .ok a, g => (f a).shy Q own g
  | own, .error e, g => Q own (.error e) g

theorem Co.shy_bind {α β : Type} {Q : Own → Except PyErr β → Gw → Prop} {x : Co α} {f : α → Co β} {own : Own} {g : Gw}
    (h : x.shy (seqShy Q f) own g) : (x >>= f).shy Q own g := by
  refine shy_bindE _ x own g (shy_mono ?_ x own g h)
  intro own o g hq
  cases o with
  | ok a => exact hq
  | error e => exact hq

theorem shy_ofExcept {α : Type} {Q : Own → Except PyErr α → Gw → Prop} {x : Except PyErr α} {own : Own} {g : Gw} (h : Q own x g) :
    (ofExcept x).shy Q own g := by
  cases x <;> exact h

theorem shy_greet {Q : Own → Except PyErr (Option Bytes) → Gw → Prop} {c i : Nat} {code : Int} {data : Bytes} {r : Int} {g : Gw}
    (hi : greetings[i]? = some (code, data)) (hu : i < 2 → ¬ Using g c)
    (h : ∀ g' o, Own.Free (Own.next c i) g' → Q (Own.next c i) o g') : (makeRequest c code data r).shy Q (some (c, i)) g :=
  .inl ⟨i, rfl, hi, hu, fun g' o hf => shy_ofExcept (h g' o hf)⟩

theorem own_free {c i : Nat} {g : Gw} (h : ¬ Using g c) : Own.Free (some (c, i)) g := by
  intro c' i' e
  cases e
  exact h

theorem own_unfree {c i : Nat} {g : Gw} (h : Own.Free (some (c, i)) g) : ¬ Using g c := h _ _ rfl

/-- After the first two greetings. -/
def loggedIn (c : Nat) (own : Own) (o : Except PyErr (Option String)) (g : Gw) : Prop :=
  own.Free g ∧ ∀ m, o = .ok (some m) → own = some (c, 2)

theorem shy_login (r : Int) (c : Nat) (mac : String) (g : Gw) (hu : ¬ Using g c) :
    (ofExcept loginMessage >>= fun msg => makeRequest c 27 msg r >>= fun r =>
      (match r with | some _ => pure (some mac) | none => pure none : Co (Option String))).shy (loggedIn c) (some (c, 1)) g := by
  rw [login_bytes]
  change ((makeRequest c 27 loginBytes r >>= _).shy _ _ _)
  refine Co.shy_bind (shy_greet (i := 1) rfl (fun _ => hu) (fun g' o hf => ?_))
  have e1 : Own.next c 1 = some (c, 2) := rfl
  rw [e1] at hf ⊢
  cases o with
  | error e => exact ⟨hf, fun m hm => by cases hm⟩
  | ok v => cases v with
    | none => exact ⟨hf, fun m hm => by cases hm⟩
    | some b => exact ⟨hf, fun m hm => rfl⟩

/-- `async_connect_to_gateway` after the first write. -/
theorem shy_connectTo (r : Int) (c : Nat) :
    ∃ y, connectToGateway c r = .upd (·.writeRaw c "CONNECTSERVERHOST\r\n\r\n".toUTF8.data.toList) y ∧
      ∀ g, ¬ Using g c → y.shy (loggedIn c) (some (c, 0)) g := by
  refine ⟨_, rfl, fun g hu => ?_⟩
  refine Co.shy_bindE _ _ _ _ ?_
  refine ⟨own_free hu, fun g o hf => ?_⟩
  cases o with
  | error e => exact ⟨hf, fun m hm => by cases hm⟩
  | ok u =>
    change Co.shy _ (if g.connected c then _ else _) _ g
    split
    · refine Co.shy_bind (shy_greet (i := 0) rfl (fun _ => own_unfree hf) (fun g' o hf => ?_))
      have e1 : Own.next c 0 = some (c, 1) := rfl
      rw [e1] at hf ⊢
      cases o with
      | error e => exact ⟨hf, fun m hm => by cases hm⟩
      | ok v => cases v with
        | none => exact ⟨hf, fun m hm => by cases hm⟩
        | some b =>
          change Co.shy _ (ofExcept (decodeMessageString b)) _ _
          cases decodeMessageString b with
          | error e => exact ⟨hf, fun m hm => by cases hm⟩
          | ok mac => exact shy_login r c mac g' (own_unfree hf)
    · exact ⟨hf, fun m hm => by cases hm⟩

theorem shy_version (c : Nat) (g : Gw) : (loadVersion E c).shy shyEnd (some (c, 2)) g := by
  refine Co.shy_bind (Co.shy_bind ?_)
  refine Co.shy_bind (x := makeRequest c 8120 [] g.maxRetries) (shy_greet (i := 2) rfl (fun h => absurd h (by decide)) (fun g' o hf => ?_))
  have e1 : Own.next c 2 = none := rfl
  rw [e1] at hf ⊢
  cases o with
  | error e => exact hf
  | ok v =>
    have tail : (match v with
        | some (b :: bs) => do
          let g ← state
          decodeCo E .version (b :: bs)
          return some (b :: bs)
        | _ => return none : Co (Option Bytes)).TameAt g' := by
      split
      · exact tame_state (tame_bind (tame_decode E _ _ _) (fun _ g => tame_ret _ g))
      · exact tame_ret _ _
    refine Co.shy_mono ?_ _ _ _ (tail none hf)
    intro own o g hq
    cases o with
    | error e => exact hq
    | ok raw => exact tame_modify' (f := fun g => g.putLast _ _) (fun c h => h) rfl rfl own hq

/-- What follows the opening of a connection. -/
theorem shy_afterOpen (r : Int) (c : Nat) : ∃ y, afterOpen E r c = .upd (·.writeRaw c "CONNECTSERVERHOST\r\n\r\n".toUTF8.data.toList) y ∧
    ∀ g, ¬ Using g c → y.shy shyEnd (some (c, 0)) g := by
  obtain ⟨y, hy, hs⟩ := shy_connectTo r c
  have e : afterOpen E r c = (connectToGateway c r >>= fun mac =>
    (match mac with
    | none => return false
    | some m => do
      modify (·.setProto c m)
      loadVersion E c
      let g ← state
      if g.hasVersion then do
        getConfig E
        let g ← state
        match g.protocol with
        | some c => do
          attach c
          return true
        | none => .throw .attributeError
      else return false : Co Bool)) := rfl
  rw [e, hy]
  refine ⟨_, rfl, fun g hu => Co.shy_bindE _ _ _ _ (Co.shy_mono ?_ _ _ _ (hs g hu))⟩
  intro own o g hq
  cases o with
  | error e => exact hq.1
  | ok v => cases v with
    | none => exact hq.1
    | some m =>
      have ho := hq.2 m rfl
      subst ho
      refine ⟨⟨?_, rfl, .inr ⟨c, rfl, rfl⟩⟩, ?_⟩
      · rintro c' (h | h)
        · cases h; exact .inr rfl
        · exact .inl (.inr h)
      · change (loadVersion E c >>= _ : Co Bool).shy shyEnd _ _
        refine Co.shy_bindE _ _ _ _ (Co.shy_mono ?_ _ _ _ (shy_version E c _))
        intro own o g hq
        cases o with
        | error e => exact hq
        | ok v =>
          refine tame_state (tame_ite ?_ (tame_ret _ _)) own hq
          refine tame_bind (tame_poll _ (fun c r g hu => tame_query E hu _ _ _ _) _) (fun _ g => tame_state ?_)
          split
          · rename_i hp
            exact tame_bind (tame_attach (.inl hp)) (fun _ g => tame_ret _ g)
          · exact tame_throw _ g

end


/-! ## Over a history -/

theorem asksOn_append (c : Nat) (l l' : List (Nat × Act)) : asksOn c (l ++ l') = asksOn c l ++ asksOn c l' := List.filterMap_append

theorem asksOn_other {c : Nat} {t : Nat} {a : Act} (h : ∀ code data, a ≠ .ask c code data) : asksOn c [(t, a)] = [] := by
  cases a with
  | ask c' code data =>
    have : c' ≠ c := fun e => h code data (by rw [e])
    simp [asksOn, this]
  | _ => rfl

theorem asksOn_same (c t : Nat) (code : Int) (data : Bytes) : asksOn c [(t, .ask c code data)] = [(code, data)] := by simp [asksOn]

/-- The state in the middle of a piece of execution of a task that owns `own`; `oth c i`: another task owns `c`. -/
structure Greets (oth : Nat → Nat → Prop) (own : Own) (g : Gw) : Prop where
  pre : ∀ c, asksOn c g.log <+: greetings ∨ greetings <+: asksOn c g.log
  new : ∀ c, g.conns.length ≤ c → asksOn c g.log = []
  use : ∀ c, Using g c → c < g.conns.length ∧ (greetings <+: asksOn c g.log ∨ own = some (c, 2))
  own : ∀ c i, own = some (c, i) → c < g.conns.length ∧ i ≤ 2 ∧ asksOn c g.log = greetings.take i ∧ ∀ j, ¬ oth c j
  oth : ∀ c i, oth c i → c < g.conns.length ∧ i ≤ 2 ∧ asksOn c g.log = greetings.take i ∧ ¬ Using g c
  raw : ∀ r ∈ g.conns.map (·.raw), r = [helloBytes]

theorem not_prefix {l : List (Int × Bytes)} {i : Nat} (hi : i ≤ 2) (h : l = greetings.take i) : ¬ greetings <+: l := by
  intro hp
  have := hp.length_le
  rw [h] at this
  simp only [List.length_take] at this
  have : greetings.length = 3 := rfl
  omega

theorem Greets.free {oth : Nat → Nat → Prop} {own : Own} {g : Gw} (h : Greets oth own g) {c i : Nat} (ho : own = some (c, i)) (hi : i < 2) :
    ¬ Using g c := by
  intro hu
  rcases (h.use c hu).2 with hp | e
  · exact not_prefix (h.own c i ho).2.1 (h.own c i ho).2.2.1 hp
  · rw [ho] at e
    cases e
    omega

/-- Nothing relevant changes. -/
theorem Greets.same {oth : Nat → Nat → Prop} {own : Own} {g g' : Gw} (h : Greets oth own g) (h1 : g'.protocol = g.protocol)
    (h2 : g'.cmProto = g.cmProto) (h3 : g'.conns.map (·.raw) = g.conns.map (·.raw)) (h4 : ∀ c, asksOn c g'.log = asksOn c g.log) :
    Greets oth own g' := by
  have hl : g'.conns.length = g.conns.length := by simpa using congrArg List.length h3
  have hu : ∀ c, Using g' c ↔ Using g c := fun c => by simp only [Using, h1, h2]
  exact ⟨fun c => by rw [h4]; exact h.pre c, fun c hc => by rw [h4]; exact h.new c (hl ▸ hc),
    fun c hc => by rw [h4, hl]; exact h.use c ((hu c).1 hc), fun c i ho => by rw [h4, hl]; exact h.own c i ho,
    fun c i ho => by rw [h4, hl, hu]; exact h.oth c i ho, by rw [h3]; exact h.raw⟩

theorem Greets.upd {oth : Nat → Nat → Prop} {own : Own} {g g' : Gw} (h : Greets oth own g) (s : Shies own g g') (hlog : g'.log = g.log) :
    Greets oth own g' := by
  have hl : g'.conns.length = g.conns.length := by simpa using congrArg List.length s.raw
  refine ⟨fun c => by rw [hlog]; exact h.pre c, fun c hc => by rw [hlog]; exact h.new c (hl ▸ hc), ?_,
    fun c i ho => by rw [hlog, hl]; exact h.own c i ho, ?_, by rw [s.raw]; exact h.raw⟩
  · intro c hc
    rw [hlog, hl]
    rcases s.use c hc with hc | e
    · exact h.use c hc
    · exact ⟨(h.own c 2 e).1, .inr e⟩
  · intro c i ho
    rw [hlog, hl]
    obtain ⟨h1, h2, h3, h4⟩ := h.oth c i ho
    refine ⟨h1, h2, h3, fun hu => ?_⟩
    rcases s.use c hu with hc | e
    · exact h4 hc
    · exact (h.own c 2 e).2.2.2 i ho

theorem Greets.note {oth : Nat → Nat → Prop} {own : Own} {g : Gw} (h : Greets oth own g) (t : Nat) {a : Act} (ha : ∀ c code data, a ≠ .ask c code data) :
    Greets oth own (g.note t a) :=
  h.same rfl rfl rfl (fun c => by
    change asksOn c (g.log ++ [(t, a)]) = _
    rw [asksOn_append, asksOn_other (ha c), List.append_nil])

theorem Greets.net {oth : Nat → Nat → Prop} {own : Own} {g : Gw} (h : Greets oth own g) (c : Nat) (e : Event) : Greets oth own (g.net c e) :=
  h.same rfl rfl (raw_net _ _ _) (fun c => rfl)

theorem Greets.drop {oth : Nat → Nat → Prop} {own : Own} {g : Gw} (h : Greets oth own g) (hf : own.Free g) : Greets oth none g :=
  ⟨h.pre, h.new, fun c hu => ⟨(h.use c hu).1, (h.use c hu).2.imp id (fun e => absurd hu (hf c 2 e))⟩, (fun c i e => by cases e), h.oth, h.raw⟩

theorem take_snoc {i : Nat} {x : Int × Bytes} (h : greetings[i]? = some x) : greetings.take i ++ [x] = greetings.take (i + 1) := by
  rw [List.take_add_one, h]; rfl

theorem Greets.ask_own {oth : Nat → Nat → Prop} {own : Own} {g : Gw} (h : Greets oth own g) {c i t : Nat} {code : Int} {data : Bytes} (r : Int)
    (ho : own = some (c, i)) (hi : greetings[i]? = some (code, data)) : Greets oth (Own.next c i) (g.ask t c code data r).2 := by
  obtain ⟨h1, h2, h3, h4⟩ := h.own c i ho
  have hsame : asksOn c (g.ask t c code data r).2.log = greetings.take (i + 1) := by
    change asksOn c (g.log ++ [(t, .ask c code data)]) = _
    rw [asksOn_append, h3, asksOn_same, take_snoc hi]
  have hdiff : ∀ c', c' ≠ c → asksOn c' (g.ask t c code data r).2.log = asksOn c' g.log := by
    intro c' hc
    change asksOn c' (g.log ++ [(t, .ask c code data)]) = _
    rw [asksOn_append, asksOn_other (by intro _ _ e; cases e; exact hc rfl), List.append_nil]
  have hraw : (g.ask t c code data r).2.conns.map (·.raw) = g.conns.map (·.raw) := by
    simp only [Gw.ask, Gw.note, raw_net]
  have hl : (g.ask t c code data r).2.conns.length = g.conns.length := by simpa using congrArg List.length hraw
  have hu : ∀ c', Using (g.ask t c code data r).2 c' ↔ Using g c' := fun c' => Iff.rfl
  refine ⟨?_, ?_, ?_, ?_, ?_, by rw [hraw]; exact h.raw⟩
  · intro c'
    by_cases hc : c' = c
    · subst hc
      rw [hsame]
      exact .inl (List.take_prefix _ _)
    · rw [hdiff c' hc]; exact h.pre c'
  · intro c' hc'
    rw [hl] at hc'
    rw [hdiff c' (by omega)]
    exact h.new c' hc'
  · intro c' hc'
    rw [hl]
    refine ⟨(h.use c' hc').1, ?_⟩
    by_cases hc : c' = c
    · subst hc
      rcases (h.use c' hc').2 with hp | e
      · exact absurd hp (not_prefix h2 h3)
      · rw [ho] at e
        obtain rfl : i = 2 := by cases e; rfl
        left
        rw [hsame]
        exact List.prefix_refl _
    · rcases (h.use c' hc').2 with hp | e
      · left; rw [hdiff c' hc]; exact hp
      · rw [ho] at e
        cases e
        exact absurd rfl hc
  · intro c' i' e
    simp only [Own.next] at e
    split at e
    · rename_i hlt
      cases e
      exact ⟨hl ▸ h1, by omega, hsame, h4⟩
    · cases e
  · intro c' i' e
    have hc : c' ≠ c := by
      rintro rfl
      exact h4 i' e
    rw [hdiff c' hc, hl]
    exact h.oth c' i' e

theorem Greets.ask_used {oth : Nat → Nat → Prop} {own : Own} {g : Gw} (h : Greets oth own g) {c t : Nat} {code : Int} {data : Bytes} (r : Int)
    (hu : Using g c) (hf : own.Free g) : Greets oth none (g.ask t c code data r).2 := by
  have hp : greetings <+: asksOn c g.log := by
    rcases (h.use c hu).2 with hp | e
    · exact hp
    · exact absurd hu (hf c 2 e)
  have hsame : asksOn c (g.ask t c code data r).2.log = asksOn c g.log ++ [(code, data)] := by
    change asksOn c (g.log ++ [(t, .ask c code data)]) = _
    rw [asksOn_append, asksOn_same]
  have hdiff : ∀ c', c' ≠ c → asksOn c' (g.ask t c code data r).2.log = asksOn c' g.log := by
    intro c' hc
    change asksOn c' (g.log ++ [(t, .ask c code data)]) = _
    rw [asksOn_append, asksOn_other (by intro _ _ e; cases e; exact hc rfl), List.append_nil]
  have hraw : (g.ask t c code data r).2.conns.map (·.raw) = g.conns.map (·.raw) := by
    simp only [Gw.ask, Gw.note, raw_net]
  have hl : (g.ask t c code data r).2.conns.length = g.conns.length := by simpa using congrArg List.length hraw
  have hp' : greetings <+: asksOn c (g.ask t c code data r).2.log := by
    rw [hsame]; exact hp.trans (List.prefix_append _ _)
  refine ⟨?_, ?_, ?_, (fun c i e => by cases e), ?_, by rw [hraw]; exact h.raw⟩
  · intro c'
    by_cases hc : c' = c
    · subst hc; exact .inr hp'
    · rw [hdiff c' hc]; exact h.pre c'
  · intro c' hc'
    rw [hl] at hc'
    have := (h.use c hu).1
    rw [hdiff c' (by omega)]
    exact h.new c' hc'
  · intro c' hc'
    rw [hl]
    refine ⟨(h.use c' hc').1, .inl ?_⟩
    by_cases hc : c' = c
    · subst hc; exact hp'
    · rw [hdiff c' hc]
      rcases (h.use c' hc').2 with hp | e
      · exact hp
      · exact absurd hc' (hf c' 2 e)
  · intro c' i' e
    obtain ⟨h1, h2, h3, h4⟩ := h.oth c' i' e
    have hc : c' ≠ c := by
      rintro rfl
      exact h4 hu
    rw [hdiff c' hc, hl]
    exact ⟨h1, h2, h3, h4⟩

/-- What a suspended task that owns `own` satisfies. -/
def Task.Shy (own : Own) : Task → Prop
  | .request _ _ k => ∀ g' o, own.Free g' → (k o).shy shyEnd own g'
  | .opening _ k => ∀ own' g' o, Own.Free own' g' → (k o).shy shyEnd own' g'
  | .sleeping k => ∀ g' o, own.Free g' → (k o).shy shyEnd own g'
  | .closing _ _ k => ∀ g' o, own.Free g' → (k o).shy shyEnd own g'
  | .locked k => ∀ g' o, own.Free g' → (k o).shy shyEnd own g'
  | .done _ => True

/-- The task waits for a TCP connection. -/
def Task.Opening : Task → Prop
  | .opening _ _ => True
  | _ => False

/-- After a piece of execution of task `t`, begun with `own0` in `g`. -/
structure Settled (oth : Nat → Nat → Prop) (t : Nat) (own0 : Own) (g : Gw) (r : Task × Gw) : Prop where
  ok : ∃ own : Own, Greets oth own r.2 ∧ own.Free r.2 ∧ r.1.Shy own ∧
    (∀ c i, own = some (c, i) → (∃ i0, own0 = some (c, i0)) ∧ r.2.protocol = g.protocol)
  opn : ∃ l, r.2.log = g.log ++ l ∧ ((∃ t h p, (t, Act.opn h p) ∈ l) → r.2.isConnected = false) ∧
    (r.1.Opening → ∃ h p, (t, Act.opn h p) ∈ l)
  keep : r.2.protocol = g.protocol ∨ own0 ≠ none

theorem Settled.after {oth : Nat → Nat → Prop} {t : Nat} {own0 own1 : Own} {g g' : Gw} {r : Task × Gw} (h : Settled oth t own1 g' r)
    (hl : ∃ l, g'.log = g.log ++ l ∧ ∀ t h p, (t, Act.opn h p) ∉ l) (hp : g'.protocol = g.protocol)
    (ho : ∀ c i, own1 = some (c, i) → ∃ i0, own0 = some (c, i0)) : Settled oth t own0 g r := by
  obtain ⟨l', hl', hn, hop⟩ := h.opn
  obtain ⟨l, hl, hno⟩ := hl
  obtain ⟨own, h1, h2, h3, h4⟩ := h.ok
  refine ⟨⟨own, h1, h2, h3, ?_⟩, ⟨l ++ l', by rw [hl', hl, List.append_assoc], ?_, ?_⟩, ?_⟩
  · intro c i e
    obtain ⟨⟨i1, e1⟩, e2⟩ := h4 c i e
    exact ⟨ho c i1 e1, e2.trans hp⟩
  · rintro ⟨t, x, p, hm⟩
    rcases List.mem_append.1 hm with hm | hm
    · exact absurd hm (hno t x p)
    · exact hn ⟨t, x, p, hm⟩
  · intro hx
    obtain ⟨x, p, hm⟩ := hop hx
    exact ⟨x, p, List.mem_append_right _ hm⟩
  · rcases h.keep with h | h
    · exact .inl (h.trans hp)
    · refine .inr (fun e => ?_)
      cases hc : own1 with
      | none => exact h hc
      | some x =>
        obtain ⟨i0, hi⟩ := ho x.1 x.2 hc
        rw [e] at hi; cases hi

/-- The task has stopped at once. -/
theorem Settled.stop {oth : Nat → Nat → Prop} {t : Nat} {own : Own} {g g' : Gw} {x : Task} (hg : Greets oth own g') (hf : own.Free g') (hx : x.Shy own)
    {l : List (Nat × Act)} (hl : g'.log = g.log ++ l) (hn : (∃ t h p, (t, Act.opn h p) ∈ l) → g'.isConnected = false)
    (ho : x.Opening → ∃ h p, (t, Act.opn h p) ∈ l) (hp : g'.protocol = g.protocol) : Settled oth t own g (x, g') :=
  ⟨⟨own, hg, hf, hx, fun c i e => ⟨⟨i, e⟩, hp⟩⟩, ⟨l, hl, hn, ho⟩, .inl hp⟩

/-- A change at the beginning. -/
theorem Settled.upd {oth : Nat → Nat → Prop} {t : Nat} {own : Own} {g g' : Gw} {r : Task × Gw} (s : Shies own g g') (hlog : g'.log = g.log)
    (h : Settled oth t own g' r) : Settled oth t own g r := by
  rcases s.proto with hp | ⟨c, hc, hp⟩
  · exact h.after ⟨[], by simp [hlog], by simp⟩ hp (fun c i e => ⟨i, e⟩)
  · obtain ⟨own', h1, h2, h3, h4⟩ := h.ok
    refine ⟨⟨own', h1, h2, h3, ?_⟩, ?_, .inr (by rw [hc]; simp)⟩
    · intro c' i e
      obtain ⟨⟨i0, e1⟩, e2⟩ := h4 c' i e
      rw [hc] at e1
      cases e1
      exact absurd (.inl (e2.trans hp)) (h2 c i e)
    · obtain ⟨l, hl, hr⟩ := h.opn
      exact ⟨l, by rw [hl, hlog], hr⟩

theorem settle_shy {oth : Nat → Nat → Prop} (t : Nat) : ∀ (co : Co Res) (own : Own) (g : Gw), Greets oth own g → co.shy shyEnd own g →
    Settled oth t own g (settle t co g)
  | .ret a, own, g, hG, h => .stop hG h trivial (l := []) (by simp) (by simp) (fun e => e.elim) rfl
  | .throw e, own, g, hG, h => .stop hG h trivial (l := []) (by simp) (by simp) (fun e => e.elim) rfl
  | .get k, own, g, hG, h => settle_shy t (k g) own g hG h
  | .upd f k, own, g, hG, h =>
    (settle_shy t k own (g.apply f) (hG.upd h.1 rfl) h.2).upd h.1 rfl
  | .request c code data r k, own, g, hG, h => by
    have key : ∀ own' : Own, (∀ c i, own' = some (c, i) → ∃ i0, own = some (c, i0)) → Greets oth own' (g.ask t c code data r).2 → (own'.Free (g.ask t c code data r).2) →
        (∀ g' o, own'.Free g' → (k o).shy shyEnd own' g') → Settled oth t own g (settle t (.request c code data r k) g) := by
      intro own' ho hg hf hk
      simp only [settle]
      split
      · rename_i o _
        refine (settle_shy t (k o) own' _ (hg.note t (by simp)) (hk _ o hf)).after ⟨[(t, .ask c code data), (t, .got o)], ?_, by simp⟩ rfl ho
        simp [Gw.ask, Gw.note, Gw.net]
      · exact (Settled.stop (x := .request c (g.ask t c code data r).1 k) (g := (g.ask t c code data r).2) hg hf hk (l := []) (by simp) (by simp) (fun e => False.elim e) rfl).after
          ⟨[(t, .ask c code data)], rfl, by simp⟩ rfl ho
    rcases h with ⟨i, ho, hi, hu, hk⟩ | ⟨hu, hf, hk⟩
    · refine key _ ?_ (hG.ask_own r ho hi) ?_ hk
      · intro c' i' e
        simp only [Own.next] at e
        split at e
        · cases e; exact ⟨i, ho⟩
        · cases e
      intro c' i' e
      simp only [Own.next] at e
      split at e
      · rename_i hlt
        cases e
        exact hu hlt
      · cases e
    · exact key none (fun c i e => by cases e) (hG.ask_used r hu hf) (Own.free_none _) (fun g' o _ => hk g' o)
  | .openConn r k, own, g, hG, h =>
    .stop (hG.note t (by simp)) h.1 h.2.2 (l := [_]) rfl (fun _ => h.2.1) (fun _ => ⟨_, _, List.mem_singleton.2 rfl⟩) rfl
  | .sleep k, own, g, hG, h => .stop hG h.1 h.2 (l := []) (by simp) (by simp) (fun e => e.elim) rfl
  | .close c force k, own, g, hG, h => by
    have hg : Greets oth own (g.startClose t c force).2 := by
      simp only [Gw.startClose]
      exact ((hG.net _ _).net _ _).note t (by simp)
    simp only [settle]
    split
    · exact (settle_shy t (k ((g.startClose t c force).2.closeResult c (g.startClose t c force).1)) own _ hg (h.2 _ _ h.1)).after ⟨[(t, .cls c force)], rfl, by simp⟩ rfl
        (fun c i e => ⟨i, e⟩)
    · exact .stop hg h.1 h.2 (l := [(t, .cls c force)]) rfl (by simp) (fun e => e.elim) rfl
  | .acquire k, own, g, hG, h => by
    simp only [settle]
    split
    · exact (settle_shy t (k (.ok ())) own (g.take t) (hG.same rfl rfl rfl (fun _ => rfl)) (h.2 _ _ h.1)).after ⟨[], by simp [Gw.take], by simp⟩ rfl
        (fun c i e => ⟨i, e⟩)
    · exact .stop (hG.same rfl rfl rfl (fun _ => rfl)) h.1 h.2 (l := []) (by simp [Gw.setWaiters]) (by simp) (fun e => e.elim) rfl

/-- Every task owns at most one connection, which nobody else knows. -/
structure Sys.Shy (s : Sys) (owns : Nat → Own) : Prop where
  ok : Greets (fun c i => ∃ t, owns t = some (c, i)) none s.g
  inj : ∀ t t' c i i', owns t = some (c, i) → owns t' = some (c, i') → t = t'
  lt : ∀ t c i, owns t = some (c, i) → t < s.tasks.length
  task : ∀ t (x : Task), s.tasks[t]? = some x → x.Shy (owns t)


/-- What the tasks other than `t` own. -/
def othersOf (owns : Nat → Own) (t : Nat) (c i : Nat) : Prop := ∃ t', t' ≠ t ∧ owns t' = some (c, i)

theorem Sys.Shy.at {s : Sys} {owns : Nat → Own} (h : s.Shy owns) (t : Nat) : Greets (othersOf owns t) (owns t) s.g ∧ (owns t).Free s.g := by
  refine ⟨⟨h.ok.pre, h.ok.new, fun c hu => ⟨(h.ok.use c hu).1, (h.ok.use c hu).2.imp id (fun e => by cases e)⟩, ?_, ?_, h.ok.raw⟩, ?_⟩
  · intro c i e
    obtain ⟨h1, h2, h3, h4⟩ := h.ok.oth c i ⟨t, e⟩
    refine ⟨h1, h2, h3, ?_⟩
    rintro j ⟨t', hne, e'⟩
    exact hne (h.inj t' t c j i e' e)
  · rintro c i ⟨t', _, e⟩
    exact h.ok.oth c i ⟨t', e⟩
  · intro c i e
    exact (h.ok.oth c i ⟨t, e⟩).2.2.2

/-- Task `t` now owns `o`. -/
def ownsSet (owns : Nat → Own) (t : Nat) (o : Own) : Nat → Own := fun t' => if t' = t then o else owns t'

theorem Sys.Shy.settled {s s' : Sys} {owns : Nat → Own} (h : s.Shy owns) {t : Nat} {r : Task × Gw} {own : Own}
    (hg : Greets (othersOf owns t) own r.2) (hf : own.Free r.2) (hr : r.1.Shy own)
    (hs : s'.g = r.2) (hlt : t < s'.tasks.length) (hle : s.tasks.length ≤ s'.tasks.length) (ht : s'.tasks[t]? = some r.1)
    (ho : ∀ t', t' ≠ t → s'.tasks[t']? = s.tasks[t']?) : s'.Shy (ownsSet owns t own) := by
  have hself : ownsSet owns t own t = own := by simp [ownsSet]
  have hoth : ∀ t', t' ≠ t → ownsSet owns t own t' = owns t' := fun t' hne => by simp [ownsSet, hne]
  refine ⟨?_, ?_, ?_, ?_⟩
  · rw [hs]
    refine ⟨hg.pre, hg.new, fun c hu => ⟨(hg.use c hu).1, (hg.use c hu).2.imp id (fun e => absurd hu (hf c 2 e))⟩,
      (fun c i e => by cases e), ?_, hg.raw⟩
    rintro c i ⟨t', e⟩
    by_cases hne : t' = t
    · subst hne
      rw [hself] at e
      obtain ⟨h1, h2, h3, _⟩ := hg.own c i e
      exact ⟨h1, h2, h3, hf c i e⟩
    · rw [hoth t' hne] at e
      exact hg.oth c i ⟨t', hne, e⟩
  · intro t1 t2 c i i' e1 e2
    by_cases h1 : t1 = t
    · by_cases h2 : t2 = t
      · rw [h1, h2]
      · rw [h1, hself] at e1
        rw [hoth t2 h2] at e2
        exact absurd ⟨t2, h2, e2⟩ ((hg.own c i e1).2.2.2 i')
    · rw [hoth t1 h1] at e1
      by_cases h2 : t2 = t
      · rw [h2, hself] at e2
        exact absurd ⟨t1, h1, e1⟩ ((hg.own c i' e2).2.2.2 i)
      · rw [hoth t2 h2] at e2
        exact h.inj t1 t2 c i i' e1 e2
  · intro t' c i e
    by_cases hne : t' = t
    · rw [hne]; exact hlt
    · rw [hoth t' hne] at e
      exact Nat.lt_of_lt_of_le (h.lt t' c i e) hle
  · intro t' x hx
    by_cases hne : t' = t
    · subst hne
      rw [hself]
      rw [ht] at hx
      cases hx
      exact hr
    · rw [hoth t' hne]
      rw [ho t' hne] at hx
      exact h.task t' x hx

/-- Task `t` is connecting: it waits for a TCP connection, or for an answer on one it has opened and which is not yet in use. -/
def Sys.Linking (s : Sys) (owns : Nat → Own) (t : Nat) : Prop :=
  ∃ x, s.tasks[t]? = some x ∧ (∀ r, x ≠ .done r) ∧ (x.Opening ∨ owns t ≠ none)

/-- One event. -/
structure ShyStep (s : Sys) (owns : Nat → Own) (s' : Sys) : Prop where
  ok : ∃ owns', s'.Shy owns' ∧ ∃ l, s'.g.log = s.g.log ++ l ∧
    (∀ t, s'.Linking owns' t → s.Linking owns t ∨ ∃ h p, (t, Act.opn h p) ∈ l) ∧
    (s'.g.protocol = s.g.protocol ∨ ∃ t, s.Linking owns t ∧ (s'.Linking owns' t → ∃ h p, (t, Act.opn h p) ∈ l))
  opn : ∃ l, s'.g.log = s.g.log ++ l ∧ ((∃ t h p, (t, Act.opn h p) ∈ l) → s'.g.isConnected = false)

theorem env_raw {E : Env} {g g' : Gw} (h : EnvStep E g g') : g'.conns.map (·.raw) = g.conns.map (·.raw) := by
  have hmod : ∀ (g : Gw) (c : Nat) (f : Conn → Conn), (∀ x, (f x).raw = x.raw) → (g.conns.modify c f).map (·.raw) = g.conns.map (·.raw) := by
    intro g c f hf
    apply List.ext_getElem?
    intro i
    simp only [List.getElem?_map, List.getElem?_modify]
    cases g.conns[i]? with
    | none => rfl
    | some x => by_cases h : c = i <;> simp [h, hf]
  cases h with
  | nothing => rfl
  | setMaxRetries n =>
    simp only [Gw.setMaxRetries]
    split <;> rfl
  | unsubscribe u =>
    simp only [Gw.unsubscribe, Gw.dropCode]
    repeat' split
    all_goals first | rfl | exact raw_net _ _ _
  | register => exact raw_net _ _ _
  | unregister => exact raw_net _ _ _
  | net c e =>
    rw [raw_net]
    simp only [Gw.lostCallback]
    split
    · split <;> rfl
    · rfl
  | handle c =>
    simp only [Gw.runHandler]
    split
    · split
      · refine Eq.trans ?_ (hmod g c (fun x => { x with handled := x.handled + 1 }) (fun _ => rfl))
        split
        · simp only [Gw.commonCallback]
          split
          · split
            · simp only [Gw.commonCallback.notify]; split <;> rfl
            · rfl
          · simp only [Gw.commonCallback.notify]; split <;> rfl
        · rfl
      · rfl
    · rfl
  | tick => rfl

theorem Greets.env {E : Env} {oth : Nat → Nat → Prop} {own : Own} {g g' : Gw} (h : Greets oth own g) (he : EnvStep E g g') : Greets oth own g' :=
  h.same (quiet_env he).protocol (quiet_env he).cmProto (env_raw he) (fun c => by rw [he.log])

theorem greets_opened {oth : Nat → Nat → Prop} {g : Gw} (h : Greets oth none g) :
    Greets oth (some (g.conns.length, 0)) (g.addConn.apply (·.writeRaw g.conns.length helloBytes)) ∧
    ¬ Using (g.addConn.apply (·.writeRaw g.conns.length helloBytes)) g.conns.length := by
  have hraw : (g.addConn.apply (·.writeRaw g.conns.length helloBytes)).conns.map (·.raw) = g.conns.map (·.raw) ++ [[helloBytes]] := by
    simp only [Gw.apply, Gw.writeRaw, Gw.addConn]
    apply List.ext_getElem?
    intro i
    simp only [List.getElem?_map, List.getElem?_modify, List.getElem?_append, List.length_map]
    by_cases hi : i < g.conns.length
    · have : g.conns.length ≠ i := by omega
      simp [hi, this]
    · simp only [hi, if_false]
      by_cases he : g.conns.length = i
      · subst he; simp
      · have : ∃ k, i - g.conns.length = k + 1 := ⟨i - g.conns.length - 1, by omega⟩
        obtain ⟨k, hk⟩ := this
        simp [he, hk]
  have hl : (g.addConn.apply (·.writeRaw g.conns.length helloBytes)).conns.length = g.conns.length + 1 := by
    simpa using congrArg List.length hraw
  have hnu : ¬ Using g g.conns.length := fun hu => Nat.lt_irrefl _ (h.use _ hu).1
  refine ⟨⟨h.pre, fun c hc => h.new c (by omega), fun c hu => ⟨?_, .inl ?_⟩, ?_, ?_, ?_⟩, hnu⟩
  · have := (h.use c hu).1; omega
  · rcases (h.use c hu).2 with hp | e
    · exact hp
    · cases e
  · intro c i e
    cases e
    refine ⟨by omega, by omega, h.new _ (Nat.le_refl _), fun j hj => ?_⟩
    exact Nat.lt_irrefl _ (h.oth _ _ hj).1
  · intro c i ho
    obtain ⟨h1, h2, h3, h4⟩ := h.oth c i ho
    exact ⟨by omega, h2, h3, h4⟩
  · rw [hraw]
    intro r hr
    rcases List.mem_append.1 hr with hr | hr
    · exact h.raw r hr
    · simpa using hr

theorem Sys.Shy.put {s : Sys} {owns : Nat → Own} (h : s.Shy owns) {t : Nat} {x : Task} (hx : s.tasks[t]? = some x) (hnd : ∀ r, x ≠ .done r)
    {co : Co Res} {g0 : Gw} {own : Own} (hown : own = owns t ∨ x.Opening)
    (hg : Greets (othersOf owns t) own g0) (hc : co.shy shyEnd own g0)
    (hl : ∃ l, g0.log = s.g.log ++ l ∧ ∀ t h p, (t, Act.opn h p) ∉ l) (hp : g0.protocol = s.g.protocol := by rfl) :
    ShyStep s owns (s.put t (settle t co g0)) := by
  have hlt : t < s.tasks.length := (List.getElem?_eq_some_iff.1 hx).1
  have key := (settle_shy t co own g0 hg hc).after hl hp (fun c i e => ⟨i, e⟩)
  obtain ⟨own', h1, h2, h3, h4⟩ := key.ok
  have hlink : own ≠ none → s.Linking owns t := fun hne => ⟨x, hx, hnd, by
    rcases hown with e | e
    · exact .inr (e ▸ hne)
    · exact .inl e⟩
  have hset : (s.put t (settle t co g0)).tasks[t]? = some (settle t co g0).1 := by simp [Sys.put, hlt]
  have hoth : ∀ t', t' ≠ t → (s.put t (settle t co g0)).tasks[t']? = s.tasks[t']? := by
    intro t' hne
    simp only [Sys.put]
    rw [List.getElem?_set_ne (Ne.symm hne)]
  obtain ⟨l, hlog, hn, hop⟩ := key.opn
  refine ⟨⟨_, h.settled h1 h2 h3 rfl (by simpa [Sys.put] using hlt) (by simp [Sys.put]) hset hoth, l, hlog, ?_, ?_⟩, l, hlog, hn⟩
  · rintro t' ⟨y, hy, hyd, hyo⟩
    by_cases hne : t' = t
    · subst hne
      rw [hset] at hy
      cases hy
      rcases hyo with hyo | hyo
      · exact .inr (hop hyo)
      · left
        simp only [ownsSet, if_true] at hyo
        cases e : own' with
        | none => exact absurd e hyo
        | some y =>
          obtain ⟨⟨i0, hi0⟩, -⟩ := h4 y.1 y.2 e
          exact hlink (by rw [hi0]; simp)
    · rw [hoth t' hne] at hy
      simp only [ownsSet, if_neg hne] at hyo
      exact .inl ⟨y, hy, hyd, hyo⟩
  · by_cases hsame : (settle t co g0).2.protocol = s.g.protocol
    · exact .inl hsame
    · refine .inr ⟨t, hlink (key.keep.resolve_left hsame), ?_⟩
      rintro ⟨y, hy, hyd, hyo⟩
      rw [hset] at hy
      cases hy
      rcases hyo with hyo | hyo
      · exact hop hyo
      · simp only [ownsSet, if_true] at hyo
        cases e : own' with
        | none => exact absurd e hyo
        | some y => exact absurd (h4 y.1 y.2 e).2 hsame

theorem Sys.Shy.spawn {s : Sys} {owns : Nat → Own} (h : s.Shy owns) {co : Co Res} {g0 : Gw} (hc : co.Tame)
    (hg : ∀ oth, Greets oth none s.g → Greets oth none g0) (hl : g0.log = s.g.log) (hp : g0.protocol = s.g.protocol := by rfl) :
    ShyStep s owns (Sys.spawn { s with g := g0 } co) := by
  have hown : owns s.tasks.length = none := by
    cases e : owns s.tasks.length with
    | none => rfl
    | some x => exact absurd (h.lt _ x.1 x.2 (by rw [e])) (Nat.lt_irrefl _)
  have h0 := (h.at s.tasks.length).1
  rw [hown] at h0
  have key := (settle_shy s.tasks.length co none g0 (hg _ h0) (hc g0 none (Own.free_none _))).after (g := s.g) (own0 := none) ⟨[], by simp [hl], by simp⟩ hp
    (fun c i e => ⟨i, e⟩)
  obtain ⟨own', h1, h2, h3, h4⟩ := key.ok
  have hset : (Sys.spawn { s with g := g0 } co).tasks[s.tasks.length]? = some (settle s.tasks.length co g0).1 := by simp [Sys.spawn]
  have hoth : ∀ t', t' ≠ s.tasks.length → (Sys.spawn { s with g := g0 } co).tasks[t']? = s.tasks[t']? := by
    intro t' hne
    simp only [Sys.spawn, List.getElem?_append]
    split
    · rfl
    · rename_i hn
      have : ∃ k, t' - s.tasks.length = k + 1 := ⟨t' - s.tasks.length - 1, by omega⟩
      obtain ⟨k, hk⟩ := this
      rw [hk]
      simp only [List.getElem?_cons_succ, List.getElem?_nil]
      rw [List.getElem?_eq_none (by omega)]
  obtain ⟨l, hlog, hn, hop⟩ := key.opn
  refine ⟨⟨_, h.settled (t := s.tasks.length) h1 h2 h3 rfl (by simp [Sys.spawn]) (by simp [Sys.spawn]) hset hoth, l, hlog, ?_, ?_⟩, l, hlog, hn⟩
  · rintro t' ⟨y, hy, hyd, hyo⟩
    by_cases hne : t' = s.tasks.length
    · subst hne
      rw [hset] at hy
      cases hy
      rcases hyo with hyo | hyo
      · exact .inr (hop hyo)
      · simp only [ownsSet, if_true] at hyo
        cases e : own' with
        | none => exact absurd e hyo
        | some y =>
          obtain ⟨⟨i0, hi0⟩, -⟩ := h4 y.1 y.2 e
          cases hi0
    · rw [hoth t' hne] at hy
      simp only [ownsSet, if_neg hne] at hyo
      exact .inl ⟨y, hy, hyd, hyo⟩
  · rcases key.keep with e | e
    · exact .inl e
    · exact absurd rfl e

theorem step_shy (E : Env) {s : Sys} {owns : Nat → Own} (h : s.Shy owns) (ev : Ev) : ShyStep s owns (s.step E ev) := by
  have lt : ∀ {t : Nat} {x : Task}, s.tasks[t]? = some x → t < s.tasks.length := by
    intro t x h
    exact (List.getElem?_eq_some_iff.1 h).1
  have env : ∀ g', EnvStep E s.g g' → ShyStep s owns { s with g := g' } := by
    intro g' he
    exact ⟨⟨owns, ⟨h.ok.env he, h.inj, h.lt, h.task⟩, [], by simp [he.log], fun t ht => .inl ht, .inl (quiet_env he).protocol⟩, [], by simp [he.log], by simp⟩
  have no : ShyStep s owns s := env s.g .nothing
  cases ev with
  | call a => exact h.spawn (g0 := s.g) (tame_call E a) (fun _ h => h) rfl
  | setMaxRetries n => exact env _ (.setMaxRetries n)
  | unsubscribe u => exact env _ (.unsubscribe u)
  | registerHandler code h' =>
    simp only [Sys.step]
    split
    · exact env _ (.register _ code h')
    · exact no
  | removeHandler code =>
    simp only [Sys.step]
    split
    · exact env _ (.unregister _ code)
    · exact no
  | opened t' ok =>
    simp only [Sys.step]
    split
    · rename_i r k hx
      have ht := h.task t' _ hx
      have ha := h.at t'
      split
      · obtain ⟨y, hy, hs⟩ := shy_afterOpen E r s.g.conns.length
        obtain ⟨hg, hnu⟩ := greets_opened (ha.1.drop ha.2)
        rw [hy]
        have e : settle t' ((Co.upd (·.writeRaw s.g.conns.length "CONNECTSERVERHOST\r\n\r\n".toUTF8.data.toList) y).bindE k) s.g.addConn =
          settle t' (y.bindE k) (s.g.addConn.apply (·.writeRaw s.g.conns.length helloBytes)) := rfl
        rw [e]
        refine h.put hx (fun r e => by cases e) (.inr trivial) hg ?_ ⟨[], by simp [Gw.apply, Gw.addConn], by simp⟩
        exact Co.shy_bindE k y _ _ (Co.shy_mono (fun own o g hq => ht own g o hq) _ _ _ (hs _ hnu))
      · exact h.put hx (fun r e => by cases e) (.inl rfl) ha.1 (ht _ _ _ ha.2) ⟨[], by simp, by simp⟩
    · exact no
  | resume t' =>
    have ha := h.at t'
    simp only [Sys.step]
    split
    · rename_i hx
      have ht := h.task t' _ hx
      split
      · rename_i o _
        exact h.put hx (fun r e => by cases e) (.inl rfl) (ha.1.note t' (by simp)) (ht _ o ha.2) ⟨[(t', .got o)], rfl, by simp⟩
      · exact no
    · rename_i hx
      have ht := h.task t' _ hx
      exact h.put hx (fun r e => by cases e) (.inl rfl) ha.1 (ht _ _ ha.2) ⟨[], by simp, by simp⟩
    · rename_i hx
      have ht := h.task t' _ hx
      split
      · exact h.put hx (fun r e => by cases e) (.inl rfl) ha.1 (ht _ _ ha.2) ⟨[], by simp, by simp⟩
      · exact no
    · rename_i hx
      have ht := h.task t' _ hx
      split
      · exact h.put hx (fun r e => by cases e) (.inl rfl) (ha.1.same rfl rfl rfl (fun _ => rfl)) (ht _ _ ha.2) ⟨[], by simp [Gw.take, Gw.setWaiters], by simp⟩
      · exact no
    · exact no
  | cancel t' =>
    have ha := h.at t'
    simp only [Sys.step]
    split
    · rename_i hx
      have ht := h.task t' _ hx
      exact h.put hx (fun r e => by cases e) (.inl rfl) ha.1 (ht _ _ _ ha.2) ⟨[], by simp, by simp⟩
    · rename_i hx
      have ht := h.task t' _ hx
      exact h.put hx (fun r e => by cases e) (.inl rfl) ha.1 (ht _ _ ha.2) ⟨[], by simp, by simp⟩
    · rename_i hx
      have ht := h.task t' _ hx
      exact h.put hx (fun r e => by cases e) (.inl rfl) (ha.1.same rfl rfl rfl (fun _ => rfl)) (ht _ _ ha.2) ⟨[], by simp [Gw.setWaiters], by simp⟩
    · exact no
  | net c e =>
    simp only [Sys.step]
    split
    · rename_i he
      exact env _ (.net c e he)
    · exact no
  | handle c => exact env _ (.handle c)
  | ping c =>
    simp only [Sys.step]
    split
    · split
      · refine h.spawn tame_ping (fun oth hg => hg.same rfl rfl ?_ (fun _ => rfl)) rfl
        simp only [Gw.countPing]
        apply List.ext_getElem?
        intro i
        simp only [List.getElem?_map, List.getElem?_modify]
        cases s.g.conns[i]? with
        | none => rfl
        | some x => by_cases h : c = i <;> simp [h]
      · exact no
    · exact no
  | runUnsub =>
    simp only [Sys.step]
    split
    · exact h.spawn tame_unsub (fun oth hg => hg.same rfl rfl rfl (fun _ => rfl)) rfl
    · exact no
  | tick q => exact env _ (.tick q)

theorem shy_init (clientId maxRetries : Int) : (Sys.init clientId maxRetries).Shy (fun _ => none) := by
  refine ⟨⟨fun c => .inl (List.nil_prefix), fun c _ => rfl, ?_, (fun c i e => by cases e), ?_, (by intro r hr; cases hr)⟩, ?_, ?_, ?_⟩
  · rintro c (h | h) <;> cases h
  · rintro c i ⟨t, e⟩; cases e
  · intro t t' c i i' e; cases e
  · intro t c i e; cases e
  · intro t x hx; cases hx

theorem run_shy (E : Env) : ∀ (es : List Ev) (s : Sys), (∃ owns, s.Shy owns) → ∃ owns, (s.run E es).Shy owns
  | [], s, h => h
  | ev :: es, s, ⟨owns, h⟩ => run_shy E es (s.step E ev) (let ⟨o, ho, _⟩ := (step_shy E h ev).ok; ⟨o, ho⟩)

theorem reach_shy (E : Env) (clientId maxRetries : Int) (es : List Ev) : ∃ owns, (after E clientId maxRetries es).Shy owns :=
  run_shy E es _ ⟨_, shy_init clientId maxRetries⟩

end SL
