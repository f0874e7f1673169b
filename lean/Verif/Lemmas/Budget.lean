import Verif.Spec.Budget
import Verif.Lemmas.Ends
/-!
# What the coroutines may do on the network, paid for by answers

Opening a connection costs `wo`, making a request `wa`, closing a connection `wc`, a pause `ws`.  A request that returns
earns `gain`.  (`lim`: the numbers of retries that are allowed.)
-/
set_option linter.unusedVariables false

namespace SL

open Co (state modify makeRequest pause closeConn withLock tryExcept ofExcept)

/-- The prices. -/
structure Prices where
  wo : Nat
  wa : Nat
  wc : Nat
  ws : Nat
  gain : Nat
  lim : Int → Prop
  zero : lim 0

/-- Answers earn enough for everything the library does with them. -/
def Prices.Ample (P : Prices) : Prop := P.wo + 3 * P.wa + P.wc + 2 * P.ws ≤ P.gain

/-- What one managed request may cost. -/
def Prices.full (P : Prices) : Nat := 2 * P.wo + 3 * P.wa + P.wc + 3 * P.ws

def Prices.credit (P : Prices) : Except PyErr (Option Bytes) → Nat
  | .ok _ => P.gain
  | .error _ => 0

/-- What connecting leaves. -/
def Prices.made (P : Prices) : Except PyErr Bool → Nat
  | .ok true => P.full
  | _ => 0

def Co.Pays {α : Type} (P : Prices) (Q : Nat → Except PyErr α → Prop) : Co α → Nat → Prop
  | .ret a, b => Q b (.ok a)
  | .throw e, b => Q b (.error e)
  | .get k, b => ∀ g, P.lim g.maxRetries → (k g).Pays P Q b
  | .upd u k, b => (∀ g, (u g).maxRetries = g.maxRetries) ∧ k.Pays P Q b
  | .request _ _ _ r k, b => (P.lim r ∧ P.wa ≤ b) ∧ ∀ x, (k x).Pays P Q (b - P.wa + P.credit x)
  | .openConn r k, b => (P.Ample ∧ P.lim r ∧ P.wo + P.ws + P.wa ≤ b) ∧ ∀ x b', b - P.wo - P.ws - P.wa + P.made x ≤ b' → (k x).Pays P Q b'
  | .sleep k, b => P.ws ≤ b ∧ ∀ x, (k x).Pays P Q (b - P.ws)
  | .close _ _ k, b => P.wc ≤ b ∧ ∀ x, (k x).Pays P Q (b - P.wc)
  | .acquire k, b => ∀ x, (k x).Pays P Q b

/-- After success at least `b + c` is left, after an exception at least `b`. -/
def Remains {α : Type} (c b : Nat) (n : Nat) : Except PyErr α → Prop
  | .ok _ => b + c ≤ n
  | .error _ => b ≤ n

/-- The coroutine costs at most `c`, and nothing if it succeeds. -/
def Co.Costs {α : Type} (P : Prices) (c : Nat) (x : Co α) : Prop := ∀ b, x.Pays P (Remains c b) (b + c)

/-- A request: its price is gone if it fails. -/
def Co.Buys {α : Type} (P : Prices) (x : Co α) : Prop := ∀ b, x.Pays P (Remains P.gain b) (b + P.wa)

section
variable {P : Prices} {α β : Type}

theorem Co.pays_bindE {Q : Nat → Except PyErr α → Prop} {Q' : Nat → Except PyErr β → Prop} {h : Except PyErr α → Co β}
    (hf : ∀ b x, Q b x → (h x).Pays P Q' b) : ∀ (x : Co α) (b : Nat), x.Pays P Q b → (x.bindE h).Pays P Q' b
  | .ret a, b, h => hf _ _ h
  | .throw e, b, h => hf _ _ h
  | .get k, b, h => fun g hg => pays_bindE hf (k g) b (h g hg)
  | .upd u k, b, h => ⟨h.1, pays_bindE hf k b h.2⟩
  | .request _ _ _ _ k, b, h => ⟨h.1, fun x => pays_bindE hf (k x) _ (h.2 x)⟩
  | .openConn _ k, b, h => ⟨h.1, fun x b' hb => pays_bindE hf (k x) _ (h.2 x b' hb)⟩
  | .sleep k, b, h => ⟨h.1, fun x => pays_bindE hf (k x) _ (h.2 x)⟩
  | .close _ _ k, b, h => ⟨h.1, fun x => pays_bindE hf (k x) _ (h.2 x)⟩
  | .acquire k, b, h => fun x => pays_bindE hf (k x) b (h x)

theorem Co.Pays.mono {Q Q' : Nat → Except PyErr α → Prop} (hQ : ∀ b b' x, b ≤ b' → Q b x → Q' b' x) :
    ∀ {x : Co α} {b b' : Nat}, b ≤ b' → x.Pays P Q b → x.Pays P Q' b'
  | .ret a, b, b', hb, h => hQ _ _ _ hb h
  | .throw e, b, b', hb, h => hQ _ _ _ hb h
  | .get k, b, b', hb, h => fun g hg => (h g hg).mono hQ hb
  | .upd u k, b, b', hb, h => ⟨h.1, Co.Pays.mono hQ (x := k) hb h.2⟩
  | .request _ _ _ _ k, b, b', hb, h => ⟨⟨h.1.1, Nat.le_trans h.1.2 hb⟩, fun x => (h.2 x).mono hQ (by omega)⟩
  | .openConn _ k, b, b', hb, h =>
    ⟨⟨h.1.1, h.1.2.1, Nat.le_trans h.1.2.2 hb⟩, fun v n hn => (h.2 v n (by omega)).mono hQ (Nat.le_refl _)⟩
  | .sleep k, b, b', hb, h => ⟨Nat.le_trans h.1 hb, fun x => (h.2 x).mono hQ (by omega)⟩
  | .close _ _ k, b, b', hb, h => ⟨Nat.le_trans h.1 hb, fun x => (h.2 x).mono hQ (by omega)⟩
  | .acquire k, b, b', hb, h => fun x => (h x).mono hQ hb

theorem Remains.mono {c b c' b' n n' : Nat} (hb : b' ≤ b) (hc : b' + c' ≤ b + c) (hn : n ≤ n') : ∀ {x : Except PyErr α}, Remains c b n x → Remains c' b' n' x
  | .ok _, h => by simp only [Remains] at *; omega
  | .error _, h => by simp only [Remains] at *; omega

theorem Remains.low {c b n : Nat} : ∀ {x : Except PyErr α}, Remains c b n x → b ≤ n
  | .ok _, h => by simp only [Remains] at *; omega
  | .error _, h => h

theorem Remains.all {c b n : Nat} (h : b + c ≤ n) (x : Except PyErr α) : Remains c b n x := by
  cases x <;> simp only [Remains] <;> omega

/-- A coroutine that costs at most `c` run with at least `c`. -/
theorem Co.Costs.run {c : Nat} {x : Co α} (h : x.Costs P c) {Q : Nat → Except PyErr α → Prop} {b n : Nat} (hn : b + c ≤ n)
    (hQ : ∀ n x, Remains c b n x → Q n x) : x.Pays P Q n := by
  obtain ⟨d, rfl⟩ := Nat.exists_eq_add_of_le hn
  have := h (b + d)
  rw [show b + d + c = b + c + d by omega] at this
  exact this.mono (fun n n' y hn hy => hQ n' y (hy.mono (by omega) (by omega) hn)) (Nat.le_refl _)

theorem Co.Costs.le {c c' : Nat} {x : Co α} (h : x.Costs P c) (hc : c ≤ c') : x.Costs P c' := by
  intro b
  exact h.run (b := b + (c' - c)) (by omega) (fun n y hy => hy.mono (by omega) (by omega) (Nat.le_refl _))

theorem Co.costs_bind {c : Nat} {x : Co α} {h : α → Co β} (hx : x.Costs P c) (hf : ∀ a, (h a).Costs P c) : (x >>= h).Costs P c := by
  intro b
  refine pays_bindE ?_ x _ (hx b)
  intro n r hr
  cases r with
  | ok a => exact (hf a).run hr (fun _ _ h => h)
  | error e => exact hr

theorem Co.costs_ret (c : Nat) (a : α) : (Co.ret a).Costs P c := fun b => Nat.le_refl _
theorem Co.costs_pure (c : Nat) (a : α) : (pure a : Co α).Costs P c := fun b => Nat.le_refl _
theorem Co.costs_throw (c : Nat) (e : PyErr) : (Co.throw e : Co α).Costs P c := fun b => Nat.le_add_right _ _
theorem Co.costs_state {c : Nat} {h : Gw → Co α} (hf : ∀ g, P.lim g.maxRetries → (h g).Costs P c) : (state >>= h).Costs P c := fun b g hg => hf g hg b
theorem Co.pays_state {Q : Nat → Except PyErr α → Prop} {b : Nat} {h : Gw → Co α} (hf : ∀ g, P.lim g.maxRetries → (h g).Pays P Q b) : (state >>= h).Pays P Q b := hf
theorem Co.costs_modify (c : Nat) (u : Gw → Gw) (hu : ∀ g, (u g).maxRetries = g.maxRetries := by intro; rfl) : (modify u).Costs P c := fun b => ⟨hu, Nat.le_refl _⟩
theorem Co.costs_ofExcept (c : Nat) (x : Except PyErr α) : (ofExcept x).Costs P c := by
  cases x with
  | ok a => exact costs_ret c a
  | error e => exact costs_throw c e
theorem Co.buys_make (c : Nat) (code : Int) (data : Bytes) (r : Int) (hr : P.lim r) : (makeRequest c code data r).Buys P := by
  intro b
  refine ⟨⟨hr, by omega⟩, fun x => ?_⟩
  cases x with
  | error e =>
    show b ≤ _
    simp only [Prices.credit]; omega
  | ok v =>
    show b + P.gain ≤ _
    simp only [Prices.credit]; omega
theorem Co.Buys.costs (hP : P.Ample) {x : Co α} (h : x.Buys P) : x.Costs P P.wa :=
  fun b => (h b).mono (fun n n' y hn hy => hy.mono (Nat.le_refl _) (by simp only [Prices.Ample] at hP; omega) hn) (Nat.le_refl _)
/-- A request followed by nothing of the kind. -/
theorem Co.buys_then {x : Co α} {h : α → Co β} (hx : x.Buys P) (hf : ∀ c a, (h a).Costs P c) : (x >>= h).Buys P := by
  intro b
  refine pays_bindE ?_ x _ (hx b)
  intro n r hr
  cases r with
  | ok a => exact (hf P.gain a).run hr (fun _ _ h => h)
  | error e => exact hr
theorem Co.buys_after {x : Except PyErr α} {h : α → Co β} (hf : ∀ a, (h a).Buys P) : (ofExcept x >>= h).Buys P := by
  intro b
  cases x with
  | ok a => exact hf a b
  | error e => exact Nat.le_add_right _ _
theorem Co.pays_close (c : Nat) (force : Bool) {b n : Nat} (h : b + P.wc ≤ n) : (closeConn c force).Pays P (fun n _ => b ≤ n) n := by
  refine ⟨by omega, fun x => ?_⟩
  cases x with
  | error e => show b ≤ _; omega
  | ok e => show b ≤ _; omega
theorem Co.costs_lock {c : Nat} {x : Co α} (hx : x.Costs P c) : (withLock x).Costs P c := by
  intro b r
  cases r with
  | error e => exact Nat.le_add_right _ _
  | ok u =>
    refine pays_bindE ?_ x _ (hx b)
    intro n r hr
    cases r with
    | error e => exact ⟨fun _ => rfl, hr⟩
    | ok v => exact ⟨fun _ => rfl, hr⟩
theorem Co.costs_ite {c : Nat} {d : Prop} [Decidable d] {x y : Co α} (hx : x.Costs P c) (hy : y.Costs P c) : (if d then x else y).Costs P c := by
  split
  · exact hx
  · exact hy
theorem Co.costs_when {c : Nat} {b : Bool} {x : Co Unit} (hx : x.Costs P c) : (whenCo b x).Costs P c := costs_ite hx (costs_ret c ())

end

section
variable {P : Prices} (E : Env)

open Co

theorem buys_ack {code : Int} {payload : Except PyErr Bytes} (c : Nat) {r : Int} (hr : P.lim r) : (ackRequest code payload c r).Buys P :=
  buys_after (fun data => buys_then (buys_make _ _ _ _ hr) (fun _ v => costs_ite (costs_pure _ _) (costs_throw _ _)))

theorem costs_decode (c : Nat) (D : Decoder) (b : Bytes) : (decodeCo E D b).Costs P c :=
  costs_state (fun g hg => costs_bind (costs_modify _ _) (fun _ => costs_ofExcept _ _))

theorem buys_query (D : Gw → Decoder) {code : Int} {payload : Except PyErr Bytes} (c : Nat) {r : Int} (hr : P.lim r) :
    (queryRequest E D code payload c r).Buys P := by
  refine buys_after (fun data => buys_then (buys_make _ _ _ _ hr) (fun _ v => ?_))
  split
  · exact costs_state (fun g hg => costs_bind (costs_decode E _ _ _) (fun _ => costs_pure _ _))
  · exact costs_pure _ _

theorem pays_try {α : Type} {x : Co α} {h : PyErr → Co α} (hx : x.Buys P) (hf : ∀ e, (h e).Costs P 0) (b : Nat) :
    (tryExcept x h).Pays P (fun n _ => b ≤ n) (b + P.wa) := by
  refine pays_bindE ?_ x _ (hx b)
  intro n r hr
  cases r with
  | ok a => exact hr.low
  | error e => exact (hf e).run (b := b) hr (fun n y hy => hy.low)

theorem pays_remove (c : Nat) (i : Int) (b : Nat) :
    (tryExcept (requestRemoveClient i c 0) (fun e => if e.isComm then pure () else Co.throw e)).Pays P (fun n _ => b ≤ n) (b + P.wa) :=
  pays_try (buys_ack c P.zero) (fun e => costs_ite (costs_pure _ _) (costs_throw _ _)) b

theorem pays_unsubscribe (b : Nat) : unsubscribeGateway.Pays P (fun n _ => b ≤ n) (b + P.wa) := by
  intro g hg
  have hb : b ≤ b + P.wa := Nat.le_add_right _ _
  show Co.Pays P _ (if g.attached then _ else _) _
  split
  · intro r
    cases r with
    | error e => exact hb
    | ok u =>
      refine pays_bindE (Q := fun n _ => b ≤ n) ?_ _ _ ?_
      · intro n r hr
        cases r <;> exact ⟨fun _ => rfl, hr⟩
      · intro g hg
        show Co.Pays P _ (match g.isClient, g.cmProto with | true, some c => _ | _, _ => _) _
        split
        · exact ⟨fun _ => rfl, fun _ => rfl, fun _ => rfl, pays_remove _ _ b⟩
        · exact hb
  · exact hb

theorem pays_disconnect (force : Bool) (b : Nat) : (asyncDisconnect force).Pays P (fun n _ => b ≤ n) (b + P.wa + P.wc) := by
  refine pays_state (fun g hg => ?_)
  refine pays_bindE (Q := fun n _ => b + P.wc ≤ n) ?_ _ _ ?_
  · intro n r hr
    cases r with
    | error e => show b ≤ n; omega
    | ok u =>
      intro g hg
      show Co.Pays P _ (match g.protocol with | some c => _ | none => _) _
      split
      · exact pays_close _ _ hr
      · show b ≤ n; omega
  · show Co.Pays P _ (if _ then _ else _) _
    rw [show b + P.wa + P.wc = b + P.wc + P.wa by omega]
    split
    · exact pays_unsubscribe _
    · show b + P.wc ≤ _; omega

theorem pays_ping (b : Nat) : pingCo.Pays P (fun n _ => b ≤ n) (b + P.wa) := by
  refine pays_bindE (Q := fun n _ => b ≤ n) ?_ _ _ ?_
  · intro n r hr
    cases r <;> exact hr
  · intro g hg
    have hb : b ≤ b + P.wa := Nat.le_add_right _ _
    show Co.Pays P _ (match g.cmProto with | some c => _ | none => _) _
    split
    · exact pays_try (buys_ack _ P.zero) (fun e => costs_ite (costs_pure _ _) (costs_throw _ _)) b
    · exact hb

theorem pays_unsub (b : Nat) : unsubCo.Pays P (fun n _ => b ≤ n) (b + P.wa) := by
  refine pays_bindE (Q := fun n _ => b ≤ n) ?_ _ _ (pays_unsubscribe b)
  intro n r hr
  cases r <;> exact hr

/-- What is left after connecting. -/
def Joined (P : Prices) (b n : Nat) (x : Except PyErr Bool) : Prop := b ≤ n ∧ (x = .ok true → b + P.wo + P.ws + P.wa ≤ n)

theorem pays_connect (hP : P.Ample) (a : ConnectArgs) (b : Nat) : (asyncConnect a).Pays P (Joined P b) (b + P.wo + P.ws + P.wa) := by
  intro g hg
  show Co.Pays P _ (if _ then _ else _) _
  split
  · exact ⟨by omega, fun _ => Nat.le_refl _⟩
  · refine ⟨fun _ => rfl, ?_⟩
    intro g hg
    show Co.Pays P _ (if _ then _ else _) _
    split
    · exact ⟨by omega, fun h => by cases h⟩
    · refine ⟨⟨hP, hg, by omega⟩, fun x b' hb => ?_⟩
      rcases x with e | (_ | _)
      · refine ⟨?_, fun h => by cases h⟩
        simp only [Prices.made] at hb; omega
      · refine ⟨?_, fun h => by cases h⟩
        simp only [Prices.made] at hb; omega
      · simp only [Prices.made, Prices.full] at hb
        exact ⟨by omega, fun _ => by omega⟩

variable (hP : P.Ample)
include hP

theorem pays_attempt {α : Type} {r : Int} (hr : P.lim r) {method : Nat → Int → Co α} (hm : ∀ c r, P.lim r → (method c r).Buys P) (b : Nat) :
    (attemptRequest r method).Pays P (Remains P.full b) (b + P.wo + P.ws + P.wa) := by
  refine pays_bindE ?_ _ _ (pays_connect hP {} b)
  intro n x hx
  rcases x with e | (_ | _)
  · exact hx.1
  · exact hx.1
  · have hn := hx.2 rfl
    intro g hg
    show Co.Pays P _ (match g.protocol with | some c => _ | none => _) _
    split
    · exact (hm _ _ hr (b + P.wo + P.ws)).mono (fun n n' y h1 hy => hy.mono (by omega) (by simp only [Prices.full, Prices.Ample] at *; omega) h1) hn
    · exact hx.1

theorem costs_connected {α : Type} {method : Nat → Int → Co α} (hm : ∀ c r, P.lim r → (method c r).Buys P) :
    (connectedRequest method).Costs P P.full := by
  intro b
  refine pays_state (fun g hg => ?_)
  have key : b + P.full = (b + P.wo + 2 * P.ws + 2 * P.wa + P.wc) + P.wo + P.ws + P.wa := by simp only [Prices.full]; omega
  refine pays_bindE (Q := Remains P.full (b + P.wo + 2 * P.ws + 2 * P.wa + P.wc)) ?_ _ _ (by rw [key]; exact pays_attempt hP hg hm _)
  intro n x hx
  cases x with
  | ok a => exact hx.mono (b' := b) (by omega) (by omega) (Nat.le_refl _)
  | error e =>
    have hx' : b + P.wo + 2 * P.ws + 2 * P.wa + P.wc ≤ n := hx
    show Co.Pays P _ (if _ then _ else _) _
    split
    · refine pays_bindE (Q := fun m _ => b + P.wo + 2 * P.ws + P.wa ≤ m) ?_ _ _
        ((pays_disconnect true (b + P.wo + 2 * P.ws + P.wa)).mono (fun _ _ _ h1 h2 => Nat.le_trans h2 h1) (by omega))
      intro m y hy
      cases y with
      | error e => show b ≤ m; omega
      | ok u =>
        refine ⟨by omega, fun z => ?_⟩
        cases z with
        | error e => show b ≤ m - P.ws; omega
        | ok u =>
          show Co.Pays P _ (attemptRequest _ _) _
          exact (pays_attempt hP hg hm b).mono (fun n n' y h1 hy => hy.mono (Nat.le_refl _) (Nat.le_refl _) h1) (by omega)
    · show b ≤ n; omega

theorem costs_subscribe : subscribeGateway.Costs P P.full := by
  refine costs_state (fun g hg => costs_ite (costs_lock (costs_state (fun g hg => costs_ite (costs_pure _ _) ?_))) (costs_pure _ _))
  refine costs_bind (costs_connected hP (fun c r hr => buys_ack _ hr)) (fun _ => costs_bind (costs_modify _ _) (fun _ => costs_state (fun g hg => ?_)))
  split
  · exact costs_modify _ _
  · exact costs_throw _ _

omit hP in
theorem costs_registerAll (n c : Nat) : ∀ l, (registerAll c l).Costs P n
  | [] => costs_pure _ _
  | (code, _) :: rest => costs_bind (costs_modify _ _) (fun _ => costs_registerAll n c rest)

theorem costs_attach (c : Nat) : (attach c).Costs P P.full :=
  costs_bind (costs_modify _ _) (fun _ => costs_state (fun g hg => costs_ite
    (costs_bind (costs_modify _ _) (fun _ => costs_bind (costs_registerAll _ c _) (fun _ => costs_subscribe hP))) (costs_pure _ _)))

theorem costs_poll {method : Nat → Int → Co (Option Bytes)} (key : Path) (hm : ∀ c r, P.lim r → (method c r).Buys P) : (poll key method).Costs P P.full := by
  refine costs_bind (costs_connected hP hm) (fun raw => ?_)
  split
  · exact costs_modify _ _
  · exact costs_pure _ _

theorem costs_getPump (i : Nat) : (getPump E i).Costs P P.full := by
  have q : ∀ c r, P.lim r → (requestPump E i c r).Buys P := by
    generalize (i : Int) = j at *
    exact fun c r hr => buys_query E (fun _ => .pump j) c hr
  simp only [getPump]
  generalize requestPump E i = m at q
  refine costs_state (fun g hg => costs_bind (costs_ofExcept _ _) (fun f => ?_))
  split
  · exact costs_bind (costs_modify _ _) (fun _ => costs_poll hP _ q)
  · exact costs_pure _ _

theorem costs_getPumpsFrom : ∀ n i, (getPumpsFrom E n i).Costs P P.full
  | 0, _ => costs_pure _ _
  | n + 1, i => costs_bind (costs_getPump E hP i) (fun _ => costs_getPumpsFrom n (i + 1))

theorem costs_getStatus : (getStatus E).Costs P P.full := costs_poll hP _ (fun c r hr => buys_query E _ c hr)
theorem costs_getConfig : (getConfig E).Costs P P.full := costs_poll hP _ (fun c r hr => buys_query E _ c hr)
theorem costs_getScg : (getScg E).Costs P P.full := costs_poll hP _ (fun c r hr => buys_query E _ c hr)
theorem costs_getChemistry : (getChemistry E).Costs P P.full := costs_poll hP _ (fun c r hr => buys_query E _ c hr)
theorem costs_getDatetime : (getDatetime E).Costs P P.full := costs_poll hP _ (fun c r hr => buys_query E _ c hr)

theorem costs_update : (asyncUpdate E).Costs P P.full :=
  costs_state (fun g hg => costs_ite (costs_bind (costs_getStatus E hP) (fun _ => costs_bind (costs_getPumpsFrom E hP 8 0) (fun _ =>
    costs_bind (costs_getChemistry E hP) (fun _ => costs_bind (costs_getScg E hP) (fun _ => costs_getDatetime E hP))))) (costs_throw _ _))

theorem costs_setter (p : Except PyErr (Int × Except PyErr Bytes)) : (setterCo p).Costs P P.full := by
  cases p with
  | error e => exact costs_throw _ _
  | ok p => exact costs_bind (costs_connected hP (fun c r hr => buys_ack c hr)) (fun _ => costs_pure _ _)

omit hP in
theorem pays_gatewayConnect (c : Nat) {r : Int} (hr : P.lim r) (b : Nat) : (gatewayConnect c r).Pays P (Remains P.gain b) (b + P.ws + P.wa) := by
  refine ⟨fun _ => rfl, by omega, fun x => ?_⟩
  rw [show b + P.ws + P.wa - P.ws = b + P.wa by omega]
  cases x with
  | error e => exact Nat.le_add_right _ _
  | ok u =>
    intro g hg
    show Co.Pays P _ (if _ then _ else _) _
    split
    · refine pays_bindE ?_ _ _ (buys_make c 14 [] r hr b)
      intro n x hx
      rcases x with e | (_ | v)
      · exact hx
      · exact hx.low
      · exact (costs_ofExcept P.gain _).run hx (fun _ _ h => h)
    · exact Nat.le_add_right _ _

theorem pays_login (c : Nat) {r : Int} (hr : P.lim r) (b : Nat) : (connectToGateway c r).Pays P (Remains P.full b) (b + P.ws + P.wa) := by
  unfold connectToGateway
  generalize loginMessage = lm
  refine pays_bindE ?_ _ _ (pays_gatewayConnect c hr b)
  intro n x hx
  cases x with
  | error e => exact hx
  | ok mac =>
    have hn : b + P.gain ≤ n := hx
    refine pays_bindE ?_ _ _ ((costs_ofExcept P.gain lm).run hn (fun _ _ h => h))
    intro m y hy
    cases y with
    | error e => exact hy
    | ok msg =>
      have hm : b + P.gain ≤ m := hy
      refine pays_bindE ?_ _ _ ((buys_make c 27 msg r hr (b + P.gain - P.wa)).mono (Q' := Remains P.gain (b + P.gain - P.wa))
        (fun n n' y h1 hy => hy.mono (Nat.le_refl _) (Nat.le_refl _) h1) (by simp only [Prices.Ample] at hP; omega))
      intro k z hz
      rcases z with e | (_ | v)
      · have hk : b + P.gain - P.wa ≤ k := hz
        show b ≤ k
        simp only [Prices.Ample] at hP hk; omega
      · have hk : b + P.gain - P.wa + P.gain ≤ k := hz
        show b + P.full ≤ k
        simp only [Prices.Ample, Prices.full] at hP hk ⊢; omega
      · have hk : b + P.gain - P.wa + P.gain ≤ k := hz
        show b + P.full ≤ k
        simp only [Prices.Ample, Prices.full] at hP hk ⊢; omega

theorem costs_loaded (c : Nat) (m : String) : (do
    modify (·.setProto c m)
    loadVersion E c
    let g ← state
    if g.hasVersion then do
      getConfig E
      let g ← state
      match g.protocol with
      | some c => do
        attach c
        return true
      | none => .throw .attributeError
    else return false : Co Bool).Costs P P.full := by
  refine costs_bind (costs_modify _ _) (fun _ => costs_bind ?_ (fun _ => costs_state (fun g hg => costs_ite ?_ (costs_pure _ _))))
  · exact costs_state (fun g hg => costs_bind (((buys_query E _ _ hg).costs hP).le (by simp only [Prices.full]; omega)) (fun _ => costs_modify _ _))
  · refine costs_bind (costs_getConfig E hP) (fun _ => costs_state (fun g hg => ?_))
    split
    · exact costs_bind (costs_attach hP _) (fun _ => costs_pure _ _)
    · exact costs_throw _ _

theorem pays_afterOpen {r : Int} (hr : P.lim r) (c : Nat) (b : Nat) : (afterOpen E r c).Pays P (fun n x => b + P.made x ≤ n) (b + P.ws + P.wa) := by
  refine pays_bindE ?_ _ _ (pays_login hP c hr b)
  intro n x hx
  rcases x with e | (_ | m)
  · exact hx
  · exact hx.low
  · refine (costs_loaded E hP c m).run (b := b) hx (fun k y hy => ?_)
    rcases y with e | (_ | _)
    · exact hy
    · exact hy.low
    · exact hy

end

/-- The rest of a task. -/
def Task.Pays (P : Prices) : Task → Nat → Prop
  | .request _ _ k, b => ∀ x, (k x).Pays P (fun _ _ => True) (b + P.credit x)
  | .opening r k, b => (P.Ample ∧ P.lim r ∧ P.ws + P.wa ≤ b) ∧ ∀ x b', b - P.ws - P.wa + P.made x ≤ b' → (k x).Pays P (fun _ _ => True) b'
  | .sleeping k, b => ∀ x, (k x).Pays P (fun _ _ => True) b
  | .closing _ _ k, b => ∀ x, (k x).Pays P (fun _ _ => True) b
  | .locked k, b => ∀ x, (k x).Pays P (fun _ _ => True) b
  | .done _, _ => True

/-- What the task has spent. -/
def Prices.spent (P : Prices) (l : List Act) : Nat := P.wo * l.countP Act.isOpen + P.wa * l.countP Act.isAsk + P.wc * l.countP Act.isClose

/-- What the task has earned. -/
def Prices.earned (P : Prices) (l : List Act) : Nat := P.gain * l.countP Act.isReturn

/-- What it has left, beginning with `p`, is at most `b`. -/
def Prices.Balance (P : Prices) (p b : Nat) (l : List Act) : Prop := b + P.spent l ≤ p + P.earned l

section
variable {P : Prices} {p b : Nat} {l : List Act}

theorem balance_ask (c : Nat) (code : Int) (data : Bytes) (h : P.Balance p b l) (hb : P.wa ≤ b) : P.Balance p (b - P.wa) (l ++ [.ask c code data]) := by
  simp only [Prices.Balance, Prices.spent, Prices.earned, List.countP_append, List.countP_singleton, Act.isOpen, Act.isAsk, Act.isClose, Act.isReturn,
    Bool.false_eq_true, if_false, if_true, Nat.add_zero, Nat.mul_add, Nat.mul_one] at *
  omega

theorem balance_opn (host : String) (port : Int) (h : P.Balance p b l) (hb : P.wo ≤ b) : P.Balance p (b - P.wo) (l ++ [.opn host port]) := by
  simp only [Prices.Balance, Prices.spent, Prices.earned, List.countP_append, List.countP_singleton, Act.isOpen, Act.isAsk, Act.isClose, Act.isReturn,
    Bool.false_eq_true, if_false, if_true, Nat.add_zero, Nat.mul_add, Nat.mul_one] at *
  omega

theorem balance_cls (c : Nat) (f : Bool) (h : P.Balance p b l) (hb : P.wc ≤ b) : P.Balance p (b - P.wc) (l ++ [.cls c f]) := by
  simp only [Prices.Balance, Prices.spent, Prices.earned, List.countP_append, List.countP_singleton, Act.isOpen, Act.isAsk, Act.isClose, Act.isReturn,
    Bool.false_eq_true, if_false, if_true, Nat.add_zero, Nat.mul_add, Nat.mul_one] at *
  omega

theorem balance_got (o : Except PyErr (Option Bytes)) (h : P.Balance p b l) : P.Balance p (b + P.credit o) (l ++ [.got o]) := by
  cases o <;>
  simp only [Prices.Balance, Prices.spent, Prices.earned, Prices.credit, List.countP_append, List.countP_singleton, Act.isOpen, Act.isAsk, Act.isClose, Act.isReturn,
    Bool.false_eq_true, if_false, if_true, Nat.add_zero, Nat.mul_add, Nat.mul_one] at * <;>
  omega

end

theorem settle_pays {P : Prices} {p : Nat} (t : Nat) : ∀ (co : Co Res) (g : Gw) (b : Nat), P.lim g.maxRetries → co.Pays P (fun _ _ => True) b → P.Balance p b (g.acts t) →
    ∃ b', (settle t co g).1.Pays P b' ∧ P.Balance p b' ((settle t co g).2.acts t)
  | .ret a, g, b, hg, h, hl => ⟨b, trivial, hl⟩
  | .throw e, g, b, hg, h, hl => ⟨b, trivial, hl⟩
  | .get k, g, b, hg, h, hl => settle_pays t (k g) g b hg (h g hg) hl
  | .upd u k, g, b, hg, h, hl => settle_pays t k (g.apply u) b (by rw [show (g.apply u).maxRetries = (u g).maxRetries from rfl, h.1]; exact hg) h.2 hl
  | .request c code data r k, g, b, hg, h, hl => by
    have h1 : P.Balance p (b - P.wa) ((g.ask t c code data r).2.acts t) := by rw [acts_ask_same]; exact balance_ask c code data hl h.1.2
    simp only [settle]
    split
    · rename_i o _
      exact settle_pays t _ _ _ hg (h.2 o) (by rw [acts_note_same]; exact balance_got o h1)
    · exact ⟨_, h.2, h1⟩
  | .openConn r k, g, b, hg, h, hl => by
    refine ⟨b - P.wo, ⟨⟨h.1.1, h.1.2.1, by have := h.1.2.2; omega⟩, h.2⟩, ?_⟩
    simp only [settle, acts_note_same]
    exact balance_opn _ _ hl (by have := h.1.2.2; omega)
  | .sleep k, g, b, hg, h, hl => ⟨b - P.ws, h.2, by simp only [settle, Prices.Balance] at *; omega⟩
  | .close c force k, g, b, hg, h, hl => by
    have h1 : P.Balance p (b - P.wc) ((g.startClose t c force).2.acts t) := by rw [acts_close_same]; exact balance_cls c force hl h.1
    simp only [settle]
    split
    · exact settle_pays t _ _ _ hg (h.2 _) h1
    · exact ⟨_, h.2, h1⟩
  | .acquire k, g, b, hg, h, hl => by
    simp only [settle]
    split
    · exact settle_pays t _ _ _ hg (h _) hl
    · exact ⟨_, h, hl⟩

/-- What a task has left. -/
def Sys.Afford (s : Sys) (P : Prices) (p t : Nat) : Prop := ∃ x b, s.tasks[t]? = some x ∧ x.Pays P b ∧ P.Balance p b (s.g.acts t)

theorem afford_put {s : Sys} {P : Prices} {p t : Nat} {x : Task} (hx : s.tasks[t]? = some x) {co : Co Res} {g0 : Gw} {b : Nat}
    (hg : P.lim g0.maxRetries) (h : co.Pays P (fun _ _ => True) b) (hl : P.Balance p b (g0.acts t)) : (s.put t (settle t co g0)).Afford P p t := by
  obtain ⟨b', h1, h2⟩ := settle_pays t co g0 b hg h hl
  exact ⟨_, b', put_task hx _, h1, h2⟩

theorem afford_step (E : Env) {s : Sys} {P : Prices} {p t : Nat} (hg : P.lim s.g.maxRetries) (h : s.Afford P p t) (ev : Ev) : (s.step E ev).Afford P p t := by
  obtain ⟨x, b, hx, hb, hl⟩ := h
  have same : s.step E ev = s → (s.step E ev).Afford P p t := fun e => by rw [e]; exact ⟨x, b, hx, hb, hl⟩
  have ht := lt_of_getElem? hx
  cases hown : ev.own t with
  | false =>
    obtain ⟨h1, h2⟩ := step_other_task E s ev ht hown
    exact ⟨x, b, h1.trans hx, hb, by rw [h2]; exact hl⟩
  | true =>
    have ev_eq : (∃ ok, ev = .opened t ok) ∨ ev = .resume t ∨ ev = .cancel t := by
      cases ev <;> simp_all [Ev.own]
    cases x with
    | done r => exact same (by rcases ev_eq with ⟨ok, rfl⟩ | rfl | rfl <;> simp only [Sys.step, hx])
    | request c i k =>
      rcases ev_eq with ⟨ok, rfl⟩ | rfl | rfl
      · exact same (by simp only [Sys.step, hx])
      · cases h : s.g.outcome c i with
        | none => exact same (by simp only [Sys.step, hx, h])
        | some o =>
          have e : s.step E (.resume t) = s.put t (settle t (k o) (s.g.note t (.got o))) := by simp only [Sys.step, hx, h]
          rw [e]
          exact afford_put hx hg (hb o) (by rw [acts_note_same]; exact balance_got o hl)
      · exact same (by simp only [Sys.step, hx])
    | opening r k =>
      have low : P.Balance p (b - P.ws - P.wa) (s.g.acts t) := by simp only [Prices.Balance] at *; omega
      rcases ev_eq with ⟨ok, rfl⟩ | rfl | rfl
      · cases ok with
        | false =>
          have e : s.step E (.opened t false) = s.put t (settle t (k (.error .slConnection)) s.g) := by simp only [Sys.step, hx, Bool.false_eq_true, if_false]
          rw [e]
          exact afford_put hx hg (hb.2 _ (b - P.ws - P.wa) (by simp [Prices.made])) low
        | true =>
          have e : s.step E (.opened t true) = s.put t (settle t ((afterOpen E r s.g.conns.length).bindE k) s.g.addConn) := by simp only [Sys.step, hx, if_true]
          rw [e]
          refine afford_put (b := b) hx hg ?_ hl
          refine Co.pays_bindE (Q := fun n x => b - P.ws - P.wa + P.made x ≤ n) (fun n x hn => hb.2 x n hn) _ _ ?_
          have := pays_afterOpen E hb.1.1 hb.1.2.1 s.g.conns.length (b - P.ws - P.wa)
          rwa [show b - P.ws - P.wa + P.ws + P.wa = b by have := hb.1.2.2; omega] at this
      · exact same (by simp only [Sys.step, hx])
      · have e : s.step E (.cancel t) = s.put t (settle t (k (.error .cancelled)) s.g) := by simp only [Sys.step, hx]
        rw [e]
        exact afford_put hx hg (hb.2 _ (b - P.ws - P.wa) (by simp [Prices.made])) low
    | sleeping k =>
      rcases ev_eq with ⟨ok, rfl⟩ | rfl | rfl
      · exact same (by simp only [Sys.step, hx])
      · have e : s.step E (.resume t) = s.put t (settle t (k (.ok ())) s.g) := by simp only [Sys.step, hx]
        rw [e]; exact afford_put hx hg (hb _) hl
      · have e : s.step E (.cancel t) = s.put t (settle t (k (.error .cancelled)) s.g) := by simp only [Sys.step, hx]
        rw [e]; exact afford_put hx hg (hb _) hl
    | closing c i k =>
      rcases ev_eq with ⟨ok, rfl⟩ | rfl | rfl
      · exact same (by simp only [Sys.step, hx])
      · by_cases h : s.g.closeEnded c i = true
        · have e : s.step E (.resume t) = s.put t (settle t (k (s.g.closeResult c i)) s.g) := by simp only [Sys.step, hx, h, if_true]
          rw [e]; exact afford_put hx hg (hb _) hl
        · exact same (by simp only [Sys.step, hx, h]; rfl)
      · exact same (by simp only [Sys.step, hx])
    | locked k =>
      rcases ev_eq with ⟨ok, rfl⟩ | rfl | rfl
      · exact same (by simp only [Sys.step, hx])
      · by_cases h : s.g.lock = none ∧ s.g.waiters.head? = some t
        · have e : s.step E (.resume t) = s.put t (settle t (k (.ok ())) ((s.g.setWaiters s.g.waiters.tail).take t)) := by
            simp only [Sys.step, hx]; exact if_pos h
          rw [e]; exact afford_put hx hg (hb _) hl
        · exact same (by simp only [Sys.step, hx]; exact if_neg h)
      · have e : s.step E (.cancel t) = s.put t (settle t (k (.error .cancelled)) (s.g.setWaiters (s.g.waiters.filter (· ≠ t)))) := by simp only [Sys.step, hx]
        rw [e]; exact afford_put hx hg (hb _) hl

/-- The retries are always allowed. -/
def Sys.Limited (E : Env) (P : Prices) (s : Sys) : List Ev → Prop
  | [] => P.lim s.g.maxRetries
  | ev :: es => P.lim s.g.maxRetries ∧ (s.step E ev).Limited E P es

theorem afford_run (E : Env) {P : Prices} {p t : Nat} : ∀ (es : List Ev) {s : Sys}, s.Limited E P es → s.Afford P p t → (s.run E es).Afford P p t
  | [], _, _, h => h
  | ev :: es, _, hl, h => afford_run E es hl.2 (afford_step E hl.1 h ev)

theorem afford_spawn {s : Sys} (hs : LogOk s) {P : Prices} {p : Nat} {co : Co Res} {g0 : Gw} (hm : P.lim g0.maxRetries) (hg : g0.log = s.g.log) (h : co.Pays P (fun _ _ => True) p) :
    (Sys.spawn { s with g := g0 } co).Afford P p s.tasks.length := by
  have he : g0.acts s.tasks.length = [] := by
    have : g0.acts s.tasks.length = s.g.acts s.tasks.length := by simp only [Gw.acts, hg]
    rw [this]; exact hs.fresh
  obtain ⟨b', h1, h2⟩ := settle_pays s.tasks.length co g0 p hm h (p := p) (by rw [he]; simp [Prices.Balance, Prices.spent, Prices.earned])
  exact ⟨_, b', by simp [Sys.spawn], h1, h2⟩

end SL
