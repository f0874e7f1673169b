import Verif.Lemmas.Wired
/-!
# State changes that no coroutine makes

`Co.All P x` : every change of the shared state that the coroutine `x` can ever make is one of `P`.
-/
set_option linter.unusedVariables false

namespace SL

open Co (state modify makeRequest pause closeConn withLock tryExcept ofExcept)

/-- Unless no address is known, the coroutine goes on by opening a TCP connection. -/
def Co.OpensNext {α : Type} : Co α → Prop
  | .get j => ∀ g, g.noIp = false → ∃ r k, j g = .openConn r k
  | _ => False

theorem Co.OpensNext.bindE {α β : Type} {x : Co α} (h : x.OpensNext) (f : Except PyErr α → Co β) : (x.bindE f).OpensNext := by
  cases x with
  | get j =>
    intro g hg
    obtain ⟨r, k, e⟩ := h g hg
    exact ⟨r, fun o => (k o).bindE f, by simp only [e, Co.bindE]⟩
  | _ => exact absurd h (by simp [Co.OpensNext])

/-- Every change the coroutine makes satisfies `P`; and it forgets the connection-closed callback only on the way to
a new TCP connection. -/
def Co.All (P : (Gw → Gw) → Prop) {α : Type} : Co α → Prop
  | .ret _ => True
  | .throw _ => True
  | .get k => ∀ g, (k g).All P
  | .upd f k => P f ∧ k.All P ∧ ((∀ g, (f g).closedCb = g.closedCb) ∨ k.OpensNext)
  | .request _ _ _ _ k => ∀ o, (k o).All P
  | .openConn _ k => ∀ o, (k o).All P
  | .sleep k => ∀ o, (k o).All P
  | .close _ _ k => ∀ o, (k o).All P
  | .acquire k => ∀ o, (k o).All P

section
variable {P : (Gw → Gw) → Prop} {α β : Type}

theorem Co.all_bindE {f : Except PyErr α → Co β} (hf : ∀ o, (f o).All P) : ∀ x : Co α, x.All P → (x.bindE f).All P
  | .ret a, _ => hf _
  | .throw e, _ => hf _
  | .get k, h => fun g => all_bindE hf (k g) (h g)
  | .upd u k, h => ⟨h.1, all_bindE hf k h.2.1, h.2.2.imp id (fun x => x.bindE f)⟩
  | .request _ _ _ _ k, h => fun o => all_bindE hf (k o) (h o)
  | .openConn _ k, h => fun o => all_bindE hf (k o) (h o)
  | .sleep k, h => fun o => all_bindE hf (k o) (h o)
  | .close _ _ k, h => fun o => all_bindE hf (k o) (h o)
  | .acquire k, h => fun o => all_bindE hf (k o) (h o)

theorem Co.all_bind {x : Co α} {f : α → Co β} (hx : x.All P) (hf : ∀ a, (f a).All P) : (x >>= f).All P := by
  refine all_bindE ?_ x hx
  intro o
  cases o with
  | ok a => exact hf a
  | error e => trivial

theorem Co.all_pure (a : α) : (pure a : Co α).All P := trivial
theorem Co.all_throw (e : PyErr) : (Co.throw e : Co α).All P := trivial
theorem Co.all_state {f : Gw → Co α} (hf : ∀ g, (f g).All P) : (state >>= f).All P := hf
theorem Co.all_modify {f : Gw → Gw} (hf : P f) (hk : ∀ g, (f g).closedCb = g.closedCb := by intro _; rfl) : (modify f).All P :=
  ⟨hf, trivial, .inl hk⟩
theorem Co.all_ofExcept (x : Except PyErr α) : (ofExcept x).All P := by cases x <;> trivial
theorem Co.all_make (c : Nat) (code : Int) (data : Bytes) (r : Int) : (makeRequest c code data r).All P := fun o => all_ofExcept o
theorem Co.all_pause : pause.All P := fun o => all_ofExcept o
theorem Co.all_close (c : Nat) (force : Bool) : (closeConn c force).All P := fun o => all_ofExcept o
theorem Co.all_try {x : Co α} {f : PyErr → Co α} (hx : x.All P) (hf : ∀ e, (f e).All P) : (tryExcept x f).All P := by
  refine all_bindE ?_ x hx
  intro o
  cases o with
  | ok a => trivial
  | error e => exact hf e
theorem Co.all_lock {x : Co α} (hx : x.All P) (hr : P Gw.release) : (withLock x).All P := by
  intro o
  cases o with
  | error e => trivial
  | ok u =>
    refine all_bindE ?_ x hx
    intro o
    exact ⟨hr, all_ofExcept o, .inl (fun _ => rfl)⟩
theorem Co.all_ite {c : Prop} [Decidable c] {x y : Co α} (hx : x.All P) (hy : y.All P) : (if c then x else y).All P := by
  split
  · exact hx
  · exact hy
theorem Co.all_when {b : Bool} {x : Co Unit} (hx : x.All P) : (whenCo b x).All P := all_ite hx trivial

end

/-- The changes the program makes, apart from `async_connect` storing its arguments and `async_subscribe` storing the
listener. -/
inductive Chg (E : Env) : (Gw → Gw) → Prop
  | data (d : Gw → Val) : Chg E (fun g => g.setData (d g))
  | last (p : Path) (x : Val) : Chg E (·.putLast p x)
  | lastNew (p : Path) (x : Val) : Chg E (·.putLastNew p x)
  | client (b : Bool) : Chg E (·.setClient b)
  | disableKeepalive (c : Nat) : Chg E (·.net c .disableKeepalive)
  | unregisterAll (c : Nat) : Chg E (·.net c .unregisterAll)
  | enableKeepalive (c : Nat) : Chg E (·.net c (.enableKeepalive 0))
  | register (c code : Nat) : Chg E (·.net c (.register code (commonHandler code)))
  | release : Chg E Gw.release
  | attach (c : Nat) : Chg E (·.attachTo c)
  | remember : Chg E (·.remember {})
  | raw (c : Nat) (b : Bytes) : Chg E (·.writeRaw c b)
  | proto (c : Nat) (m : String) : Chg E (·.setProto c m)

section
variable (E : Env)

open Co

theorem chg_connect : (asyncConnect {}).All (Chg E) := by
  intro g
  refine all_ite trivial ⟨.remember, fun g => all_ite trivial (fun o => all_ofExcept o), .inr (fun g hg => ?_)⟩
  exact ⟨g.maxRetries, ofExcept, by simp [hg]⟩

theorem chg_ack (code : Int) (payload : Except PyErr Bytes) (c : Nat) (r : Int) : (ackRequest code payload c r).All (Chg E) :=
  all_bind (all_ofExcept _) (fun data => all_bind (all_make _ _ _ _) (fun v => all_ite trivial trivial))

theorem chg_decode (D : Decoder) (b : Bytes) : (decodeCo E D b).All (Chg E) :=
  all_state (fun g => all_bind (all_modify (.data (fun _ => (decodeWith (D.prog E.pyFloat) b g.data).2))) (fun _ => all_ofExcept _))

theorem chg_query (D : Gw → Decoder) (code : Int) (payload : Except PyErr Bytes) (c : Nat) (r : Int) :
    (queryRequest E D code payload c r).All (Chg E) := by
  refine all_bind (all_ofExcept _) (fun data => all_bind (all_make _ _ _ _) (fun v => ?_))
  split
  · exact all_state (fun g => all_bind (chg_decode E _ _) (fun _ => trivial))
  · trivial

theorem chg_unsubscribeGateway : unsubscribeGateway.All (Chg E) := by
  refine all_state (fun g => all_ite (all_lock (all_state (fun g => ?_)) .release) trivial)
  split
  · exact all_bind (all_modify (.client false)) (fun _ => all_bind (all_modify (.disableKeepalive _)) (fun _ =>
      all_bind (all_modify (.unregisterAll _)) (fun _ => all_try (chg_ack E _ _ _ _) (fun e => all_ite trivial trivial))))
  · trivial

theorem chg_disconnect (force : Bool) : (asyncDisconnect force).All (Chg E) := by
  refine all_state (fun g => all_bind (all_when (chg_unsubscribeGateway E)) (fun _ => all_state (fun g => ?_)))
  split
  · exact all_close _ _
  · trivial

theorem chg_attempt {α : Type} (r : Int) {method : Nat → Int → Co α} (hm : ∀ c r, (method c r).All (Chg E)) :
    (attemptRequest r method).All (Chg E) := by
  refine all_bind (chg_connect E) (fun ok => all_ite (all_state (fun g => ?_)) trivial)
  split
  · exact hm _ _
  · trivial

theorem chg_connected {α : Type} {method : Nat → Int → Co α} (hm : ∀ c r, (method c r).All (Chg E)) :
    (connectedRequest method).All (Chg E) :=
  all_state (fun g => all_try (chg_attempt E _ hm) (fun e => all_ite
    (all_bind (chg_disconnect E _) (fun _ => all_bind all_pause (fun _ => chg_attempt E _ hm))) trivial))

theorem chg_subscribeGateway : subscribeGateway.All (Chg E) := by
  refine all_state (fun g => all_ite (all_lock (all_state (fun g => all_ite trivial ?_)) .release) trivial)
  refine all_bind (chg_connected E (fun c r => chg_ack E _ _ _ _)) (fun _ => all_bind (all_modify (.client true)) (fun _ => all_state (fun g => ?_)))
  split
  · exact all_modify (.enableKeepalive _)
  · trivial

theorem chg_registerAll (c : Nat) : ∀ l, (registerAll c l).All (Chg E)
  | [] => trivial
  | (code, _) :: rest => all_bind (all_modify (.register c code)) (fun _ => chg_registerAll c rest)

theorem chg_attach (c : Nat) : (attach c).All (Chg E) :=
  all_bind (all_modify (.attach c)) (fun _ => all_state (fun g => all_ite
    (all_bind (all_modify (.unregisterAll _)) (fun _ => all_bind (chg_registerAll E c _) (fun _ => chg_subscribeGateway E))) trivial))

theorem chg_poll {method : Nat → Int → Co (Option Bytes)} (key : Path) (hm : ∀ c r, (method c r).All (Chg E)) : (poll key method).All (Chg E) := by
  refine all_bind (chg_connected E hm) (fun raw => ?_)
  split
  · exact all_modify (.last _ _)
  · trivial

theorem chg_requestPump (j : Int) (c : Nat) (r : Int) : (requestPump E j c r).All (Chg E) :=
  chg_query E (fun _ => .pump j) 12584 (packObjs [.int 0, .int j]) c r

theorem chg_getPump (i : Nat) : (getPump E i).All (Chg E) := by
  have q : ∀ c r, (requestPump E i c r).All (Chg E) := by
    generalize (i : Int) = j
    exact chg_requestPump E j
  simp only [getPump]
  generalize requestPump E i = m at q
  refine all_state (fun g => all_bind (all_ofExcept _) (fun f => ?_))
  split
  · exact all_bind (all_modify (.lastNew _ _)) (fun _ => chg_poll E _ q)
  · trivial

theorem chg_getPumpsFrom : ∀ n i, (getPumpsFrom E n i).All (Chg E)
  | 0, _ => trivial
  | n + 1, i => all_bind (chg_getPump E i) (fun _ => chg_getPumpsFrom n (i + 1))

theorem chg_update : (asyncUpdate E).All (Chg E) := by
  have q : ∀ (D : Gw → Decoder) code payload, ∀ c r, (queryRequest E D code payload c r).All (Chg E) := fun D code payload c r => chg_query E D _ _ _ _
  exact all_state (fun g => all_ite (all_bind (chg_poll E _ (q _ _ _)) (fun _ => all_bind (chg_getPumpsFrom E 8 0) (fun _ =>
    all_bind (chg_poll E _ (q _ _ _)) (fun _ => all_bind (chg_poll E _ (q _ _ _)) (fun _ => chg_poll E _ (q _ _ _)))))) trivial)

theorem chg_require (b : Except PyErr Bool) : (require b).All (Chg E) := by
  cases b with
  | error e => trivial
  | ok b => cases b <;> trivial

/-- Every API call but `async_connect` and `async_subscribe`. -/
theorem chg_call (a : Call) (ha : ∀ x, a ≠ .connect x) (hb : ∀ x y, a ≠ .subscribe x y) : (a.co E).All (Chg E) := by
  have q : ∀ (D : Gw → Decoder) code payload, ∀ c r, (queryRequest E D code payload c r).All (Chg E) := fun D code payload c r => chg_query E D _ _ _ _
  have k : ∀ code payload, ∀ c r, (ackRequest code payload c r).All (Chg E) := fun code payload c r => chg_ack E _ _ _ _
  have rq := chg_require E
  cases a with
  | connect x => exact absurd rfl (ha x)
  | disconnect force => exact all_bind (chg_disconnect E force) (fun _ => trivial)
  | update => exact all_bind (chg_update E) (fun _ => trivial)
  | getConfig => exact all_bind (chg_poll E _ (q _ _ _)) (fun _ => trivial)
  | getStatus => exact all_bind (chg_poll E _ (q _ _ _)) (fun _ => trivial)
  | getPumps => exact all_bind (chg_getPumpsFrom E 8 0) (fun _ => trivial)
  | getChemistry => exact all_bind (chg_poll E _ (q _ _ _)) (fun _ => trivial)
  | getScg => exact all_bind (chg_poll E _ (q _ _ _)) (fun _ => trivial)
  | getDatetime => exact all_bind (chg_poll E _ (q _ _ _)) (fun _ => trivial)
  | setCircuit x y =>
    exact all_bind (all_state (fun g => all_bind (rq _) (fun _ => all_bind (rq _) (fun _ => chg_connected E (k _ _))))) (fun _ => trivial)
  | setHeatTemp x y =>
    exact all_bind (all_state (fun g => all_bind (rq _) (fun _ => all_bind (rq _) (fun _ => chg_connected E (k _ _))))) (fun _ => trivial)
  | setHeatMode x y =>
    exact all_bind (all_state (fun g => all_bind (rq _) (fun _ => all_bind (rq _) (fun _ => chg_connected E (k _ _))))) (fun _ => trivial)
  | setColorLights x => exact all_bind (all_bind (rq _) (fun _ => chg_connected E (k _ _))) (fun _ => trivial)
  | setScg x y z w =>
    exact all_bind (all_state (fun g => all_bind (all_ofExcept _) (fun _ => chg_connected E (k _ _)))) (fun _ => trivial)
  | setChem x y z w u v =>
    exact all_bind (all_state (fun g => all_bind (all_ofExcept _) (fun _ => all_bind (all_ofExcept _) (fun _ => chg_connected E (k _ _))))) (fun _ => trivial)
  | setDateTime x y =>
    exact all_bind (all_ite trivial (all_state (fun g => all_bind (all_ofExcept _) (fun _ => all_bind (all_ofExcept _) (fun _ => chg_connected E (k _ _)))))) (fun _ => trivial)
  | subscribe cb code => exact absurd rfl (hb cb code)
  | send code data => exact all_bind (chg_connected E (fun c r => all_make _ _ _ _)) (fun _ => trivial)

theorem chg_ping : pingCo.All (Chg E) := by
  refine all_bind (all_state (fun g => ?_)) (fun _ => trivial)
  split
  · exact all_try (chg_ack E _ _ _ _) (fun e => all_ite trivial trivial)
  · trivial

theorem chg_unsub : unsubCo.All (Chg E) := all_bind (chg_unsubscribeGateway E) (fun _ => trivial)

theorem chg_afterOpen (r : Int) (c : Nat) : (afterOpen E r c).All (Chg E) := by
  refine all_bind ?_ (fun mac => ?_)
  · refine all_bind ?_ (fun mac => all_bind (all_ofExcept _) (fun msg => all_bind (all_make _ _ _ _) (fun r => ?_)))
    · refine all_bind (all_modify (.raw _ _)) (fun _ => all_bind all_pause (fun _ => all_state (fun g => all_ite
        (all_bind (all_make _ _ _ _) (fun r => ?_)) trivial)))
      split
      · exact all_ofExcept _
      · trivial
    · split <;> trivial
  · split
    · trivial
    · refine all_bind (all_modify (.proto _ _)) (fun _ => all_bind ?_ (fun _ => all_state (fun g => all_ite ?_ trivial)))
      · exact all_state (fun g => all_bind (chg_query E _ _ _ _ _) (fun _ => all_modify (.last _ _)))
      · refine all_bind (chg_poll E _ (fun c r => chg_query E _ _ _ _ _)) (fun _ => all_state (fun g => ?_))
        split
        · exact all_bind (chg_attach E _) (fun _ => trivial)
        · trivial

end

/-! ## Over a history -/

/-- The rest of a task makes only the changes `P`. -/
def Task.All (P : (Gw → Gw) → Prop) : Task → Prop
  | .request _ _ k => ∀ o, (k o).All P
  | .opening _ k => ∀ o, (k o).All P
  | .sleeping k => ∀ o, (k o).All P
  | .closing _ _ k => ∀ o, (k o).All P
  | .locked k => ∀ o, (k o).All P
  | .done _ => True

/-- A part of the state that is changed by no machine step and by no change in `P`. -/
structure Part.Kept {α : Type} (P : (Gw → Gw) → Prop) (F : Gw → α) : Prop where
  upd : ∀ f g, P f → F (g.apply f) = F g
  net : ∀ g c e, F (g.net c e) = F g
  note : ∀ g t a, F (g.note t a) = F g
  take : ∀ g t, F (g.take t) = F g
  waiters : ∀ g w, F (g.setWaiters w) = F g
  conn : ∀ g, F g.addConn = F g

theorem Part.Kept.ask {α : Type} {P : (Gw → Gw) → Prop} {F : Gw → α} (h : Part.Kept P F) (g : Gw) (t c : Nat) (code : Int) (data : Bytes) (r : Int) :
    F (g.ask t c code data r).2 = F g := by
  simp only [Gw.ask, h.note, h.net]

theorem Part.Kept.close {α : Type} {P : (Gw → Gw) → Prop} {F : Gw → α} (h : Part.Kept P F) (g : Gw) (t c : Nat) (force : Bool) :
    F (g.startClose t c force).2 = F g := by
  simp only [Gw.startClose, h.note, h.net]

theorem settle_all {α : Type} {P : (Gw → Gw) → Prop} {F : Gw → α} (h : Part.Kept P F) (t : Nat) :
    ∀ (co : Co Res) (g : Gw), co.All P → (settle t co g).1.All P ∧ F (settle t co g).2 = F g
  | .ret a, g, _ => ⟨trivial, rfl⟩
  | .throw e, g, _ => ⟨trivial, rfl⟩
  | .get k, g, ha => settle_all h t (k g) g (ha g)
  | .upd f k, g, ha => by
    have := settle_all h t k (g.apply f) ha.2.1
    exact ⟨this.1, this.2.trans (h.upd f g ha.1)⟩
  | .request c code data r k, g, ha => by
    simp only [settle]
    split
    · rename_i o _
      have := settle_all h t (k o) (((g.ask t c code data r).2).note t (.got o)) (ha o)
      exact ⟨this.1, this.2.trans ((h.note _ _ _).trans (h.ask _ _ _ _ _ _))⟩
    · exact ⟨ha, h.ask _ _ _ _ _ _⟩
  | .openConn r k, g, ha => ⟨ha, h.note _ _ _⟩
  | .sleep k, g, ha => ⟨ha, rfl⟩
  | .close c force k, g, ha => by
    simp only [settle]
    split
    · have := settle_all h t (k _) ((g.startClose t c force).2) (ha ((g.startClose t c force).2.closeResult c (g.startClose t c force).1))
      exact ⟨this.1, this.2.trans (h.close _ _ _ _)⟩
    · exact ⟨ha, h.close _ _ _ _⟩
  | .acquire k, g, ha => by
    simp only [settle]
    split
    · have := settle_all h t (k (.ok ())) (g.take t) (ha _)
      exact ⟨this.1, this.2.trans (h.take _ _)⟩
    · exact ⟨ha, h.waiters _ _⟩

/-- Every task makes only the changes `P`. -/
def Sys.All (P : (Gw → Gw) → Prop) (s : Sys) : Prop := ∀ x ∈ s.tasks, x.All P

/-- `async_connect` makes only changes of `Chg` after its first piece, and what its first piece does. -/
theorem settle_connect (E : Env) (t : Nat) (a : ConnectArgs) (g : Gw) :
    (g.isConnected = true ∧ settle t ((Call.connect a).co E) g = (.done (.ok (.bool true)), g)) ∨
    (g.isConnected = false ∧ (g.remember a).noIp = true ∧ settle t ((Call.connect a).co E) g = (.done (.error .slError), g.remember a)) ∨
    (g.isConnected = false ∧ (g.remember a).noIp = false ∧ ∃ k, ((∀ o, (k o).All (Chg E)) ∧ ∀ e, k (.error e) = .throw e) ∧
      settle t ((Call.connect a).co E) g = (.opening g.maxRetries k, (g.remember a).note t (.opn ((g.remember a).ip.getD "") (g.remember a).port))) := by
  cases hc : g.isConnected with
  | true =>
    refine .inl ⟨rfl, ?_⟩
    change settle t (Co.bindE (if g.isConnected then _ else _) _) g = _
    rw [if_pos hc]
    rfl
  | false =>
    right
    have hc' : ¬ g.isConnected = true := by simp [hc]
    cases hn : (g.remember a).noIp with
    | true =>
      refine .inl ⟨rfl, rfl, ?_⟩
      change settle t (Co.bindE (if g.isConnected then _ else _) _) g = _
      rw [if_neg hc']
      change settle t (Co.bindE (if (g.remember a).noIp then _ else _) _) (g.remember a) = _
      rw [if_pos hn]
      rfl
    | false =>
      have hn' : ¬ (g.remember a).noIp = true := by simp [hn]
      refine .inr ⟨rfl, rfl, (fun o => (Co.ofExcept o : Co Bool) >>= fun b => pure (Res.bool b)), ?_, ?_⟩
      · refine ⟨fun o => ?_, fun e => rfl⟩
        exact Co.all_bind (Co.all_ofExcept o) (fun _ => trivial)
      · change settle t (Co.bindE (if g.isConnected then _ else _) _) g = _
        rw [if_neg hc']
        change settle t (Co.bindE (if (g.remember a).noIp then _ else _) _) (g.remember a) = _
        rw [if_neg hn']
        rfl

/-- `async_subscribe` makes only changes of `Chg` once it has stored the listener, which it does at once if attached. -/
theorem settle_subscribe (E : Env) {α : Type} {F : Gw → α} (h : Part.Kept (Chg E) F) (t cb code : Nat) (g : Gw) :
    (settle t ((Call.subscribe cb code).co E) g).1.All (Chg E) ∧
    F (settle t ((Call.subscribe cb code).co E) g).2 = F (if g.attached then (g.addListener code cb).2 else g) := by
  have e : settle t ((Call.subscribe cb code).co E) g = settle t ((match g.attached, g.cmProto with
      | true, some c => do
        modify (fun g => (g.addListener code cb).2)
        modify (·.net c (.register code (commonHandler code)))
        let g' ← state
        whenCo g'.clientNeeded subscribeGateway
        return some ⟨code, (g.addListener code cb).1, cb⟩
      | _, _ => return none : Co (Option Sub)) >>= fun s => pure (Res.sub s)) g := rfl
  rw [e]
  by_cases ha : g.attached = true
  · cases hp : g.cmProto with
    | none => simp [Gw.attached, hp] at ha
    | some c =>
      rw [if_pos ha]
      simp only [ha]
      have hl : ((g.addListener code cb).2).log = g.log := by
        simp only [Gw.addListener]
        split <;> rfl
      have e2 : ∀ (k : Co Res), settle t (.upd (fun g => (g.addListener code cb).2) k) g = settle t k (g.addListener code cb).2 := by
        intro k
        simp only [settle, Gw.apply, ← hl]
      have key := settle_all h t ((do
        modify (·.net c (.register code (commonHandler code)))
        let g' ← state
        whenCo g'.clientNeeded subscribeGateway
        return some ⟨code, (g.addListener code cb).1, cb⟩ : Co (Option Sub)) >>= fun s => pure (Res.sub s)) (g.addListener code cb).2
        (Co.all_bind (Co.all_bind (Co.all_modify (.register _ _)) (fun _ => Co.all_state (fun g =>
          Co.all_bind (Co.all_when (chg_subscribeGateway E)) (fun _ => trivial)))) (fun _ => trivial))
      rw [← e2] at key
      exact key
  · have ha' : g.attached = false := by simpa using ha
    rw [if_neg ha]
    simp only [ha']
    exact ⟨trivial, rfl⟩

theorem Sys.All.put {P : (Gw → Gw) → Prop} {s : Sys} (h : s.All P) {t : Nat} {r : Task × Gw} (hr : r.1.All P) : (s.put t r).All P := by
  intro x hx
  rcases List.mem_or_eq_of_mem_set hx with hx | rfl
  · exact h x hx
  · exact hr

/-- A step other than a call of `async_connect`. -/
theorem Sys.All.step {E : Env} {α : Type} {F : Gw → α} (hF : Part.Kept (Chg E) F) {s : Sys} (h : s.All (Chg E)) (ev : Ev)
    (hev : ∀ a, ev ≠ .call (.connect a))
    (hlis : ∀ cb code, ev = .call (.subscribe cb code) → s.g.attached = true → F (s.g.addListener code cb).2 = F s.g) (hset : ∀ n, ev = .setMaxRetries n → F (s.g.setMaxRetries n).2 = F s.g)
    (hun : ∀ u, ev = .unsubscribe u → F (s.g.unsubscribe u) = F s.g) (hlost : ∀ c e, F (s.g.lostCallback c e) = F s.g)
    (hhan : ∀ c, ev = .handle c → F (s.g.runHandler E c) = F s.g) (htick : ∀ q, F (s.g.setNow q) = F s.g)
    (hping : ∀ c, F (s.g.countPing c) = F s.g) (hunsub : F s.g.takeUnsub = F s.g) :
    (s.step E ev).All (Chg E) ∧ F (s.step E ev).g = F s.g := by
  have mem : ∀ {t : Nat} {x : Task}, s.tasks[t]? = some x → x.All (Chg E) := fun hx => h _ (List.mem_of_getElem? hx)
  have spawn : ∀ (co : Co Res) (g0 : Gw), co.All (Chg E) → F g0 = F s.g →
      (Sys.spawn { s with g := g0 } co).All (Chg E) ∧ F (Sys.spawn { s with g := g0 } co).g = F s.g := by
    intro co g0 hco hg
    have := settle_all hF s.tasks.length co g0 hco
    refine ⟨?_, this.2.trans hg⟩
    intro x hx
    simp only [Sys.spawn] at hx
    rcases List.mem_append.1 hx with hx | hx
    · exact h x hx
    · simp only [List.mem_singleton] at hx
      subst hx
      exact this.1
  have own : ∀ (t : Nat) (co : Co Res) (g0 : Gw), co.All (Chg E) → F g0 = F s.g →
      (s.put t (settle t co g0)).All (Chg E) ∧ F (s.put t (settle t co g0)).g = F s.g := by
    intro t co g0 hco hg
    have := settle_all hF t co g0 hco
    exact ⟨h.put this.1, this.2.trans hg⟩
  cases ev with
  | call a =>
    by_cases hsub : ∃ cb code, a = .subscribe cb code
    · obtain ⟨cb, code, rfl⟩ := hsub
      have := settle_subscribe E hF s.tasks.length cb code s.g
      refine ⟨?_, this.2.trans ?_⟩
      · intro x hx
        simp only [Sys.step, Sys.spawn] at hx
        rcases List.mem_append.1 hx with hx | hx
        · exact h x hx
        · simp only [List.mem_singleton] at hx
          subst hx
          exact this.1
      · split
        · rename_i hat; exact hlis cb code rfl hat
        · rfl
    · exact spawn _ s.g (chg_call E a (fun x e => hev x (by rw [e])) (fun x y e => hsub ⟨x, y, e⟩)) rfl
  | setMaxRetries n => exact ⟨h, hset n rfl⟩
  | unsubscribe u => exact ⟨h, hun u rfl⟩
  | registerHandler code h' =>
    simp only [Sys.step]
    split
    · exact ⟨h, hF.net _ _ _⟩
    · exact ⟨h, rfl⟩
  | removeHandler code =>
    simp only [Sys.step]
    split
    · exact ⟨h, hF.net _ _ _⟩
    · exact ⟨h, rfl⟩
  | opened t ok =>
    simp only [Sys.step]
    split
    · rename_i r k hk
      have hk := mem hk
      split
      · exact own t _ _ (Co.all_bindE hk _ (chg_afterOpen E r _)) (hF.conn _)
      · exact own t _ _ (hk _) rfl
    · exact ⟨h, rfl⟩
  | resume t =>
    simp only [Sys.step]
    split
    · rename_i c r k hk
      have hk := mem hk
      split
      · exact own t _ _ (hk _) (hF.note _ _ _)
      · exact ⟨h, rfl⟩
    · rename_i k hk
      exact own t _ _ (mem hk _) rfl
    · rename_i c i k hk
      have hk := mem hk
      split
      · exact own t _ _ (hk _) rfl
      · exact ⟨h, rfl⟩
    · rename_i k hk
      have hk := mem hk
      split
      · exact own t _ _ (hk _) ((hF.take _ _).trans (hF.waiters _ _))
      · exact ⟨h, rfl⟩
    · exact ⟨h, rfl⟩
  | cancel t =>
    simp only [Sys.step]
    split
    · rename_i r k hk
      exact own t _ _ (mem hk _) rfl
    · rename_i k hk
      exact own t _ _ (mem hk _) rfl
    · rename_i k hk
      exact own t _ _ (mem hk _) (hF.waiters _ _)
    · exact ⟨h, rfl⟩
  | net c e =>
    simp only [Sys.step]
    split
    · rename_i he
      exact ⟨h, (hF.net _ _ _).trans (hlost c e)⟩
    · exact ⟨h, rfl⟩
  | handle c => exact ⟨h, hhan c rfl⟩
  | ping c =>
    simp only [Sys.step]
    split
    · split
      · exact spawn _ _ (chg_ping E) (hping c)
      · exact ⟨h, rfl⟩
    · exact ⟨h, rfl⟩
  | runUnsub =>
    simp only [Sys.step]
    split
    · exact spawn _ _ (chg_unsub E) hunsub
    · exact ⟨h, rfl⟩
  | tick now => exact ⟨h, htick now⟩

/-- In every reachable state all tasks make only the changes of `Chg`. -/
theorem reach_all (E : Env) (clientId maxRetries : Int) (es : List Ev) : (after E clientId maxRetries es).All (Chg E) := by
  have key : ∀ (es : List Ev) {s : Sys}, s.All (Chg E) → (s.run E es).All (Chg E) := by
    intro es
    induction es with
    | nil => intro s h; exact h
    | cons ev es ih =>
      intro s h
      refine ih ?_
      by_cases hc : ∃ a, ev = .call (.connect a)
      · obtain ⟨a, rfl⟩ := hc
        intro x hx
        simp only [Sys.step, Sys.spawn] at hx
        rcases List.mem_append.1 hx with hx | hx
        · exact h x hx
        · simp only [List.mem_singleton] at hx
          subst hx
          rcases settle_connect E s.tasks.length a s.g with ⟨_, e⟩ | ⟨_, _, e⟩ | ⟨_, _, k, ⟨hk, _⟩, e⟩
          · rw [e]; trivial
          · rw [e]; trivial
          · rw [e]; exact hk
      · exact (Sys.All.step (F := fun _ => ()) ⟨fun _ _ _ => rfl, fun _ _ _ => rfl, fun _ _ _ => rfl, fun _ _ => rfl, fun _ _ => rfl, fun _ => rfl⟩
          h ev (fun a e => hc ⟨a, e⟩) (fun _ _ _ _ => rfl) (fun _ _ => rfl) (fun _ _ => rfl) (fun _ _ => rfl) (fun _ _ => rfl) (fun _ => rfl) (fun _ => rfl) rfl).1
  exact key es (fun x hx => (by cases hx))

theorem after_snoc (E : Env) (clientId maxRetries : Int) (es : List Ev) (ev : Ev) :
    after E clientId maxRetries (es ++ [ev]) = (after E clientId maxRetries es).step E ev := by
  simp only [after, sys_run_append]
  rfl

end SL
