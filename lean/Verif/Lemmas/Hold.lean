import Verif.Lemmas.Shy
import Verif.Spec.Lock
/-!
# Who holds the subscription lock, and who waits for it

`Co.hold` : a coroutine that waits for the lock while it holds it has opened a TCP connection while holding it (`r`),
and it keeps its hands off the queue of the lock.
-/
set_option linter.unusedVariables false

namespace SL

open Co (state modify makeRequest pause closeConn withLock tryExcept ofExcept)

/-- How the lock changes while task `t` is suspended: not for `t`; and if `t` holds it, nobody else registers the client. -/
structure RelyH (t : Nat) (g g' : Gw) : Prop where
  mine : g'.lock = some t ↔ g.lock = some t
  icn : g.lock = some t → g.isClientNow = false → g'.isClientNow = false

theorem RelyH.refl (t : Nat) (g : Gw) : RelyH t g g := ⟨Iff.rfl, fun _ h => h⟩

theorem RelyH.trans {t : Nat} {a b c : Gw} (h : RelyH t a b) (h' : RelyH t b c) : RelyH t a c :=
  ⟨h'.mine.trans h.mine, fun l n => h'.icn (h.mine.2 l) (h.icn l n)⟩

theorem RelyH.quiet {t : Nat} {g g' : Gw} (q : Quiet g g') : RelyH t g g' := ⟨by rw [q.lock], fun _ h => quiet_icn q h⟩

/-- A change that leaves the queue alone and takes the lock for nobody. -/
def Off (g g' : Gw) : Prop := g'.waiters = g.waiters ∧ (g'.lock = g.lock ∨ g'.lock = none)

theorem Off.same {g g' : Gw} (h1 : g'.waiters = g.waiters) (h2 : g'.lock = g.lock) : Off g g' := ⟨h1, .inl h2⟩

/-- See the module comment; `r` can only become true. -/
def Co.hold {α : Type} (t : Nat) (Q : Prop → Except PyErr α → Gw → Prop) : Co α → Prop → Gw → Prop
  | .ret a, r, g => Q r (.ok a) g
  | .throw e, r, g => Q r (.error e) g
  | .get k, r, g => (k g).hold t Q r g
  | .upd f k, r, g => Off g (f g) ∧ k.hold t Q r (g.apply f)
  | .request _ _ _ _ k, r, g => ∀ (r' : Prop) g' o, (r → r') → RelyH t g g' → (k o).hold t Q r' g'
  | .openConn _ k, r, g => ∀ (r' : Prop) g' o, (r → r') → (g.lock = some t → r') → RelyH t g g' → (k o).hold t Q r' g'
  | .sleep k, r, g => ∀ (r' : Prop) g' o, (r → r') → RelyH t g g' → (k o).hold t Q r' g'
  | .close _ _ k, r, g => ∀ (r' : Prop) g' o, (r → r') → RelyH t g g' → (k o).hold t Q r' g'
  | .acquire k, r, g => (g.lock = some t → r) ∧
    (∀ (r' : Prop) g', (r → r') → g.lock ≠ some t → g'.lock = some t → (k (.ok ())).hold t Q r' g') ∧
    (∀ (r' : Prop) g', (r → r') → RelyH t g g' → (k (.error .cancelled)).hold t Q r' g')

section
variable {α β : Type} {t : Nat}

theorem Co.hold_mono {Q Q' : Prop → Except PyErr α → Gw → Prop} (hQ : ∀ r o g, Q r o g → Q' r o g) :
    ∀ (x : Co α) (r : Prop) (g : Gw), x.hold t Q r g → x.hold t Q' r g
  | .ret a, r, g, h => hQ _ _ _ h
  | .throw e, r, g, h => hQ _ _ _ h
  | .get k, r, g, h => hold_mono hQ (k g) r g h
  | .upd f k, r, g, h => ⟨h.1, hold_mono hQ k r _ h.2⟩
  | .request _ _ _ _ k, r, g, h => fun r' g' o h1 h2 => hold_mono hQ (k o) _ _ (h r' g' o h1 h2)
  | .openConn _ k, r, g, h => fun r' g' o h1 h2 h3 => hold_mono hQ (k o) _ _ (h r' g' o h1 h2 h3)
  | .sleep k, r, g, h => fun r' g' o h1 h2 => hold_mono hQ (k o) _ _ (h r' g' o h1 h2)
  | .close _ _ k, r, g, h => fun r' g' o h1 h2 => hold_mono hQ (k o) _ _ (h r' g' o h1 h2)
  | .acquire k, r, g, h => ⟨h.1, fun r' g' h1 h2 h3 => hold_mono hQ _ _ _ (h.2.1 r' g' h1 h2 h3),
      fun r' g' h1 h2 => hold_mono hQ _ _ _ (h.2.2 r' g' h1 h2)⟩

theorem Co.hold_bindE {Q : Prop → Except PyErr β → Gw → Prop} (f : Except PyErr α → Co β) :
    ∀ (x : Co α) (r : Prop) (g : Gw), x.hold t (fun r o g => (f o).hold t Q r g) r g → (x.bindE f).hold t Q r g
  | .ret a, r, g, h => h
  | .throw e, r, g, h => h
  | .get k, r, g, h => hold_bindE f (k g) r g h
  | .upd u k, r, g, h => ⟨h.1, hold_bindE f k r _ h.2⟩
  | .request _ _ _ _ k, r, g, h => fun r' g' o h1 h2 => hold_bindE f (k o) _ _ (h r' g' o h1 h2)
  | .openConn _ k, r, g, h => fun r' g' o h1 h2 h3 => hold_bindE f (k o) _ _ (h r' g' o h1 h2 h3)
  | .sleep k, r, g, h => fun r' g' o h1 h2 => hold_bindE f (k o) _ _ (h r' g' o h1 h2)
  | .close _ _ k, r, g, h => fun r' g' o h1 h2 => hold_bindE f (k o) _ _ (h r' g' o h1 h2)
  | .acquire k, r, g, h => ⟨h.1, fun r' g' h1 h2 h3 => hold_bindE f _ _ _ (h.2.1 r' g' h1 h2 h3),
      fun r' g' h1 h2 => hold_bindE f _ _ _ (h.2.2 r' g' h1 h2)⟩

/-- However it ends: the lock is held as before. -/
def holdEnd (t : Nat) (r : Prop) (g : Gw) (r' : Prop) (_ : Except PyErr α) (g' : Gw) : Prop := (r → r') ∧ RelyH t g g'

/-- If `t` holds the lock, then before the client is registered, or it has opened a connection meanwhile. -/
def Weak (t : Nat) (r : Prop) (g : Gw) : Prop := g.lock = some t → g.isClientNow = false ∨ r

theorem Weak.of {r : Prop} {g : Gw} (h : g.lock = some t → r) : Weak t r g := fun l => .inr (h l)

theorem Weak.rely {r r' : Prop} {g g' : Gw} (h : Weak t r g) (hr : r → r') (hg : RelyH t g g') : Weak t r' g' :=
  fun l => (h (hg.mine.1 l)).imp (hg.icn (hg.mine.1 l)) hr

/-- Fine from `g` on. -/
def Co.HoldAt (t : Nat) (x : Co α) (g : Gw) : Prop := ∀ r : Prop, Weak t r g → x.hold t (holdEnd t r g) r g
/-- Fine from everywhere on. -/
def Co.Hold (t : Nat) (x : Co α) : Prop := ∀ g, x.HoldAt t g
/-- Fine from `g` on, unless `t` holds the lock and has not opened a connection meanwhile. -/
def Co.HoldR (t : Nat) (x : Co α) : Prop := ∀ g (r : Prop), (g.lock = some t → r) → x.hold t (holdEnd t r g) r g

theorem Co.Hold.r {x : Co α} (h : x.Hold t) : x.HoldR t := fun g r hr => h g r (.of hr)

theorem holdEnd.trans {r r' r'' : Prop} {g g' g'' : Gw} {o : Except PyErr α} (hr : r → r') (hg : RelyH t g g')
    (h : holdEnd t r' g' r'' o g'') : holdEnd t r g r'' o g'' := ⟨fun x => h.1 (hr x), hg.trans h.2⟩

theorem Co.hold_seqE {x : Co α} {g : Gw} {f : Except PyErr α → Co β} (hx : x.HoldAt t g) (hf : ∀ o, (f o).Hold t) : (x.bindE f).HoldAt t g := by
  intro r h
  refine hold_bindE f x r g (hold_mono ?_ x r g (hx r h))
  intro r' o g' hq
  exact hold_mono (fun _ _ _ h' => h'.trans hq.1 hq.2) _ _ _ (hf o g' r' (h.rely hq.1 hq.2))

theorem Co.hold_bind {x : Co α} {g : Gw} {f : α → Co β} (hx : x.HoldAt t g) (hf : ∀ a, (f a).Hold t) : (x >>= f).HoldAt t g := by
  refine hold_seqE hx (fun o => ?_)
  cases o with
  | ok a => exact hf a
  | error e => exact fun g r _ => ⟨id, .refl t g⟩

theorem Co.holdR_bind {x : Co α} {f : α → Co β} (hx : x.HoldR t) (hf : ∀ a, (f a).HoldR t) : (x >>= f).HoldR t := by
  intro g r h
  refine hold_bindE _ x r g (hold_mono ?_ x r g (hx g r h))
  intro r' o g' hq
  cases o with
  | error e => exact hq
  | ok a => exact hold_mono (fun _ _ _ h' => h'.trans hq.1 hq.2) _ _ _ (hf a g' r' (fun l => hq.1 (h (hq.2.mine.1 l))))

theorem Co.hold_ret (a : α) (g : Gw) : (pure a : Co α).HoldAt t g := fun r _ => ⟨id, .refl t g⟩
theorem Co.hold_throw (e : PyErr) (g : Gw) : (Co.throw e : Co α).HoldAt t g := fun r _ => ⟨id, .refl t g⟩
theorem Co.holdR_ret (a : α) : (pure a : Co α).HoldR t := fun g r _ => ⟨id, .refl t g⟩
theorem Co.holdR_throw (e : PyErr) : (Co.throw e : Co α).HoldR t := fun g r _ => ⟨id, .refl t g⟩
theorem Co.hold_state {f : Gw → Co α} {g : Gw} (hf : (f g).HoldAt t g) : (state >>= f).HoldAt t g := hf
theorem Co.holdR_state {f : Gw → Co α} (hf : ∀ g0, (f g0).HoldR t) : (state >>= f).HoldR t := fun g r h => hf g g r h
theorem Co.hold_modify {f : Gw → Gw} {g : Gw} (hw : Off g (f g)) (hr : RelyH t g (g.apply f)) : (modify f).HoldAt t g :=
  fun r _ => ⟨hw, id, hr⟩
theorem Co.holdR_modify {f : Gw → Gw} (hw : ∀ g, Off g (f g)) (hr : ∀ g, RelyH t g (g.apply f)) : (modify f).HoldR t :=
  fun g r _ => ⟨hw g, id, hr g⟩
theorem Co.hold_ofExcept (x : Except PyErr α) (g : Gw) : (ofExcept x).HoldAt t g := by cases x <;> exact fun r _ => ⟨id, .refl t g⟩
theorem Co.holdR_ofExcept (x : Except PyErr α) : (ofExcept x).HoldR t := fun g r h => hold_ofExcept x g r (.of h)
theorem Co.hold_exit (x : Except PyErr α) {r r' : Prop} {g g' : Gw} (hr : r → r') (hg : RelyH t g g') :
    (ofExcept x).hold t (holdEnd t r g) r' g' := by cases x <;> exact ⟨hr, hg⟩
theorem Co.hold_make (c : Nat) (code : Int) (data : Bytes) (rr : Int) : (makeRequest c code data rr).Hold t :=
  fun g r h r' g' o hr hg => hold_exit o hr hg
theorem Co.hold_pause : pause.Hold t := fun g r h r' g' o hr hg => hold_exit o hr hg
theorem Co.hold_close (c : Nat) (force : Bool) : (closeConn c force).Hold t := fun g r h r' g' o hr hg => hold_exit o hr hg
theorem Co.hold_try {x : Co α} {g : Gw} {f : PyErr → Co α} (hx : x.HoldAt t g) (hf : ∀ e, (f e).Hold t) : (tryExcept x f).HoldAt t g := by
  refine hold_seqE hx (fun o => ?_)
  cases o with
  | ok a => exact fun g r _ => ⟨id, .refl t g⟩
  | error e => exact hf e
/-- Taking the lock, unless `t` holds it. -/
theorem Co.hold_lock {x : Co α} (hx : ∀ g (r : Prop), g.lock = some t → x.hold t (fun _ _ _ => True) r g) : (withLock x).HoldR t := by
  intro g r h
  refine ⟨h, fun r' g' hr hn hl => ?_, fun r' g' hr hg => ⟨hr, hg⟩⟩
  have := hx g' r' hl
  have key : ∀ (x : Co α) (r' : Prop) (g' : Gw), (r → r') → x.hold t (fun _ _ _ => True) r' g' →
      x.hold t (fun r'' _ _ => r → r'') r' g' := by
    intro x
    induction x with
    | ret a => exact fun r' g' hr _ => hr
    | throw e => exact fun r' g' hr _ => hr
    | get k ih => exact fun r' g' hr h => ih g' r' g' hr h
    | upd f k ih => exact fun r' g' hr h => ⟨h.1, ih r' _ hr h.2⟩
    | request c code data q k ih => exact fun r' g' hr h r'' g'' o h1 h2 => ih o r'' g'' (fun x => h1 (hr x)) (h r'' g'' o h1 h2)
    | openConn q k ih => exact fun r' g' hr h r'' g'' o h1 h2 h3 => ih o r'' g'' (fun x => h1 (hr x)) (h r'' g'' o h1 h2 h3)
    | sleep k ih => exact fun r' g' hr h r'' g'' o h1 h2 => ih o r'' g'' (fun x => h1 (hr x)) (h r'' g'' o h1 h2)
    | close c force k ih => exact fun r' g' hr h r'' g'' o h1 h2 => ih o r'' g'' (fun x => h1 (hr x)) (h r'' g'' o h1 h2)
    | acquire k ih =>
      exact fun r' g' hr h => ⟨h.1, fun r'' g'' h1 h2 h3 => ih _ r'' g'' (fun x => h1 (hr x)) (h.2.1 r'' g'' h1 h2 h3),
        fun r'' g'' h1 h2 => ih _ r'' g'' (fun x => h1 (hr x)) (h.2.2 r'' g'' h1 h2)⟩
  refine hold_bindE _ x r' g' (hold_mono ?_ x r' g' (key x r' g' hr this))
  intro r2 o g2 h2
  refine ⟨⟨rfl, .inr rfl⟩, ?_⟩
  refine hold_exit o h2 ⟨?_, fun l => absurd l hn⟩
  constructor
  · intro e; cases e
  · exact fun e => absurd e hn
theorem Co.hold_ite {c : Prop} [Decidable c] {x y : Co α} {g : Gw} (hx : x.HoldAt t g) (hy : y.HoldAt t g) : (if c then x else y).HoldAt t g := by
  split
  · exact hx
  · exact hy
theorem Co.holdR_ite {c : Prop} [Decidable c] {x y : Co α} (hx : x.HoldR t) (hy : y.HoldR t) : (if c then x else y).HoldR t := by
  split
  · exact hx
  · exact hy

end

section
variable (E : Env) (t : Nat)

open Co

theorem hold_connect (a : ConnectArgs) : (asyncConnect a).Hold t := by
  intro g r h
  change Co.hold t _ (if g.isConnected then _ else _) r g
  split
  · exact ⟨id, .refl t g⟩
  · refine ⟨.same rfl rfl, ?_⟩
    change Co.hold t _ (if (g.remember a).noIp then _ else _) r (g.remember a)
    have hq : RelyH t g (g.remember a) := .quiet (.same rfl rfl rfl rfl rfl)
    split
    · exact ⟨id, hq⟩
    · exact fun r' g' o hr hl hg => hold_exit o hr (hq.trans hg)

theorem hold_ack (code : Int) (payload : Except PyErr Bytes) (c : Nat) (rr : Int) : (ackRequest code payload c rr).Hold t :=
  fun g => hold_bind (hold_ofExcept _ g) (fun data g => hold_bind (hold_make _ _ _ _ g) (fun v g => hold_ite (hold_ret _ g) (hold_throw _ g)))

theorem hold_decode (D : Decoder) (b : Bytes) : (decodeCo E D b).Hold t :=
  fun g => hold_state (hold_bind (hold_modify (f := fun g' => g'.setData (decodeWith (D.prog E.pyFloat) b g.data).2) (.same rfl rfl)
    (.quiet (.same rfl rfl rfl rfl rfl))) (fun _ g => hold_ofExcept _ g))

theorem hold_query (D : Gw → Decoder) (code : Int) (payload : Except PyErr Bytes) (c : Nat) (rr : Int) :
    (queryRequest E D code payload c rr).Hold t := by
  refine fun g => hold_bind (hold_ofExcept _ g) (fun data g => hold_bind (hold_make _ _ _ _ g) (fun v g => ?_))
  split
  · exact hold_state (hold_bind (hold_decode E t _ _ g) (fun _ g => hold_ret _ g))
  · exact hold_ret _ g

/-- Under the lock only a request is made. -/
theorem holdR_unsubscribeGateway : unsubscribeGateway.HoldR t := by
  refine holdR_state (fun g0 => holdR_ite (hold_lock (fun g r hl => ?_)) (holdR_ret _))
  change Co.hold t _ (match g.isClient, g.cmProto with
      | true, some c => do
        modify (·.setClient false)
        modify (·.net c .disableKeepalive)
        modify (·.net c .unregisterAll)
        tryExcept (requestRemoveClient g.clientId c 0) (fun e => if e.isComm then return () else .throw e)
      | _, _ => return () : Co Unit) r g
  split
  · rename_i c hcl hcm
    refine ⟨.same rfl rfl, .same rfl rfl, .same rfl rfl, ?_⟩
    have hr : ∀ g', Co.HoldAt t (tryExcept (requestRemoveClient g.clientId c 0) (fun e => if e.isComm then pure () else .throw e)) g' :=
      fun g' => hold_try (hold_ack t _ _ _ _ g') (fun e g => hold_ite (hold_ret _ g) (hold_throw _ g))
    have hw : Weak t r ((g.apply (·.setClient false))) := by
      intro _
      left
      simp [Gw.apply, Gw.setClient, Gw.isClientNow]
    have hw1 : Weak t r ((g.apply (·.setClient false)).apply (·.net c .disableKeepalive)) := hw.rely id (.quiet (quiet_net _ c .disableKeepalive))
    have hw2 : Weak t r (((g.apply (·.setClient false)).apply (·.net c .disableKeepalive)).apply (·.net c .unregisterAll)) :=
      hw1.rely id (.quiet (quiet_net _ c .unregisterAll))
    exact hold_mono (fun _ _ _ _ => trivial) _ _ _ (hr _ r hw2)
  · trivial

theorem hold_disconnect (force : Bool) : (asyncDisconnect force).Hold t := by
  have h2 : Co.Hold t (state >>= fun g => match g.protocol with
    | some c => closeConn c force
    | none => .throw .attributeError) := by
    intro g
    refine hold_state ?_
    split
    · exact hold_close _ _ g
    · exact hold_throw _ g
  intro g r h
  change Co.hold t _ (whenCo g.isClientNow unsubscribeGateway >>= fun _ => state >>= fun g => match g.protocol with
    | some c => closeConn c force
    | none => .throw .attributeError) r g
  refine hold_bindE _ _ _ _ (hold_mono ?_ _ _ _ (?_ : Co.hold t (holdEnd t r g) (whenCo g.isClientNow unsubscribeGateway) r g))
  · intro r' o g' hq
    cases o with
    | error e => exact hq
    | ok a => exact hold_mono (fun _ _ _ h' => h'.trans hq.1 hq.2) _ _ _ (h2 g' r' (h.rely hq.1 hq.2))
  · rw [whenCo]
    split
    · rename_i hc
      exact holdR_unsubscribeGateway t g r (fun l => (h l).resolve_left (by simp [hc]))
    · exact ⟨id, .refl t g⟩

theorem hold_attempt {α : Type} (rr : Int) {method : Nat → Int → Co α} (hm : ∀ c r, (method c r).Hold t) : (attemptRequest rr method).Hold t := by
  refine fun g => hold_bind (hold_connect t {} g) (fun ok g => hold_ite (hold_state ?_) (hold_throw _ g))
  split
  · exact hm _ _ _
  · exact hold_throw _ g

theorem hold_connected {α : Type} {method : Nat → Int → Co α} (hm : ∀ c r, (method c r).Hold t) : (connectedRequest method).Hold t :=
  fun g => hold_state (hold_try (hold_attempt t _ hm g) (fun e g => hold_ite
    (hold_bind (hold_disconnect t _ g) (fun _ g => hold_bind (hold_pause g) (fun _ g => hold_attempt t _ hm g))) (hold_throw _ g)))

theorem holdR_subscribeGateway : subscribeGateway.HoldR t := by
  refine holdR_state (fun g0 => holdR_ite (hold_lock (fun g r hl => ?_)) (holdR_ret _))
  change Co.hold t _ (if g.isClientNow then _ else _) r g
  split
  · trivial
  · rename_i hn
    have hw : Weak t r g := fun _ => .inl (by simpa using hn)
    refine hold_bindE _ _ _ _ (hold_mono ?_ _ _ _ (hold_connected t (fun c r => hold_ack t 12522 (packObjs [.int 0, .int g.clientId]) c r) g r hw))
    intro r' o g' hq
    cases o with
    | error e => trivial
    | ok a =>
      refine ⟨.same rfl rfl, ?_⟩
      generalize g'.apply (fun g => g.setClient true) = g2
      change Co.hold t _ (match g2.cmProto with
        | some c => modify (·.net c (.enableKeepalive 0))
        | none => .throw .attributeError) r' g2
      split
      · exact ⟨.same rfl rfl, trivial⟩
      · trivial

theorem holdR_registerAll (c : Nat) : ∀ l, (registerAll c l).HoldR t
  | [] => holdR_ret _
  | (code, _) :: rest => holdR_bind (holdR_modify (f := fun g => g.net c (.register code (commonHandler code))) (fun _ => .same rfl rfl)
      (fun g => .quiet (quiet_net _ _ _))) (fun _ => holdR_registerAll c rest)

theorem holdR_attach (c : Nat) : (attach c).HoldR t := by
  refine holdR_bind (holdR_modify (f := fun g => g.attachTo c) (fun _ => .same rfl rfl) (fun g => ⟨Iff.rfl, fun _ _ => rfl⟩)) (fun _ => holdR_state (fun g0 =>
    holdR_ite ?_ (holdR_ret _)))
  exact holdR_bind (holdR_modify (f := fun g => g.net c .unregisterAll) (fun _ => .same rfl rfl) (fun g => .quiet (quiet_net _ _ _)))
    (fun _ => holdR_bind (holdR_registerAll t c _) (fun _ => holdR_subscribeGateway t))

theorem hold_poll {method : Nat → Int → Co (Option Bytes)} (key : Path) (hm : ∀ c r, (method c r).Hold t) : (poll key method).Hold t := by
  refine fun g => hold_bind (hold_connected t hm g) (fun raw g => ?_)
  split
  · exact hold_modify (f := fun g => g.putLast _ _) (.same rfl rfl) (.quiet (.same rfl rfl rfl rfl rfl))
  · exact hold_ret _ g

theorem hold_requestPump (j : Int) (c : Nat) (r : Int) : (requestPump E j c r).Hold t :=
  hold_query E t (fun _ => .pump j) 12584 (packObjs [.int 0, .int j]) c r

theorem hold_getPump (i : Nat) : (getPump E i).Hold t := by
  have q : ∀ c r, (requestPump E i c r).Hold t := by
    generalize (i : Int) = j
    exact hold_requestPump E t j
  simp only [getPump]
  generalize requestPump E i = m at q
  refine fun g => hold_state (hold_bind (hold_ofExcept _ g) (fun f g => ?_))
  split
  · exact hold_bind (hold_modify (f := fun g => g.putLastNew [.s "pumps"] (.dict [])) (.same rfl rfl) (.quiet (.same rfl rfl rfl rfl rfl))) (fun _ => hold_poll t _ q)
  · exact hold_ret _ g

theorem hold_getPumpsFrom : ∀ n i, (getPumpsFrom E n i).Hold t
  | 0, _, g => hold_ret _ g
  | n + 1, i, g => hold_bind (hold_getPump E t i g) (fun _ => hold_getPumpsFrom n (i + 1))

theorem hold_update : (asyncUpdate E).Hold t := by
  have q : ∀ (D : Gw → Decoder) code payload, ∀ c r, (queryRequest E D code payload c r).Hold t :=
    fun D code payload c r => hold_query E t D _ _ _ _
  exact fun g => hold_state (hold_ite (hold_bind (hold_poll t _ (q _ _ _) g) (fun _ g => hold_bind (hold_getPumpsFrom E t 8 0 g) (fun _ g =>
    hold_bind (hold_poll t _ (q _ _ _) g) (fun _ g => hold_bind (hold_poll t _ (q _ _ _) g) (fun _ => hold_poll t _ (q _ _ _)))))) (hold_throw _ g))

theorem hold_require (b : Except PyErr Bool) : (require b).Hold t := by
  intro g
  cases b with
  | error e => exact hold_throw _ g
  | ok b =>
    cases b
    · exact hold_throw _ g
    · exact hold_ret _ g

theorem holdR_call (a : Call) : (a.co E).HoldR t := by
  have q : ∀ (D : Gw → Decoder) code payload, ∀ c r, (queryRequest E D code payload c r).Hold t :=
    fun D code payload c r => hold_query E t D _ _ _ _
  have k : ∀ code payload, ∀ c r, (ackRequest code payload c r).Hold t := fun code payload c r => hold_ack t _ _ _ _
  have rq := hold_require t
  cases a with
  | subscribe cb code =>
    refine holdR_bind (holdR_state (fun g0 => ?_)) (fun _ => holdR_ret _)
    split
    · refine holdR_bind (holdR_modify (f := fun g => (g.addListener code cb).2) ?_ ?_) (fun _ => ?_)
      · intro g
        simp only [Gw.addListener]
        split <;> exact .same rfl rfl
      · intro g
        refine .quiet ?_
        simp only [Gw.addListener, Gw.apply]
        split <;> exact .same rfl rfl rfl rfl rfl
      · refine holdR_bind (holdR_modify (f := fun g => g.net _ (.register code (commonHandler code))) (fun _ => .same rfl rfl) (fun g => .quiet (quiet_net _ _ _)))
          (fun _ => holdR_state (fun g1 => holdR_bind ?_ (fun _ => holdR_ret _)))
        exact holdR_ite (holdR_subscribeGateway t) (holdR_ret _)
    · exact holdR_ret _
  | connect x => exact Hold.r (fun g => hold_bind (hold_connect t x g) (fun _ g => hold_ret _ g))
  | disconnect force => exact Hold.r (fun g => hold_bind (hold_disconnect t force g) (fun _ g => hold_ret _ g))
  | update => exact Hold.r (fun g => hold_bind (hold_update E t g) (fun _ g => hold_ret _ g))
  | getConfig => exact Hold.r (fun g => hold_bind (hold_poll t _ (q _ _ _) g) (fun _ g => hold_ret _ g))
  | getStatus => exact Hold.r (fun g => hold_bind (hold_poll t _ (q _ _ _) g) (fun _ g => hold_ret _ g))
  | getPumps => exact Hold.r (fun g => hold_bind (hold_getPumpsFrom E t 8 0 g) (fun _ g => hold_ret _ g))
  | getChemistry => exact Hold.r (fun g => hold_bind (hold_poll t _ (q _ _ _) g) (fun _ g => hold_ret _ g))
  | getScg => exact Hold.r (fun g => hold_bind (hold_poll t _ (q _ _ _) g) (fun _ g => hold_ret _ g))
  | getDatetime => exact Hold.r (fun g => hold_bind (hold_poll t _ (q _ _ _) g) (fun _ g => hold_ret _ g))
  | setCircuit x y =>
    exact Hold.r (fun g => hold_bind (hold_state (hold_bind (rq _ g) (fun _ g => hold_bind (rq _ g) (fun _ => hold_connected t (k _ _))))) (fun _ g => hold_ret _ g))
  | setHeatTemp x y =>
    exact Hold.r (fun g => hold_bind (hold_state (hold_bind (rq _ g) (fun _ g => hold_bind (rq _ g) (fun _ => hold_connected t (k _ _))))) (fun _ g => hold_ret _ g))
  | setHeatMode x y =>
    exact Hold.r (fun g => hold_bind (hold_state (hold_bind (rq _ g) (fun _ g => hold_bind (rq _ g) (fun _ => hold_connected t (k _ _))))) (fun _ g => hold_ret _ g))
  | setColorLights x => exact Hold.r (fun g => hold_bind (hold_bind (rq _ g) (fun _ => hold_connected t (k _ _))) (fun _ g => hold_ret _ g))
  | setScg x y z w =>
    exact Hold.r (fun g => hold_bind (hold_state (hold_bind (hold_ofExcept _ g) (fun _ => hold_connected t (k _ _)))) (fun _ g => hold_ret _ g))
  | setChem x y z w u v =>
    exact Hold.r (fun g => hold_bind (hold_state (hold_bind (hold_ofExcept _ g) (fun _ g => hold_bind (hold_ofExcept _ g) (fun _ => hold_connected t (k _ _))))) (fun _ g => hold_ret _ g))
  | setDateTime x y =>
    exact Hold.r (fun g => hold_bind (hold_ite (hold_throw _ g) (hold_state (hold_bind (hold_ofExcept _ g) (fun _ g => hold_bind (hold_ofExcept _ g) (fun _ => hold_connected t (k _ _)))))) (fun _ g => hold_ret _ g))
  | send code data => exact Hold.r (fun g => hold_bind (hold_connected t (fun c r => hold_make _ _ _ _) g) (fun _ g => hold_ret _ g))

theorem holdR_ping : pingCo.HoldR t := by
  refine Hold.r (fun g => hold_bind (hold_state ?_) (fun _ g => hold_ret _ g))
  split
  · exact hold_try (hold_ack t _ _ _ _ g) (fun e g => hold_ite (hold_ret _ g) (hold_throw _ g))
  · exact hold_throw _ g

theorem holdR_unsub : unsubCo.HoldR t := holdR_bind (holdR_unsubscribeGateway t) (fun _ => holdR_ret _)

theorem holdR_afterOpen (rr : Int) (c : Nat) : (afterOpen E rr c).HoldR t := by
  refine holdR_bind ?_ (fun mac => ?_)
  · refine Hold.r (fun g => hold_bind ?_ (fun mac g => hold_bind (hold_ofExcept _ g) (fun msg g => hold_bind (hold_make _ _ _ _ g) (fun r g => ?_))))
    · refine hold_bind (hold_modify (f := fun g => g.writeRaw _ _) (.same rfl rfl) (.quiet (quiet_modify _ _ _ (fun x hx => hx)))) (fun _ g =>
        hold_bind (hold_pause g) (fun _ g => hold_state (hold_ite (hold_bind (hold_make _ _ _ _ g) (fun r g => ?_)) (hold_throw _ g))))
      split
      · exact hold_ofExcept _ g
      · exact hold_throw _ g
    · split <;> exact hold_ret _ g
  · split
    · exact holdR_ret _
    · refine holdR_bind (holdR_modify (f := fun g => g.setProto _ _) (fun _ => .same rfl rfl) (fun g => ⟨Iff.rfl, fun _ h => h⟩)) (fun _ => holdR_bind ?_ (fun _ =>
        holdR_state (fun g => holdR_ite ?_ (holdR_ret _))))
      · exact Hold.r (fun g => hold_state (hold_bind (hold_query E t _ _ _ _ _ g) (fun _ g => hold_modify (f := fun g => g.putLast _ _) (.same rfl rfl)
          (.quiet (.same rfl rfl rfl rfl rfl)))))
      · refine holdR_bind (Hold.r (hold_poll t _ (fun c r => hold_query E t _ _ _ _ _))) (fun _ => holdR_state (fun g => ?_))
        split
        · exact holdR_bind (holdR_attach t _) (fun _ => holdR_ret _)
        · exact holdR_throw _

end

/-! ## Over a history -/

/-- What a suspended task satisfies. -/
def Task.Hold (t : Nat) (r : Prop) (g : Gw) : Task → Prop
  | .request _ _ k => ∀ (r' : Prop) g' o, (r → r') → RelyH t g g' → (k o).hold t (fun _ _ g => g.lock ≠ some t) r' g'
  | .opening _ k => ∀ (r' : Prop) g' o, (r → r') → (g.lock = some t → r') → RelyH t g g' → (k o).hold t (fun _ _ g => g.lock ≠ some t) r' g'
  | .sleeping k => ∀ (r' : Prop) g' o, (r → r') → RelyH t g g' → (k o).hold t (fun _ _ g => g.lock ≠ some t) r' g'
  | .closing _ _ k => ∀ (r' : Prop) g' o, (r → r') → RelyH t g g' → (k o).hold t (fun _ _ g => g.lock ≠ some t) r' g'
  | .locked k => (g.lock = some t → r) ∧
    (∀ (r' : Prop) g', (r → r') → g.lock ≠ some t → g'.lock = some t → (k (.ok ())).hold t (fun _ _ g => g.lock ≠ some t) r' g') ∧
    (∀ (r' : Prop) g', (r → r') → RelyH t g g' → (k (.error .cancelled)).hold t (fun _ _ g => g.lock ≠ some t) r' g')
  | .done _ => g.lock ≠ some t

/-- The task waits for the lock. -/
def Task.waits : Task → Bool
  | .locked _ => true
  | _ => false

theorem Task.Hold.rely {t : Nat} {r r' : Prop} {g g' : Gw} {x : Task} (h : x.Hold t r g) (hr : r → r') (hg : RelyH t g g') : x.Hold t r' g' := by
  cases x with
  | request c i k => exact fun r2 g2 o h1 h2 => h r2 g2 o (fun x => h1 (hr x)) (hg.trans h2)
  | opening q k => exact fun r2 g2 o h1 h2 h3 => h r2 g2 o (fun x => h1 (hr x)) (fun l => h2 (hg.mine.2 l)) (hg.trans h3)
  | sleeping k => exact fun r2 g2 o h1 h2 => h r2 g2 o (fun x => h1 (hr x)) (hg.trans h2)
  | closing c i k => exact fun r2 g2 o h1 h2 => h r2 g2 o (fun x => h1 (hr x)) (hg.trans h2)
  | locked k =>
    exact ⟨fun l => hr (h.1 (hg.mine.1 l)), fun r2 g2 h1 h2 h3 => h.2.1 r2 g2 (fun x => h1 (hr x)) (fun l => h2 (hg.mine.2 l)) h3,
      fun r2 g2 h1 h2 => h.2.2 r2 g2 (fun x => h1 (hr x)) (hg.trans h2)⟩
  | done o => exact fun l => h (hg.mine.1 l)

/-- The queue of the lock after a piece of execution of task `t`. -/
def queued (t : Nat) (x : Task) (w : List Nat) : List Nat := if x.waits then w ++ [t] else w

theorem settle_hold (t : Nat) : ∀ (co : Co Res) (r : Prop) (g : Gw), co.hold t (fun _ _ g => g.lock ≠ some t) r g →
    (settle t co g).1.Hold t r (settle t co g).2 ∧ (settle t co g).2.waiters = queued t (settle t co g).1 g.waiters ∧
    ((settle t co g).2.lock = g.lock ∨ (settle t co g).2.lock = none ∨ (settle t co g).2.lock = some t)
  | .ret a, r, g, h => ⟨h, rfl, .inl rfl⟩
  | .throw e, r, g, h => ⟨h, rfl, .inl rfl⟩
  | .get k, r, g, h => settle_hold t (k g) r g h
  | .upd f k, r, g, h => by
    have := settle_hold t k r (g.apply f) h.2
    refine ⟨this.1, this.2.1.trans ?_, ?_⟩
    · change queued t _ (f g).waiters = _
      rw [h.1.1]
      rfl
    · have e : (g.apply f).lock = (f g).lock := rfl
      rw [e] at this
      change (settle t k (g.apply f)).2.lock = g.lock ∨ (settle t k (g.apply f)).2.lock = none ∨ (settle t k (g.apply f)).2.lock = some t
      rcases this.2.2 with h1 | h1 | h1
      · rcases h.1.2 with h2 | h2
        · exact .inl (h1.trans h2)
        · exact .inr (.inl (h1.trans h2))
      · exact .inr (.inl h1)
      · exact .inr (.inr h1)
  | .request c code data q k, r, g, h => by
    have hq : RelyH t g (g.ask t c code data q).2 := .quiet (quiet_ask _ _ _ _ _ _)
    simp only [settle]
    split
    · rename_i o _
      have := settle_hold t (k o) r ((g.ask t c code data q).2.note t (.got o)) (h r _ o id (hq.trans (.quiet (quiet_note _ _ _))))
      exact ⟨this.1, this.2⟩
    · exact ⟨fun r2 g2 o h1 h2 => h r2 g2 o h1 (hq.trans h2), rfl, .inl rfl⟩
  | .openConn q k, r, g, h =>
    ⟨fun r2 g2 o h1 h2 h3 => h r2 g2 o h1 h2 (RelyH.trans (.quiet (quiet_note _ _ _)) h3), rfl, .inl rfl⟩
  | .sleep k, r, g, h => ⟨fun r2 g2 o h1 h2 => h r2 g2 o h1 h2, rfl, .inl rfl⟩
  | .close c force k, r, g, h => by
    have hq : RelyH t g (g.startClose t c force).2 := .quiet (quiet_close _ _ _ _)
    simp only [settle]
    split
    · have := settle_hold t (k ((g.startClose t c force).2.closeResult c (g.startClose t c force).1)) r (g.startClose t c force).2 (h r _ _ id hq)
      exact ⟨this.1, this.2⟩
    · exact ⟨fun r2 g2 o h1 h2 => h r2 g2 o h1 (hq.trans h2), rfl, .inl rfl⟩
  | .acquire k, r, g, h => by
    simp only [settle]
    split
    · rename_i hc
      have := settle_hold t (k (.ok ())) r (g.take t) (h.2.1 r _ id (by rw [hc.1]; simp) rfl)
      refine ⟨this.1, this.2.1, ?_⟩
      rcases this.2.2 with h1 | h1 | h1
      · exact .inr (.inr h1)
      · exact .inr (.inl h1)
      · exact .inr (.inr h1)
    · refine ⟨⟨h.1, h.2.1, fun r2 g2 h1 h2 => h.2.2 r2 g2 h1 (RelyH.trans (b := g.setWaiters (g.waiters ++ [t])) (.quiet (.same rfl rfl rfl rfl rfl)) h2)⟩, rfl, .inl rfl⟩

theorem waits_iff {x : Task} : x.waits = true ↔ ∃ k, x = .locked k := by
  cases x <;> simp [Task.waits]

theorem RelyH.star {E : Env} {U : Prop} {t : Nat} {g g' : Gw} (hg : GInv U g) (h : Star (MicroBut E U t) g g') : RelyH t g g' := by
  have hr := (star_rely h).1
  refine ⟨⟨fun l => ?_, hr.lock⟩, fun l n => hr.icn hg l n⟩
  by_cases hl : g.lock = some t
  · exact hl
  · exfalso
    have key : g'.lock ≠ some t := by
      clear l
      induction h with
      | refl => exact hl
      | tail h1 m ih =>
        have ih := ih (star_rely h1).1
        intro l
        exact ih (microBut_not m l)
    exact key l
where
  microBut_not {g g' : Gw} (m : MicroBut E U t g g') (l : g'.lock = some t) : g.lock = some t := by
    have q : ∀ {g' : Gw}, Quiet g g' → g'.lock = some t → g.lock = some t := fun q l => q.lock.symm.trans l
    cases m with
    | upd t' hne _ _ hu =>
      cases hu with
      | data => exact l
      | last => exact l
      | noVersion => exact l
      | pumps => exact l
      | unclient hl' => exact l
      | client hl' => exact l
      | disableKeepalive c => exact l
      | unregisterAll c => exact l
      | enableKeepalive c => exact l
      | register c code => exact l
      | release hl' => cases l
      | attach c => exact l
      | remember a => exact l
      | raw c b => exact l
      | proto c m => exact l
      | listen cb code =>
        simp only [Gw.addListener] at l
        split at l <;> exact l
    | ask t' c hne code data r => exact q (quiet_ask _ _ _ _ _ _) l
    | got t' hne o => exact q (quiet_note _ _ _) l
    | opn t' hne => exact q (quiet_note _ _ _) l
    | cls t' c hne force => exact q (quiet_close _ _ _ _) l
    | take t' hne _ hl' =>
      cases l
      exact absurd rfl hne
    | waiters w => exact l
    | conn => exact l
    | ping c => exact l
    | unsub => exact l
    | env _ _ he => exact q (quiet_env he) l

/-- What holds of the lock at any time; `R t`: task `t` has opened a TCP connection while it held the lock. -/
structure Sys.Hold (s : Sys) (R : Nat → Prop) : Prop where
  task : ∀ (t : Nat) (x : Task), s.tasks[t]? = some x → x.Hold t (R t) s.g
  lt : ∀ t, s.g.lock = some t → t < s.tasks.length
  nodup : s.g.waiters.Nodup
  iff : ∀ t, t ∈ s.g.waiters ↔ ∃ k, s.tasks[t]? = some (.locked k)

theorem env_waiters {E : Env} {g g' : Gw} (h : EnvStep E g g') : g'.waiters = g.waiters := by
  cases h with
  | nothing => rfl
  | setMaxRetries n =>
    simp only [Gw.setMaxRetries]
    split <;> rfl
  | unsubscribe u =>
    simp only [Gw.unsubscribe, Gw.dropCode]
    repeat' split
    all_goals rfl
  | register => rfl
  | unregister => rfl
  | net c e =>
    simp only [Gw.net, Gw.lostCallback]
    split
    · split <;> rfl
    · rfl
  | handle c =>
    simp only [Gw.runHandler]
    split
    · split
      · split
        · simp only [Gw.commonCallback]
          split
          · split
            · simp only [Gw.commonCallback.notify]; split <;> rfl
            · rfl
          · simp only [Gw.commonCallback.notify]; split <;> rfl
        · rfl
      · rfl
    · rfl
  | tick => rfl

section
variable {s : Sys} {R R' : Nat → Prop}

/-- A step of task `t`: the others' view is as the rely says. -/
theorem Sys.Hold.settled (h : s.Hold R) (hR : ∀ t, R t → R' t) {s' : Sys} {t : Nat} {co : Co Res} {g0 : Gw}
    (hs : s'.g = (settle t co g0).2) (hle : s.tasks.length ≤ s'.tasks.length) (hlt : t < s'.tasks.length) (ht : s'.tasks[t]? = some (settle t co g0).1)
    (ho : ∀ t', t' ≠ t → s'.tasks[t']? = s.tasks[t']?)
    (hrely : ∀ t', t' ≠ t → t' < s.tasks.length → RelyH t' s.g s'.g)
    (hl : g0.lock = s.g.lock ∨ g0.lock = some t)
    (hn : g0.waiters.Nodup) (hin : t ∉ g0.waiters) (hw : ∀ t', t' ≠ t → (t' ∈ g0.waiters ↔ t' ∈ s.g.waiters))
    (hco : co.hold t (fun _ _ g => g.lock ≠ some t) (R' t) g0) : s'.Hold R' := by
  obtain ⟨k1, k2, k3⟩ := settle_hold t co (R' t) g0 hco
  refine ⟨?_, ?_, ?_, ?_⟩
  · intro t' x hx
    by_cases e : t' = t
    · subst e
      rw [ht] at hx
      cases hx
      rw [hs]
      exact k1
    · rw [ho t' e] at hx
      exact (h.task t' x hx).rely (hR t') (hrely t' e (List.getElem?_eq_some_iff.1 hx).1)
  · intro t' hl'
    by_cases e : t' = t
    · rw [e]; exact hlt
    · refine Nat.lt_of_lt_of_le (h.lt t' ?_) hle
      rw [hs] at hl'
      rcases k3 with k | k | k
      · rw [hl'] at k
        rcases hl with hl | hl
        · rw [← hl]; exact k.symm
        · rw [← k] at hl
          cases hl
          exact absurd rfl e
      · rw [hl'] at k; cases k
      · rw [hl'] at k; cases k; exact absurd rfl e
  · rw [hs, k2, queued]
    split
    · rw [List.nodup_append]
      refine ⟨hn, by simp, ?_⟩
      intro a ha b hb
      simp only [List.mem_singleton] at hb
      subst hb
      rintro rfl
      exact hin ha
    · exact hn
  · intro t'
    rw [hs, k2, queued]
    by_cases e : t' = t
    · subst e
      rw [ht]
      constructor
      · intro hm
        split at hm
        · rename_i hwt
          obtain ⟨k, hk⟩ := waits_iff.1 hwt
          exact ⟨k, by rw [hk]⟩
        · exact absurd hm hin
      · rintro ⟨k, hk⟩
        cases hk' : (settle t' co g0).1 with
        | locked k => simp [Task.waits]
        | _ => rw [hk'] at hk; cases hk
    · rw [ho t' e, ← h.iff t', ← hw t' e]
      split
      · simp [e]
      · exact Iff.rfl

theorem Sys.Hold.env {E : Env} (h : s.Hold R) (hR : ∀ t, R t → R' t) {g' : Gw} (he : EnvStep E s.g g') : ({ s with g := g' } : Sys).Hold R' := by
  refine ⟨fun t x hx => (h.task t x hx).rely (hR t) (.quiet (quiet_env he)), ?_, ?_, ?_⟩
  · intro t hl
    exact h.lt t ((quiet_env he).lock.symm.trans hl)
  · rw [env_waiters he]; exact h.nodup
  · intro t
    rw [env_waiters he]; exact h.iff t

end

theorem step_hold {E : Env} {s : Sys} (hs : SysOk E False s) {R R' : Nat → Prop} (h : s.Hold R) (ev : Ev) (hR : ∀ t, R t → R' t)
    (ho : ∀ t, s.opening t → s.g.lock = some t → R' t) : (s.step E ev).Hold R' := by
  have hU : False → ∀ code data, ev = .call (.send code data) → code ≠ 12522 ∧ code ≠ 12524 := fun u => u.elim
  have lt : ∀ {t : Nat} {x : Task}, s.tasks[t]? = some x → t < s.tasks.length := by
    intro t x h
    exact (List.getElem?_eq_some_iff.1 h).1
  have env : ∀ g', EnvStep E s.g g' → ({ s with g := g' } : Sys).Hold R' := fun g' he => h.env hR he
  have no : s.Hold R' := env s.g .nothing
  have rl : ∀ t', t' < s.tasks.length → ev.own t' = false → RelyH t' s.g (s.step E ev).g :=
    fun t' ht' hn => .star hs.inv (step_but hs ev hU ht' hn)
  have put : ∀ {t : Nat} {co : Co Res} {g0 : Gw} {x : Task}, s.tasks[t]? = some x → (∀ k, x ≠ .locked k) → s.step E ev = s.put t (settle t co g0) →
      (∀ t', t' ≠ t → ev.own t' = false) → g0.lock = s.g.lock → g0.waiters = s.g.waiters →
      co.hold t (fun _ _ g => g.lock ≠ some t) (R' t) g0 → (s.step E ev).Hold R' := by
    intro t co g0 x hx hnl e hown h1 h2 hco
    refine h.settled hR (t := t) (co := co) (g0 := g0) (by rw [e]; rfl) (by rw [e]; simp [Sys.put]) (by rw [e]; simp [Sys.put, lt hx])
      (by rw [e]; simp [Sys.put, lt hx]) ?_ (fun t' hne ht' => rl t' ht' (hown t' hne)) (.inl h1) (h2 ▸ h.nodup) ?_ (fun t' _ => by rw [h2]) hco
    · intro t' hne
      rw [e]
      simp only [Sys.put]
      rw [List.getElem?_set_ne (Ne.symm hne)]
    · rw [h2]
      intro hm
      obtain ⟨k, hk⟩ := (h.iff t).1 hm
      rw [hx] at hk
      cases hk
      exact hnl k rfl
  have putL : ∀ {t : Nat} {co : Co Res} {g0 : Gw} {k : Except PyErr Unit → Co Res}, s.tasks[t]? = some (.locked k) → s.step E ev = s.put t (settle t co g0) →
      (∀ t', t' ≠ t → ev.own t' = false) → (g0.lock = s.g.lock ∨ g0.lock = some t) → g0.waiters.Nodup → t ∉ g0.waiters →
      (∀ t', t' ≠ t → (t' ∈ g0.waiters ↔ t' ∈ s.g.waiters)) →
      co.hold t (fun _ _ g => g.lock ≠ some t) (R' t) g0 → (s.step E ev).Hold R' := by
    intro t co g0 k hx e hown h1 h2 h3 h4 hco
    refine h.settled hR (t := t) (co := co) (g0 := g0) (by rw [e]; rfl) (by rw [e]; simp [Sys.put]) (by rw [e]; simp [Sys.put, lt hx])
      (by rw [e]; simp [Sys.put, lt hx]) ?_ (fun t' hne ht' => rl t' ht' (hown t' hne)) h1 h2 h3 h4 hco
    intro t' hne
    rw [e]
    simp only [Sys.put]
    rw [List.getElem?_set_ne (Ne.symm hne)]
  have spawn : ∀ {co : Co Res} {g0 : Gw}, s.step E ev = Sys.spawn { s with g := g0 } co → (∀ t', ev.own t' = false) →
      g0.lock = s.g.lock → g0.waiters = s.g.waiters → co.HoldR s.tasks.length → (s.step E ev).Hold R' := by
    intro co g0 e hown h1 h2 hco
    have hnl : g0.lock ≠ some s.tasks.length := by
      rw [h1]
      intro hl
      exact absurd (h.lt _ hl) (Nat.lt_irrefl _)
    refine h.settled hR (t := s.tasks.length) (co := co) (g0 := g0) (by rw [e]; rfl) (by rw [e]; simp [Sys.spawn]) (by rw [e]; simp [Sys.spawn])
      (by rw [e]; simp [Sys.spawn]) ?_ (fun t' hne ht' => rl t' ht' (hown t')) (.inl h1) (h2 ▸ h.nodup) ?_ (fun t' _ => by rw [h2]) ?_
    · intro t' hne
      rw [e]
      simp only [Sys.spawn, List.getElem?_append]
      split
      · rfl
      · rename_i hn
        have : ∃ k, t' - s.tasks.length = k + 1 := ⟨t' - s.tasks.length - 1, by omega⟩
        obtain ⟨k, hk⟩ := this
        rw [hk]
        simp only [List.getElem?_cons_succ, List.getElem?_nil]
        rw [List.getElem?_eq_none (by omega)]
    · rw [h2]
      intro hm
      obtain ⟨k, hk⟩ := (h.iff _).1 hm
      exact absurd (lt hk) (Nat.lt_irrefl _)
    · exact Co.hold_mono (fun r o g (hq : holdEnd s.tasks.length _ g0 r o g) => fun (l : g.lock = some s.tasks.length) => hnl (hq.2.mine.1 l)) _ _ _ (hco g0 (R' s.tasks.length) (fun l => absurd l hnl))
  have ownr : ∀ t, ev = .resume t → ∀ t', t' ≠ t → ev.own t' = false := by
    intro t e t' hne
    rw [e]
    simp only [Ev.own, beq_eq_false_iff_ne]
    exact Ne.symm hne
  have ownc : ∀ t, ev = .cancel t → ∀ t', t' ≠ t → ev.own t' = false := by
    intro t e t' hne
    rw [e]
    simp only [Ev.own, beq_eq_false_iff_ne]
    exact Ne.symm hne
  have owno : ∀ t ok, ev = .opened t ok → ∀ t', t' ≠ t → ev.own t' = false := by
    intro t ok e t' hne
    rw [e]
    simp only [Ev.own, beq_eq_false_iff_ne]
    exact Ne.symm hne
  generalize he : s.step E ev = s' at *
  cases ev with
  | call a => subst he; exact spawn (g0 := s.g) rfl (fun _ => rfl) rfl rfl (holdR_call E _ a)
  | setMaxRetries n => subst he; exact env _ (.setMaxRetries n)
  | unsubscribe u => subst he; exact env _ (.unsubscribe u)
  | registerHandler code h' =>
    subst he
    simp only [Sys.step]
    split
    · exact env _ (.register _ code h')
    · exact no
  | removeHandler code =>
    subst he
    simp only [Sys.step]
    split
    · exact env _ (.unregister _ code)
    · exact no
  | opened t' ok =>
    have he' := he
    simp only [Sys.step] at he'
    split at he'
    · rename_i r k hx
      have ht := h.task t' _ hx
      have hop := ho t' ⟨r, k, hx⟩
      split at he'
      · refine put hx (by simp) he'.symm (owno t' ok rfl) rfl rfl ?_
        refine Co.hold_bindE k _ _ _ (Co.hold_mono ?_ _ _ _ (holdR_afterOpen E t' r s.g.conns.length s.g.addConn (R' t') hop))
        intro r' o g' hq
        refine ht r' g' o (fun x => hq.1 (hR t' x)) (fun l => hq.1 (hop l)) (RelyH.trans ?_ hq.2)
        exact .star hs.inv (Star.tail (.refl _) (MicroBut.conn s.g (E := E) (U := False)))
      · exact put hx (by simp) he'.symm (owno t' ok rfl) rfl rfl (ht _ _ _ (hR t') hop (.refl _ _))
    · subst he'; exact no
  | resume t' =>
    have he' := he
    simp only [Sys.step] at he'
    split at he'
    · rename_i hx
      have ht := h.task t' _ hx
      split at he'
      · rename_i o _
        exact put hx (by simp) he'.symm (ownr t' rfl) rfl rfl (ht _ _ o (hR t') (.quiet (quiet_note _ _ _)))
      · subst he'; exact no
    · rename_i hx
      have ht := h.task t' _ hx
      exact put hx (by simp) he'.symm (ownr t' rfl) rfl rfl (ht _ _ _ (hR t') (.refl _ _))
    · rename_i hx
      have ht := h.task t' _ hx
      split at he'
      · exact put hx (by simp) he'.symm (ownr t' rfl) rfl rfl (ht _ _ _ (hR t') (.refl _ _))
      · subst he'; exact no
    · rename_i k hx
      have ht := h.task t' _ hx
      split at he'
      · rename_i hc
        obtain ⟨w, hw⟩ : ∃ w, s.g.waiters = t' :: w := by
          cases hws : s.g.waiters with
          | nil => rw [hws] at hc; exact absurd hc.2 (by simp)
          | cons a w =>
            rw [hws] at hc
            simp only [List.head?_cons, Option.some.injEq] at hc
            exact ⟨w, by rw [hc.2]⟩
        have hnd := h.nodup
        rw [hw, List.nodup_cons] at hnd
        refine putL hx he'.symm (ownr t' rfl) (.inr rfl) ?_ ?_ ?_ (ht.2.1 (R' t') _ (hR t') (by rw [hc.1]; simp) rfl)
        · change s.g.waiters.tail.Nodup
          rw [hw]; exact hnd.2
        · change t' ∉ s.g.waiters.tail
          rw [hw]; exact hnd.1
        · intro t2 hne
          change t2 ∈ s.g.waiters.tail ↔ _
          rw [hw]
          simp [hne]
      · subst he'; exact no
    · subst he'; exact no
  | cancel t' =>
    have he' := he
    simp only [Sys.step] at he'
    split at he'
    · rename_i q k hx
      have ht := h.task t' _ hx
      exact put hx (by simp) he'.symm (ownc t' rfl) rfl rfl (ht _ _ _ (hR t') (ho t' ⟨q, k, hx⟩) (.refl _ _))
    · rename_i hx
      have ht := h.task t' _ hx
      exact put hx (by simp) he'.symm (ownc t' rfl) rfl rfl (ht _ _ _ (hR t') (.refl _ _))
    · rename_i hx
      have ht := h.task t' _ hx
      refine putL hx he'.symm (ownc t' rfl) (.inl rfl) ?_ ?_ ?_ (ht.2.2 _ _ (hR t') (.quiet (.same rfl rfl rfl rfl rfl)))
      · exact h.nodup.filter _
      · change t' ∉ s.g.waiters.filter _
        simp
      · intro t2 hne
        change t2 ∈ s.g.waiters.filter _ ↔ _
        simp [hne]
    · subst he'; exact no
  | net c e =>
    subst he
    simp only [Sys.step]
    split
    · rename_i he
      exact env _ (.net c e he)
    · exact no
  | handle c => subst he; exact env _ (.handle c)
  | ping c =>
    have he' := he
    simp only [Sys.step] at he'
    split at he'
    · split at he'
      · exact spawn (g0 := s.g.countPing c) he'.symm (fun _ => rfl) rfl rfl (holdR_ping _)
      · subst he'; exact no
    · subst he'; exact no
  | runUnsub =>
    have he' := he
    simp only [Sys.step] at he'
    split at he'
    · exact spawn (g0 := s.g.takeUnsub) he'.symm (fun _ => rfl) rfl rfl (holdR_unsub _)
    · subst he'; exact no
  | tick q => subst he; exact env _ (.tick q)

theorem hold_init (clientId maxRetries : Int) (R : Nat → Prop) : (Sys.init clientId maxRetries).Hold R := by
  refine ⟨(fun t x hx => by cases hx), (fun t hl => by cases hl), List.nodup_nil, fun t => ?_⟩
  constructor
  · intro h; cases h
  · rintro ⟨k, h⟩; cases h

end SL
