import Verif.Lemmas.Safe
/-!
# One piece of execution

`Co.now t I Q x g` : if task `t` runs the coroutine `x` from the state `g`, then either it is suspended in a state
satisfying `I`, or it comes to its end without having been suspended, with an outcome and state satisfying `Q`.
-/
set_option linter.unusedVariables false

namespace SL

open Co (state modify makeRequest pause closeConn withLock tryExcept ofExcept)

def Co.now (t : Nat) (I : Gw → Prop) {α : Type} (Q : Except PyErr α → Gw → Prop) : Co α → Gw → Prop
  | .ret a, g => Q (.ok a) g
  | .throw e, g => Q (.error e) g
  | .get k, g => (k g).now t I Q g
  | .upd f k, g => k.now t I Q (g.apply f)
  | .request c code data r k, g =>
    ((g.ask t c code data r).2.outcome c (g.ask t c code data r).1 = none → I (g.ask t c code data r).2) ∧
    ∀ o, (g.ask t c code data r).2.outcome c (g.ask t c code data r).1 = some o →
      (k o).now t I Q ((g.ask t c code data r).2.note t (.got o))
  | .openConn r k, g => I (g.note t (.opn (g.ip.getD "") g.port))
  | .sleep k, g => I g
  | .close c force k, g =>
    ((g.startClose t c force).2.closeEnded c (g.startClose t c force).1 = true → (k ((g.startClose t c force).2.closeResult c (g.startClose t c force).1)).now t I Q (g.startClose t c force).2) ∧
    ((g.startClose t c force).2.closeEnded c (g.startClose t c force).1 = false → I (g.startClose t c force).2)
  | .acquire k, g =>
    (g.lock = none ∧ g.waiters = [] → (k (.ok ())).now t I Q (g.take t)) ∧
    (¬ (g.lock = none ∧ g.waiters = []) → I (g.setWaiters (g.waiters ++ [t])))

theorem Co.now_mono {t : Nat} {I : Gw → Prop} {α : Type} {Q Q' : Except PyErr α → Gw → Prop} (hQ : ∀ o g, Q o g → Q' o g) :
    ∀ (x : Co α) (g : Gw), x.now t I Q g → x.now t I Q' g
  | .ret a, g, h => hQ _ _ h
  | .throw e, g, h => hQ _ _ h
  | .get k, g, h => now_mono hQ (k g) g h
  | .upd f k, g, h => now_mono hQ k _ h
  | .request c code data r k, g, h => ⟨h.1, fun o ho => now_mono hQ (k o) _ (h.2 o ho)⟩
  | .openConn r k, g, h => h
  | .sleep k, g, h => h
  | .close c force k, g, h => ⟨fun he => now_mono hQ _ _ (h.1 he), h.2⟩
  | .acquire k, g, h => ⟨fun he => now_mono hQ _ _ (h.1 he), h.2⟩

theorem Co.now_imp {t : Nat} {I I' : Gw → Prop} {α : Type} {Q Q' : Except PyErr α → Gw → Prop} (hI : ∀ g, I g → I' g) (hQ : ∀ o g, Q o g → Q' o g) :
    ∀ (x : Co α) (g : Gw), x.now t I Q g → x.now t I' Q' g
  | .ret a, g, h => hQ _ _ h
  | .throw e, g, h => hQ _ _ h
  | .get k, g, h => now_imp hI hQ (k g) g h
  | .upd f k, g, h => now_imp hI hQ k _ h
  | .request c code data r k, g, h => ⟨fun ho => hI _ (h.1 ho), fun o ho => now_imp hI hQ (k o) _ (h.2 o ho)⟩
  | .openConn r k, g, h => hI _ h
  | .sleep k, g, h => hI _ h
  | .close c force k, g, h => ⟨fun he => now_imp hI hQ _ _ (h.1 he), fun he => hI _ (h.2 he)⟩
  | .acquire k, g, h => ⟨fun he => now_imp hI hQ _ _ (h.1 he), fun he => hI _ (h.2 he)⟩

theorem Co.now_bindE {t : Nat} {I : Gw → Prop} {α β : Type} {Q : Except PyErr β → Gw → Prop} (f : Except PyErr α → Co β) :
    ∀ (x : Co α) (g : Gw), x.now t I (fun o g => (f o).now t I Q g) g → (x.bindE f).now t I Q g
  | .ret a, g, h => h
  | .throw e, g, h => h
  | .get k, g, h => now_bindE f (k g) g h
  | .upd u k, g, h => now_bindE f k _ h
  | .request c code data r k, g, h => ⟨h.1, fun o ho => now_bindE f (k o) _ (h.2 o ho)⟩
  | .openConn r k, g, h => h
  | .sleep k, g, h => h
  | .close c force k, g, h => ⟨fun he => now_bindE f _ _ (h.1 he), h.2⟩
  | .acquire k, g, h => ⟨fun he => now_bindE f _ _ (h.1 he), h.2⟩

theorem Co.now_bind {t : Nat} {I : Gw → Prop} {α β : Type} {Q : Except PyErr β → Gw → Prop} (x : Co α) (f : α → Co β) (g : Gw)
    (h : x.now t I (fun o g => match o with | .ok a => (f a).now t I Q g | .error e => Q (.error e) g) g) : (x >>= f).now t I Q g := by
  refine now_bindE _ x g (now_mono ?_ x g h)
  intro o g h
  cases o with
  | ok a => exact h
  | error e => exact h

theorem now_settle {t : Nat} {I : Gw → Prop} : ∀ (x : Co Res) (g : Gw), x.now t I (fun _ => I) g → I (settle t x g).2
  | .ret a, g, h => h
  | .throw e, g, h => h
  | .get k, g, h => now_settle (k g) g h
  | .upd f k, g, h => now_settle k _ h
  | .request c code data r k, g, h => by
    simp only [settle]
    split
    · rename_i o ho
      exact now_settle (k o) _ (h.2 o ho)
    · rename_i ho
      exact h.1 ho
  | .openConn r k, g, h => h
  | .sleep k, g, h => h
  | .close c force k, g, h => by
    simp only [settle]
    split
    · rename_i he
      exact now_settle _ _ (h.1 he)
    · rename_i he
      exact h.2 (by simpa using he)
  | .acquire k, g, h => by
    simp only [settle]
    split
    · rename_i he
      exact now_settle _ _ (h.1 he)
    · rename_i he
      exact h.2 he

/-! ## What most of the code leaves alone within a piece -/

/-- The client manager's connection, its listeners, the client flag and the registered handlers are the same. -/
structure Same (g g' : Gw) : Prop where
  client : g'.isClient = g.isClient
  cm : g'.cmProto = g.cmProto
  lis : g'.listeners = g.listeners
  cbs : g'.conns.map (fun x => x.w.p.cbs) = g.conns.map (fun x => x.w.p.cbs)

theorem Same.refl (g : Gw) : Same g g := ⟨rfl, rfl, rfl, rfl⟩
theorem Same.trans {a b c : Gw} (h : Same a b) (h' : Same b c) : Same a c :=
  ⟨h'.client.trans h.client, h'.cm.trans h.cm, h'.lis.trans h.lis, h'.cbs.trans h.cbs⟩

theorem map_modify_id {α β : Type} (f : α → β) (m : α → α) (h : ∀ x, f (m x) = f x) : ∀ (l : List α) (i : Nat), (l.modify i m).map f = l.map f
  | [], i => by cases i <;> rfl
  | x :: l, 0 => by simp [h]
  | x :: l, i + 1 => by simp [map_modify_id f m h l i]

/-- A protocol event that does not touch the handlers. -/
def Event.noCbs : Event → Bool
  | .register _ _ | .unregister _ | .unregisterAll => false
  | _ => true

theorem step_noCbs (w : World) {e : Event} (he : e.noCbs = true) : (w.step e).p.cbs = w.p.cbs := by
  rw [step_cbs]
  cases e <;> first | rfl | cases he

theorem same_net (g : Gw) (c : Nat) {e : Event} (he : e.noCbs = true) : Same g (g.net c e) :=
  ⟨rfl, rfl, rfl, map_modify_id _ _ (fun x => step_noCbs x.w he) _ _⟩

theorem same_ask (g : Gw) (t c : Nat) (code : Int) (data : Bytes) (r : Int) : Same g (g.ask t c code data r).2 := by
  simp only [Gw.ask]
  exact ((same_net g c (e := .call code data r) rfl).trans (same_net _ c (e := .run _) rfl)).trans ⟨rfl, rfl, rfl, rfl⟩

theorem same_close (g : Gw) (t c : Nat) (force : Bool) : Same g (g.startClose t c force).2 := by
  simp only [Gw.startClose]
  exact ((same_net g c (e := .close force) rfl).trans (same_net _ c (e := .closeFinish _) rfl)).trans ⟨rfl, rfl, rfl, rfl⟩

/-- A property of the client manager that says in particular that it is not a client. -/
structure Still (J : Gw → Prop) : Prop where
  client : ∀ g, J g → g.isClient = false
  same : ∀ g g', Same g g' → J g → J g'

/-- Within a piece the coroutine keeps every `Still` property. -/
def Calm {α : Type} (x : Co α) : Prop := ∀ J, Still J → ∀ t g, J g → x.now t J (fun _ => J) g

section
variable {α β : Type}

theorem calm_ret (a : α) : Calm (Co.ret a) := fun _ _ _ _ h => h
theorem calm_throw (e : PyErr) : Calm (Co.throw e : Co α) := fun _ _ _ _ h => h

theorem calm_bindE {x : Co α} {f : Except PyErr α → Co β} (hx : Calm x) (hf : ∀ o, Calm (f o)) : Calm (x.bindE f) :=
  fun J hJ t g h => Co.now_bindE _ _ _ (Co.now_mono (fun o g h => hf o J hJ t g h) _ _ (hx J hJ t g h))

theorem calm_bind {x : Co α} {f : α → Co β} (hx : Calm x) (hf : ∀ a, Calm (f a)) : Calm (x >>= f) := by
  refine calm_bindE hx (fun o => ?_)
  cases o with
  | ok a => exact hf a
  | error e => exact calm_throw e

theorem calm_state {f : Gw → Co α} (hf : ∀ g, Calm (f g)) : Calm (state >>= f) := fun J hJ t g h => hf g J hJ t g h

theorem calm_modify {f : Gw → Gw} (hf : ∀ g, Same g (g.apply f)) : Calm (modify f) := fun J hJ t g h => hJ.same _ _ (hf g) h

theorem calm_ofExcept (x : Except PyErr α) : Calm (ofExcept x) := by
  cases x with
  | ok a => exact calm_ret a
  | error e => exact calm_throw e

theorem calm_make (c : Nat) (code : Int) (data : Bytes) (r : Int) : Calm (makeRequest c code data r) := by
  intro J hJ t g h
  have h1 := hJ.same _ _ (same_ask g t c code data r) h
  exact ⟨fun _ => h1, fun o _ => calm_ofExcept o J hJ t _ (hJ.same (g.ask t c code data r).2 _ ⟨rfl, rfl, rfl, rfl⟩ h1)⟩

theorem calm_pause : Calm pause := fun J hJ t g h => h

theorem calm_close (c : Nat) (force : Bool) : Calm (closeConn c force) := by
  intro J hJ t g h
  have h1 := hJ.same _ _ (same_close g t c force) h
  exact ⟨fun _ => calm_ofExcept _ J hJ t _ h1, fun _ => h1⟩

theorem calm_try {x : Co α} {f : PyErr → Co α} (hx : Calm x) (hf : ∀ e, Calm (f e)) : Calm (tryExcept x f) := by
  refine calm_bindE hx (fun o => ?_)
  cases o with
  | ok a => exact calm_ret a
  | error e => exact hf e

theorem calm_lock {x : Co α} (hx : Calm x) : Calm (withLock x) := by
  intro J hJ t g h
  refine ⟨fun _ => ?_, fun _ => hJ.same g _ ⟨rfl, rfl, rfl, rfl⟩ h⟩
  exact calm_bindE hx (f := fun r => .upd Gw.release (ofExcept r)) (fun o J hJ t g h => calm_ofExcept o J hJ t _ (hJ.same g _ ⟨rfl, rfl, rfl, rfl⟩ h)) J hJ t _
    (hJ.same g _ ⟨rfl, rfl, rfl, rfl⟩ h)

theorem calm_ite {c : Prop} [Decidable c] {x y : Co α} (hx : Calm x) (hy : Calm y) : Calm (if c then x else y) := by
  split
  · exact hx
  · exact hy

end

/-! ## What `attach` establishes -/

/-- The handlers registered at the connection are exactly the client manager's, for the codes that have listeners. -/
def HandlersMatch (g : Gw) (x : Conn) : Prop :=
  (∀ code : Nat, (aget code g.listeners).isSome → aget (code : Int) x.w.p.cbs = some (commonHandler code)) ∧
  (∀ code : Int, aget code x.w.p.cbs ≠ none → ∃ n : Nat, code = n ∧ (aget n g.listeners).isSome)

/-- The handlers registered at connection `c` are exactly the client manager's, for the codes that have listeners
(if any have), and the gateway is not (yet) a client. -/
def Ready (c : Nat) (g : Gw) : Prop :=
  g.isClient = false ∧ g.cmProto = some c ∧
  (g.listeners ≠ [] → ∀ x, g.conns[c]? = some x → HandlersMatch g x)

theorem ready_still (c : Nat) : Still (Ready c) := by
  refine ⟨fun g h => h.1, ?_⟩
  rintro g g' ⟨h1, h2, h3, h4⟩ ⟨h5, h6, h7⟩
  refine ⟨h1.trans h5, h2.trans h6, ?_⟩
  rw [h3]
  intro hl x hx
  have hg := congrArg (fun l => l[c]?) h4
  simp only [List.getElem?_map, hx, Option.map_some] at hg
  cases hy : g.conns[c]? with
  | none => simp [hy] at hg
  | some y =>
    simp only [hy, Option.map_some, Option.some.injEq] at hg
    have := h7 hl y hy
    rw [HandlersMatch, hg, h3]
    exact this

/-- Within a piece the coroutine keeps every `Still` property, and if it ends without having been suspended its outcome
satisfies `R`. -/
def CalmR {α : Type} (R : Except PyErr α → Prop) (x : Co α) : Prop := ∀ J, Still J → ∀ t g, J g → x.now t J (fun o g => J g ∧ R o) g

theorem Calm.r {α : Type} {x : Co α} (h : Calm x) : CalmR (fun _ => True) x :=
  fun J hJ t g hg => Co.now_mono (fun _ _ h => ⟨h, trivial⟩) _ _ (h J hJ t g hg)
theorem CalmR.calm {α : Type} {R : Except PyErr α → Prop} {x : Co α} (h : CalmR R x) : Calm x :=
  fun J hJ t g hg => Co.now_mono (fun _ _ h => h.1) _ _ (h J hJ t g hg)

/-- The client manager is ready on some connection. -/
def ReadyAny (g : Gw) : Prop := ∃ c, Ready c g

theorem readyAny_still : Still ReadyAny :=
  ⟨fun g ⟨c, h⟩ => h.1, fun g g' hs ⟨c, h⟩ => ⟨c, (ready_still c).same g g' hs h⟩⟩

/-- The same for this property only. -/
def Keeps {α : Type} (R : Except PyErr α → Prop) (x : Co α) : Prop :=
  ∀ t g, ReadyAny g → x.now t ReadyAny (fun o g => ReadyAny g ∧ R o) g

theorem CalmR.keeps {α : Type} {R : Except PyErr α → Prop} {x : Co α} (h : CalmR R x) : Keeps R x := h _ readyAny_still
theorem Calm.keeps {α : Type} {x : Co α} (h : Calm x) : Keeps (fun _ => True) x := h.r.keeps

theorem keeps_bindE {α β : Type} {R : Except PyErr α → Prop} {R' : Except PyErr β → Prop} {x : Co α} {f : Except PyErr α → Co β} (hx : Keeps R x)
    (hf : ∀ o, R o → Keeps R' (f o)) : Keeps R' (x.bindE f) :=
  fun t g h => Co.now_bindE _ _ _ (Co.now_mono (fun o g h => hf o h.2 t g h.1) _ _ (hx t g h))

theorem calmR_bindE {α β : Type} {R : Except PyErr α → Prop} {R' : Except PyErr β → Prop} {x : Co α} {f : Except PyErr α → Co β} (hx : CalmR R x)
    (hf : ∀ o, R o → CalmR R' (f o)) : CalmR R' (x.bindE f) :=
  fun J hJ t g h => Co.now_bindE _ _ _ (Co.now_mono (fun o g h => hf o h.2 J hJ t g h.1) _ _ (hx J hJ t g h))

/-- Wherever the coroutine changes the client manager's connection it makes it `Ready` before it is suspended (or ends,
with an outcome satisfying `R`); and the same goes for the connecting it may be suspended in. -/
def Co.Att {α : Type} (R : Except PyErr α → Prop) : Co α → Prop
  | .ret _ => True
  | .throw _ => True
  | .get k => ∀ g, (k g).Att R
  | .upd f k => ((∀ g, (f g).cmProto = g.cmProto) ∨
      ∃ c, f = (·.attachTo c) ∧ ∀ (t : Nat) (g : Gw), k.now t ReadyAny (fun o g => ReadyAny g ∧ R o) (g.attachTo c)) ∧ k.Att R
  | .request _ _ _ _ k => ∀ o, (k o).Att R
  | .openConn _ k => ∀ o, (k o).Att R ∧ Keeps R (k o)
  | .sleep k => ∀ o, (k o).Att R
  | .close _ _ k => ∀ o, (k o).Att R
  | .acquire k => ∀ o, (k o).Att R

section
variable {α β : Type}

theorem Co.att_bindE {R : Except PyErr α → Prop} {R' : Except PyErr β → Prop} {f : Except PyErr α → Co β}
    (hf : ∀ o, (f o).Att R' ∧ (R o → Keeps R' (f o))) : ∀ x : Co α, x.Att R → (x.bindE f).Att R'
  | .ret a, _ => (hf _).1
  | .throw e, _ => (hf _).1
  | .get k, h => fun g => att_bindE hf (k g) (h g)
  | .upd u k, h => by
    refine ⟨?_, att_bindE hf k h.2⟩
    rcases h.1 with h | ⟨c, e, h⟩
    · exact .inl h
    · exact .inr ⟨c, e, fun t g => now_bindE _ _ _ (now_mono (fun o g hg => (hf o).2 hg.2 t g hg.1) _ _ (h t g))⟩
  | .request _ _ _ _ k, h => fun o => att_bindE hf (k o) (h o)
  | .openConn _ k, h => fun o => ⟨att_bindE hf (k o) (h o).1, keeps_bindE (h o).2 (fun o hR => (hf o).2 hR)⟩
  | .sleep k, h => fun o => att_bindE hf (k o) (h o)
  | .close _ _ k, h => fun o => att_bindE hf (k o) (h o)
  | .acquire k, h => fun o => att_bindE hf (k o) (h o)

/-- Both. -/
def Fine (x : Co α) : Prop := x.Att (fun _ => True) ∧ Calm x

theorem fine_ret (a : α) : Fine (Co.ret a) := ⟨trivial, calm_ret a⟩
theorem fine_throw (e : PyErr) : Fine (Co.throw e : Co α) := ⟨trivial, calm_throw e⟩
theorem fine_bindE {x : Co α} {f : Except PyErr α → Co β} (hx : Fine x) (hf : ∀ o, Fine (f o)) : Fine (x.bindE f) :=
  ⟨Co.att_bindE (fun o => ⟨(hf o).1, fun _ => (hf o).2.keeps⟩) x hx.1, calm_bindE hx.2 (fun o => (hf o).2)⟩
theorem fine_bind {x : Co α} {f : α → Co β} (hx : Fine x) (hf : ∀ a, Fine (f a)) : Fine (x >>= f) := by
  refine fine_bindE hx (fun o => ?_)
  cases o with
  | ok a => exact hf a
  | error e => exact fine_throw e
theorem fine_state {f : Gw → Co α} (hf : ∀ g, Fine (f g)) : Fine (state >>= f) := ⟨fun g => (hf g).1, calm_state (fun g => (hf g).2)⟩
theorem fine_modify {f : Gw → Gw} (hf : ∀ g, Same g (g.apply f)) : Fine (modify f) := ⟨⟨.inl (fun g => (hf g).cm), trivial⟩, calm_modify hf⟩
theorem fine_ofExcept (x : Except PyErr α) : Fine (ofExcept x) := ⟨by cases x <;> trivial, calm_ofExcept x⟩
theorem ofExcept_att {R : Except PyErr α → Prop} (x : Except PyErr α) : (ofExcept x).Att R := by cases x <;> trivial
theorem fine_make (c : Nat) (code : Int) (data : Bytes) (r : Int) : Fine (makeRequest c code data r) :=
  ⟨fun o => ofExcept_att o, calm_make c code data r⟩
theorem fine_pause : Fine pause := ⟨fun o => ofExcept_att o, calm_pause⟩
theorem fine_close (c : Nat) (force : Bool) : Fine (closeConn c force) := ⟨fun o => ofExcept_att o, calm_close c force⟩
theorem fine_try {x : Co α} {f : PyErr → Co α} (hx : Fine x) (hf : ∀ e, Fine (f e)) : Fine (tryExcept x f) := by
  refine fine_bindE hx (fun o => ?_)
  cases o with
  | ok a => exact fine_ret a
  | error e => exact hf e
theorem att_lock {R : Except PyErr α → Prop} {x : Co α} (hx : x.Att R) : (withLock x).Att R := by
  intro o
  cases o with
  | error e => trivial
  | ok u =>
    refine Co.att_bindE (R := R) (f := fun r => .upd Gw.release (ofExcept r)) ?_ x hx
    intro o
    refine ⟨⟨.inl (fun _ => rfl), ofExcept_att o⟩, fun hR t g h => ?_⟩
    have h1 : ReadyAny (g.apply Gw.release) := readyAny_still.same g _ ⟨rfl, rfl, rfl, rfl⟩ h
    cases o with
    | ok a => exact ⟨h1, hR⟩
    | error e => exact ⟨h1, hR⟩
theorem fine_lock {x : Co α} (hx : Fine x) : Fine (withLock x) := ⟨att_lock hx.1, calm_lock hx.2⟩
theorem fine_ite {c : Prop} [Decidable c] {x y : Co α} (hx : Fine x) (hy : Fine y) : Fine (if c then x else y) := by
  split
  · exact hx
  · exact hy
theorem fine_when {b : Bool} {x : Co Unit} (hx : Fine x) : Fine (whenCo b x) := fine_ite hx (fine_ret _)

end

end SL
