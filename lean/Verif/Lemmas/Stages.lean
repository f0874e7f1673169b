import Verif.Lemmas.Shy
/-!
# The stages of a connection attempt
-/
set_option linter.unusedVariables false

namespace SL

open Co (state modify makeRequest pause closeConn withLock tryExcept ofExcept)

/-- However the coroutine ends, `Q` holds of the outcome. -/
def Co.Leaves {α : Type} (Q : Except PyErr α → Prop) : Co α → Prop
  | .ret a => Q (.ok a)
  | .throw e => Q (.error e)
  | .get k => ∀ g, (k g).Leaves Q
  | .upd f k => k.Leaves Q
  | .request _ _ _ _ k => ∀ o, (k o).Leaves Q
  | .openConn _ k => ∀ o, (k o).Leaves Q
  | .sleep k => ∀ o, (k o).Leaves Q
  | .close _ _ k => ∀ o, (k o).Leaves Q
  | .acquire k => ∀ o, (k o).Leaves Q

theorem Co.leaves_bindE {α β : Type} {Q : Except PyErr β → Prop} {f : Except PyErr α → Co β} (hf : ∀ o, (f o).Leaves Q) :
    ∀ x : Co α, (x.bindE f).Leaves Q
  | .ret a => hf _
  | .throw e => hf _
  | .get k => fun g => leaves_bindE hf (k g)
  | .upd u k => leaves_bindE hf k
  | .request _ _ _ _ k => fun o => leaves_bindE hf (k o)
  | .openConn _ k => fun o => leaves_bindE hf (k o)
  | .sleep k => fun o => leaves_bindE hf (k o)
  | .close _ _ k => fun o => leaves_bindE hf (k o)
  | .acquire k => fun o => leaves_bindE hf (k o)

theorem Co.leaves_bind {α β : Type} {Q : Except PyErr β → Prop} {x : Co α} {f : α → Co β} (hf : ∀ a, (f a).Leaves Q) (he : ∀ e, Q (.error e)) :
    (x >>= f).Leaves Q := by
  refine leaves_bindE (fun o => ?_) x
  cases o with
  | ok a => exact hf a
  | error e => exact he e

/-- However the task ends, `Q` holds of the outcome. -/
def Task.Leaves (Q : Except PyErr Res → Prop) : Task → Prop
  | .request _ _ k => ∀ o, (k o).Leaves Q
  | .opening _ k => ∀ o, (k o).Leaves Q
  | .sleeping k => ∀ o, (k o).Leaves Q
  | .closing _ _ k => ∀ o, (k o).Leaves Q
  | .locked k => ∀ o, (k o).Leaves Q
  | .done r => Q r

/-- Only task `t` logs. -/
def Adds (t : Nat) (g g' : Gw) : Prop := ∃ l : List Act, g'.log = g.log ++ l.map (fun a => (t, a))

theorem Adds.refl (t : Nat) (g : Gw) : Adds t g g := ⟨[], by simp⟩

theorem Adds.trans {t : Nat} {a b c : Gw} (h : Adds t a b) (h' : Adds t b c) : Adds t a c := by
  obtain ⟨l, hl⟩ := h
  obtain ⟨l', hl'⟩ := h'
  exact ⟨l ++ l', by rw [hl', hl]; simp⟩

theorem settle_leaves {Q : Except PyErr Res → Prop} (t : Nat) : ∀ (co : Co Res) (g : Gw), co.Leaves Q →
    (settle t co g).1.Leaves Q ∧ Adds t g (settle t co g).2
  | .ret a, g, h => ⟨h, .refl t g⟩
  | .throw e, g, h => ⟨h, .refl t g⟩
  | .get k, g, h => settle_leaves t (k g) g (h g)
  | .upd f k, g, h => by
    have := settle_leaves t k (g.apply f) h
    exact ⟨this.1, Adds.trans (b := g.apply f) ⟨[], by simp [Gw.apply]⟩ this.2⟩
  | .request c code data r k, g, h => by
    simp only [settle]
    split
    · rename_i o _
      have := settle_leaves t (k o) ((g.ask t c code data r).2.note t (.got o)) (h o)
      exact ⟨this.1, Adds.trans (b := (g.ask t c code data r).2.note t (.got o)) ⟨[.ask c code data, .got o], by
        simp [Gw.ask, Gw.note, Gw.net]⟩ this.2⟩
    · exact ⟨h, [.ask c code data], rfl⟩
  | .openConn r k, g, h => ⟨h, [.opn (g.ip.getD "") g.port], rfl⟩
  | .sleep k, g, h => ⟨h, .refl t g⟩
  | .close c force k, g, h => by
    simp only [settle]
    split
    · have := settle_leaves t (k ((g.startClose t c force).2.closeResult c (g.startClose t c force).1)) (g.startClose t c force).2 (h _)
      exact ⟨this.1, Adds.trans (b := (g.startClose t c force).2) ⟨[.cls c force], rfl⟩ this.2⟩
    · exact ⟨h, [.cls c force], rfl⟩
  | .acquire k, g, h => by
    simp only [settle]
    split
    · have := settle_leaves t (k (.ok ())) (g.take t) (h _)
      exact ⟨this.1, Adds.trans (b := g.take t) ⟨[], by simp [Gw.take]⟩ this.2⟩
    · exact ⟨h, [], by simp [Gw.setWaiters]⟩

theorem adds_acts {t : Nat} {g g' : Gw} (h : Adds t g g') : ∃ l, g'.acts t = g.acts t ++ l := by
  obtain ⟨l, hl⟩ := h
  refine ⟨l, ?_⟩
  simp only [Gw.acts, hl, List.filter_append, List.map_append]
  congr 1
  clear hl
  induction l with
  | nil => rfl
  | cons a l ih => simpa using ih

/-! ## The continuations of a connection attempt -/

/-- The outcome is not False. -/
def notFalse (r : Except PyErr Res) : Prop := r ≠ .ok (.bool false)

/-- Where the connect call puts its result. -/
def boolK (o : Except PyErr Bool) : Co Res := (ofExcept o : Co Bool) >>= fun b => pure (Res.bool b)

structure VerK (E : Env) (k : Except PyErr (Option Bytes) → Co Res) : Prop where
  err : ∀ e, k (.error e) = .throw e
  bad : ∀ v d e, decodedVersion E v d = (.error e, (decodedVersion E v d).2) → ∀ t g, g.data = d →
    (settle t (k (.ok v)) g).1 = .done (.error e) ∧ (settle t (k (.ok v)) g).2.log = g.log
  no : ∀ v g t, (decodedVersion E v g.data).1 = .ok () → versionKnown (decodedVersion E v g.data).2 = false →
    (settle t (k (.ok v)) g).1 = .done (.ok (.bool false)) ∧ (settle t (k (.ok v)) g).2.log = g.log
  yes : ∀ v g t, (decodedVersion E v g.data).1 = .ok () → versionKnown (decodedVersion E v g.data).2 = true →
    ∃ co g', settle t (k (.ok v)) g = settle t co g' ∧ co.Leaves notFalse ∧ g'.log = g.log

theorem VerK.of_eq {E : Env} {k k' : Except PyErr (Option Bytes) → Co Res} (h : ∀ o, k o = k' o) (hk : VerK E k') : VerK E k := by
  have : k = k' := funext h
  rw [this]; exact hk

structure LoginK (E : Env) (c : Nat) (k : Except PyErr (Option Bytes) → Co Res) : Prop where
  err : ∀ e, k (.error e) = .throw e
  none : k (.ok none) = .ret (.bool false)
  ok : ∀ b, ∃ f k', VerK E k' ∧ ∀ t (g : Gw), ∃ r, settle t (k (.ok (some b))) g = settle t (.request c 8120 [] r k') (g.apply f)

theorem LoginK.of_eq {E : Env} {c : Nat} {k k' : Except PyErr (Option Bytes) → Co Res} (h : ∀ o, k o = k' o) (hk : LoginK E c k') : LoginK E c k := by
  have : k = k' := funext h
  rw [this]; exact hk

structure ChallengeK (E : Env) (c : Nat) (k : Except PyErr (Option Bytes) → Co Res) : Prop where
  err : ∀ e, k (.error e) = .throw e
  none : k (.ok none) = .throw .typeError
  bad : ∀ b e, decodeMessageString b = .error e → k (.ok (some b)) = .throw e
  ok : ∀ b m, decodeMessageString b = .ok m → ∃ r k', LoginK E c k' ∧ k (.ok (some b)) = .request c 27 loginBytes r k'

theorem ChallengeK.of_eq {E : Env} {c : Nat} {k k' : Except PyErr (Option Bytes) → Co Res} (h : ∀ o, k o = k' o) (hk : ChallengeK E c k') :
    ChallengeK E c k := by
  have : k = k' := funext h
  rw [this]; exact hk

structure PauseK (E : Env) (c : Nat) (k : Except PyErr Unit → Co Res) : Prop where
  err : ∀ e, k (.error e) = .throw e
  no : ∀ t g, g.connected c = false → settle t (k (.ok ())) g = (.done (.error .slConnection), g)
  ok : ∀ t g, g.connected c = true → ∃ r k', ChallengeK E c k' ∧ settle t (k (.ok ())) g = settle t (.request c 14 [] r k') g

/-- After the version. -/
def verTail (E : Env) : Co Bool := do
  getConfig E
  let g ← state
  match g.protocol with
  | some c => do
    attach c
    return true
  | none => .throw .attributeError

/-- From the answer to the version request on. -/
def verCo (E : Env) (v : Option Bytes) : Co Bool :=
  ((match v with
    | some (b :: bs) => do
      let g ← state
      decodeCo E .version (b :: bs)
      return some (b :: bs)
    | _ => return none : Co (Option Bytes)) >>= fun raw =>
    modify (·.putLast [.s "version"] (match raw with | some b => .bytes b | none => .null))) >>= fun _ =>
  state >>= fun g => if g.hasVersion then verTail E else return false

theorem leaves_verTail (E : Env) : ((verTail E).bindE boolK).Leaves notFalse := by
  have key : ∀ {α : Type} (x : Co α) (f : α → Co Bool), (∀ a, ((f a).bindE boolK).Leaves notFalse) → ((x >>= f).bindE boolK).Leaves notFalse := by
    intro α x f hf
    have : ∀ y : Co α, ((y.bindE (fun | .ok a => f a | .error e => .throw e)).bindE boolK).Leaves notFalse := by
      intro y
      induction y with
      | ret a => exact hf a
      | throw e => intro h; cases h
      | get k ih => exact fun g => ih g
      | upd u k ih => exact ih
      | request c code data r k ih => exact fun o => ih o
      | openConn r k ih => exact fun o => ih o
      | sleep k ih => exact fun o => ih o
      | close c force k ih => exact fun o => ih o
      | acquire k ih => exact fun o => ih o
    exact this x
  refine key _ _ (fun _ g => ?_)
  change ((match g.protocol with
    | some c => (do attach c; return true : Co Bool)
    | none => .throw .attributeError).bindE boolK).Leaves notFalse
  split
  · refine key _ _ (fun _ => ?_)
    intro h; cases h
  · intro h; cases h

theorem verK (E : Env) : VerK E (fun o => ((ofExcept o : Co (Option Bytes)) >>= verCo E).bindE boolK) := by
  have tail : ∀ (g : Gw) t raw, ∃ g', g'.log = g.log ∧ g'.data = g.data ∧
      settle t (((modify (·.putLast [.s "version"] (match (raw : Option Bytes) with | some b => Val.bytes b | none => .null)) : Co Unit) >>= fun _ =>
        state >>= fun g => if g.hasVersion then verTail E else return false : Co Bool).bindE boolK) g =
      settle t ((if g'.hasVersion then verTail E else return false : Co Bool).bindE boolK) g' := by
    intro g t raw
    refine ⟨g.apply (·.putLast [.s "version"] (match raw with | some b => Val.bytes b | none => .null)), rfl, rfl, rfl⟩
  have fin : ∀ (g : Gw) t, (versionKnown g.data = false → settle t ((if g.hasVersion then verTail E else return false : Co Bool).bindE boolK) g =
      (.done (.ok (.bool false)), g)) ∧ (versionKnown g.data = true →
        settle t ((if g.hasVersion then verTail E else return false : Co Bool).bindE boolK) g = settle t ((verTail E).bindE boolK) g) := by
    intro g t
    have e : g.hasVersion = versionKnown g.data := rfl
    rw [e]
    constructor
    · intro h; rw [h]; rfl
    · intro h; rw [h]; rfl
  have main : ∀ v (g : Gw) t, (∀ e, (decodedVersion E v g.data).1 = .error e →
        (settle t ((verCo E v).bindE boolK) g).1 = .done (.error e) ∧ (settle t ((verCo E v).bindE boolK) g).2.log = g.log) ∧
      ((decodedVersion E v g.data).1 = .ok () → ∃ g', g'.log = g.log ∧ g'.data = (decodedVersion E v g.data).2 ∧
        settle t ((verCo E v).bindE boolK) g = settle t ((if g'.hasVersion then verTail E else return false : Co Bool).bindE boolK) g') := by
    intro v g t
    have dull : (decodedVersion E v g.data = (.ok (), g.data)) → (∃ raw : Option Bytes, verCo E v = ((modify (·.putLast [.s "version"] (match (raw : Option Bytes) with | some b => Val.bytes b | none => .null)) : Co Unit) >>= fun _ =>
        state >>= fun g => if g.hasVersion then verTail E else return false : Co Bool)) → (∀ e, (decodedVersion E v g.data).1 = .error e →
        (settle t ((verCo E v).bindE boolK) g).1 = .done (.error e) ∧ (settle t ((verCo E v).bindE boolK) g).2.log = g.log) ∧
      ((decodedVersion E v g.data).1 = .ok () → ∃ g', g'.log = g.log ∧ g'.data = (decodedVersion E v g.data).2 ∧
        settle t ((verCo E v).bindE boolK) g = settle t ((if g'.hasVersion then verTail E else return false : Co Bool).bindE boolK) g') := by
      intro h ⟨raw, hv⟩
      rw [h, hv]
      exact ⟨fun e he => (by cases he), fun _ => tail g t raw⟩
    match v with
    | none => exact dull rfl ⟨none, rfl⟩
    | some [] => exact dull rfl ⟨none, rfl⟩
    | some (b :: bs) =>
      change (∀ e, (decodeWith (Decoder.version.prog E.pyFloat) (b :: bs) g.data).1 = .error e → _ ∧ _) ∧
        ((decodeWith (Decoder.version.prog E.pyFloat) (b :: bs) g.data).1 = .ok () → ∃ g' : Gw, _ ∧ g'.data = (decodeWith (Decoder.version.prog E.pyFloat) (b :: bs) g.data).2 ∧ _)
      generalize hD : decodeWith (Decoder.version.prog E.pyFloat) (b :: bs) g.data = D
      have e1 : settle t ((verCo E (some (b :: bs))).bindE boolK) g =
          settle t ((((ofExcept (decodeWith (Decoder.version.prog E.pyFloat) (b :: bs) g.data).1 : Co Unit) >>= fun _ => (pure (some (b :: bs)) : Co (Option Bytes))) >>= fun raw =>
          (modify (·.putLast [.s "version"] (match (raw : Option Bytes) with | some b => Val.bytes b | none => .null)) : Co Unit)) >>= (fun _ =>
        state >>= fun g => if g.hasVersion then verTail E else return false : Unit → Co Bool) |>.bindE boolK)
          (g.apply (·.setData (decodeWith (Decoder.version.prog E.pyFloat) (b :: bs) g.data).2)) := rfl
      rw [e1, hD]
      obtain ⟨D1, D2⟩ := D
      constructor
      · intro e he
        simp only at he
        subst he
        exact ⟨rfl, rfl⟩
      · intro he
        simp only at he
        subst he
        obtain ⟨g', h1, h2, h3⟩ := tail (g.apply (·.setData D2)) t (some (b :: bs))
        exact ⟨g', h1.trans rfl, h2.trans rfl, h3⟩
  refine ⟨fun e => rfl, ?_, ?_, ?_⟩
  · intro v d e hd t g hg
    subst hg
    exact (main v g t).1 e (by rw [hd])
  · intro v g t h1 h2
    obtain ⟨g', hl, hdat, hs⟩ := (main v g t).2 h1
    change (settle t ((verCo E v).bindE boolK) g).1 = _ ∧ (settle t ((verCo E v).bindE boolK) g).2.log = _
    rw [hs, (fin g' t).1 (by rw [hdat]; exact h2)]
    exact ⟨rfl, hl⟩
  · intro v g t h1 h2
    obtain ⟨g', hl, hdat, hs⟩ := (main v g t).2 h1
    refine ⟨(verTail E).bindE boolK, g', ?_, leaves_verTail E, hl⟩
    change settle t ((verCo E v).bindE boolK) g = _
    rw [hs, (fin g' t).2 (by rw [hdat]; exact h2)]

/-- From the answer to the login on. -/
def loginCo (E : Env) (c : Nat) (mac : String) (v : Option Bytes) : Co Bool :=
  (match v with | some _ => pure (some mac) | none => pure none : Co (Option String)) >>= fun mac =>
    match mac with
    | none => return false
    | some m => modify (·.setProto c m) >>= fun _ => loadVersion E c >>= fun _ => state >>= fun g => if g.hasVersion then verTail E else return false

theorem loginK (E : Env) (c : Nat) (m : String) : LoginK E c (fun o => ((ofExcept o : Co (Option Bytes)) >>= loginCo E c m).bindE boolK) := by
  refine ⟨fun e => rfl, rfl, fun b => ⟨fun g => g.setProto c m, ?_, ?_, fun t g => ⟨g.maxRetries, ?_⟩⟩⟩
  rotate_left 2
  · rfl
  · refine VerK.of_eq (fun o => ?_) (verK E)
    match o with
    | .error e => rfl
    | .ok none => rfl
    | .ok (some []) => rfl
    | .ok (some (b :: bs)) => rfl

theorem Co.ok_bind {α β : Type} (a : α) (f : α → Co β) : ((ofExcept (.ok a) : Co α) >>= f) = f a := rfl

/-- From the MAC address on. -/
def macCo (E : Env) (r : Int) (c : Nat) (m : String) : Co Bool :=
  (ofExcept loginMessage : Co Bytes) >>= fun msg => makeRequest c 27 msg r >>= loginCo E c m

/-- From the answer to the challenge on. -/
def challengeCo (E : Env) (r : Int) (c : Nat) (v : Option Bytes) : Co Bool :=
  (match v with | some b => ofExcept (decodeMessageString b) | none => .throw .typeError : Co String) >>= macCo E r c

theorem macCo_eq (E : Env) (r : Int) (c : Nat) (m : String) : macCo E r c m = makeRequest c 27 loginBytes r >>= loginCo E c m := by
  unfold macCo
  rw [login_bytes]
  rfl

theorem challengeK (E : Env) (r : Int) (c : Nat) : ChallengeK E c (fun o => ((ofExcept o : Co (Option Bytes)) >>= challengeCo E r c).bindE boolK) := by
  have e0 : ∀ b, ((ofExcept (.ok (some b)) : Co (Option Bytes)) >>= challengeCo E r c) = challengeCo E r c (some b) := fun _ => rfl
  refine ⟨fun e => rfl, rfl, fun b e h => ?_, fun b m h => ⟨r, _, loginK E c m, ?_⟩⟩
  · simp only [e0]
    unfold challengeCo
    simp only [h]
    rfl
  · simp only [e0]
    unfold challengeCo
    simp only [h]
    rw [Co.ok_bind, macCo_eq]
    rfl

/-- From the pause on. -/
def pauseCo (E : Env) (r : Int) (c : Nat) : Co Bool :=
  state >>= fun g => if g.connected c then makeRequest c 14 [] r >>= challengeCo E r c else .throw .slConnection

theorem pauseK (E : Env) (r : Int) (c : Nat) : PauseK E c (fun o => ((ofExcept o : Co Unit) >>= fun _ => pauseCo E r c).bindE boolK) := by
  refine ⟨fun e => rfl, fun t g h => ?_, fun t g h => ⟨r, _, challengeK E r c, ?_⟩⟩
  · change settle t ((if g.connected c then makeRequest c 14 [] r >>= challengeCo E r c else .throw .slConnection : Co Bool).bindE boolK) g = _
    rw [h]; rfl
  · change settle t ((if g.connected c then makeRequest c 14 [] r >>= challengeCo E r c else .throw .slConnection : Co Bool).bindE boolK) g = _
    rw [h]; rfl

theorem Co.assoc {α β γ : Type} (x : Co α) (f : α → Co β) (h : β → Co γ) : (x >>= f) >>= h = x >>= fun a => f a >>= h := by
  have key : ∀ y : Co α, (y.bindE (fun | .ok a => f a | .error e => .throw e)).bindE (fun | .ok a => h a | .error e => .throw e) =
      y.bindE (fun | .ok a => (f a).bindE (fun | .ok a => h a | .error e => .throw e) | .error e => .throw e) := by
    intro y
    induction y with
    | ret a => rfl
    | throw e => rfl
    | get k ih => exact congrArg Co.get (funext ih)
    | upd u k ih => exact congrArg (Co.upd u) ih
    | request c code data r k ih => exact congrArg (Co.request c code data r) (funext ih)
    | openConn r k ih => exact congrArg (Co.openConn r) (funext ih)
    | sleep k ih => exact congrArg Co.sleep (funext ih)
    | close c force k ih => exact congrArg (Co.close c force) (funext ih)
    | acquire k ih => exact congrArg Co.acquire (funext ih)
  exact key x

/-- What `async_connect` does with the MAC address. -/
def afterMac (E : Env) (c : Nat) (mac : Option String) : Co Bool :=
  match mac with
  | none => return false
  | some m => modify (·.setProto c m) >>= fun _ => loadVersion E c >>= fun _ => state >>= fun g => if g.hasVersion then verTail E else return false

theorem afterOpen_eq (E : Env) (r : Int) (c : Nat) : afterOpen E r c =
    Co.modify (·.writeRaw c helloBytes) >>= fun _ => pause >>= fun _ => pauseCo E r c := by
  have e1 : afterOpen E r c = connectToGateway c r >>= afterMac E c := by
    unfold afterOpen
    rfl
  rw [e1]
  unfold connectToGateway gatewayConnect
  simp only [Co.assoc]
  congr 1
  funext _
  congr 1
  funext _
  unfold pauseCo
  congr 1
  funext g
  cases g.connected c with
  | false => rfl
  | true =>
    simp only [if_true, Co.assoc]
    congr 1

/-- The first piece after the connection is made. -/
theorem openK (E : Env) (r : Int) (c t : Nat) (g : Gw) : ∃ k, PauseK E c k ∧
    settle t ((afterOpen E r c).bindE boolK) g = (.sleeping k, g.apply (·.writeRaw c helloBytes)) := by
  refine ⟨_, pauseK E r c, ?_⟩
  rw [afterOpen_eq]
  rfl

/-! ## The stages -/

/-- Where a connect call is. -/
inductive Stage (E : Env) (h : String) (p : Int) : List Act → Task → Prop
  | opening (r : Int) : Stage E h p [.opn h p] (.opening r boolK)
  | pausing (c : Nat) (k) (hk : PauseK E c k) : Stage E h p [.opn h p] (.sleeping k)
  | challenge (c i : Nat) (k) (hk : ChallengeK E c k) : Stage E h p [.opn h p, .ask c 14 []] (.request c i k)
  | login (c i : Nat) (k) (hk : LoginK E c k) (b : Bytes) (m : String) (hd : decodeMessageString b = .ok m) :
      Stage E h p [.opn h p, .ask c 14 [], .got (.ok (some b)), .ask c 27 loginBytes] (.request c i k)
  | version (c i : Nat) (k) (hk : VerK E k) (b b' : Bytes) (m : String) (hd : decodeMessageString b = .ok m) :
      Stage E h p [.opn h p, .ask c 14 [], .got (.ok (some b)), .ask c 27 loginBytes, .got (.ok (some b')), .ask c 8120 []]
        (.request c i k)
  | later (c : Nat) (b b' : Bytes) (m : String) (hd : decodeMessageString b = .ok m) (v : Option Bytes) (l : List Act) (x : Task)
      (hx : x.Leaves notFalse) :
      Stage E h p ([.opn h p, .ask c 14 [], .got (.ok (some b)), .ask c 27 loginBytes, .got (.ok (some b')), .ask c 8120 [],
        .got (.ok v)] ++ l) x
  | over (l : List Act) (r : Except PyErr Res) (hb : Begins h p l (some r)) : Stage E h p l (.done r)

def Task.result? : Task → Option (Except PyErr Res)
  | .done r => some r
  | _ => none

theorem result_eq {s : Sys} {t : Nat} {x : Task} (hx : s.tasks[t]? = some x) : s.result t = x.result? := by
  rw [Sys.result, hx]
  cases x <;> rfl

theorem Stage.begins {E : Env} {h : String} {p : Int} {l : List Act} {x : Task} (hs : Stage E h p l x) : Begins h p l x.result? := by
  cases hs with
  | opening => exact .opening
  | pausing => exact .opening
  | challenge c i k hk => exact .challenge c
  | login c i k hk b m hd => exact .login c b m hd
  | version c i k hk b b' m hd => exact .version c b b' m hd
  | later c b b' m hd v l x hx =>
    refine .later c b b' m hd _ l _ (fun e he => by cases he) (fun hf => ?_)
    cases x with
    | done r => cases hf; exact absurd rfl hx
    | _ => cases hf
  | over l r hb => exact hb

theorem acts_got (g : Gw) (t : Nat) (o : Except PyErr (Option Bytes)) : (g.note t (.got o)).acts t = g.acts t ++ [.got o] := by
  simp [Gw.acts, Gw.note]

theorem acts_ask (g : Gw) (t c : Nat) (code : Int) (data : Bytes) (r : Int) : (g.ask t c code data r).2.acts t = g.acts t ++ [.ask c code data] := by
  simp [Gw.acts, Gw.ask, Gw.note, Gw.net]

section
variable {E : Env} {h : String} {p : Int}

theorem ver_go {k} (hk : VerK E k) {c : Nat} {b b' : Bytes} {m : String} (hd : decodeMessageString b = .ok m) (t : Nat) (g : Gw) (o)
    (hg : g.acts t = [.opn h p, .ask c 14 [], .got (.ok (some b)), .ask c 27 loginBytes, .got (.ok (some b')), .ask c 8120 [], .got o]) :
    Stage E h p ((settle t (k o) g).2.acts t) (settle t (k o) g).1 := by
  cases o with
  | error e =>
    rw [hk.err]
    change Stage E h p (g.acts t) (.done (.error e))
    rw [hg]
    exact .over _ _ (.later c b b' m hd _ [] _ (fun _ h => by cases h; exact ⟨rfl, rfl⟩) (fun _ => rfl))
  | ok v =>
    cases h1 : (decodedVersion E v g.data).1 with
    | error e =>
      have := hk.bad v g.data e (by rw [← h1]) t g rfl
      rw [this.1, Gw.acts, this.2, ← Gw.acts, hg]
      exact .over _ _ (.later c b b' m hd _ [] _ (fun _ h => by cases h) (fun _ => rfl))
    | ok u =>
      cases h2 : versionKnown (decodedVersion E v g.data).2 with
      | false =>
        have := hk.no v g t h1 h2
        rw [this.1, Gw.acts, this.2, ← Gw.acts, hg]
        exact .over _ _ (.later c b b' m hd _ [] _ (fun _ h => by cases h) (fun _ => rfl))
      | true =>
        obtain ⟨co, g', e, hl, hlog⟩ := hk.yes v g t h1 h2
        rw [e]
        have := settle_leaves t co g' hl
        obtain ⟨l, hl'⟩ := adds_acts this.2
        rw [hl', show g'.acts t = g.acts t by rw [Gw.acts, hlog, ← Gw.acts], hg]
        exact .later c b b' m hd v l _ this.1

/-- A request is made: the task waits for its answer, or has it already. -/
theorem settle_asks {P : List Act → Task → Prop} (t c : Nat) (code : Int) (data : Bytes) (r : Int) (k) (g : Gw)
    (hw : ∀ i, P (g.acts t ++ [.ask c code data]) (.request c i k))
    (ho : ∀ o g', g'.acts t = g.acts t ++ [.ask c code data, .got o] → P ((settle t (k o) g').2.acts t) (settle t (k o) g').1) :
    P ((settle t (.request c code data r k) g).2.acts t) (settle t (.request c code data r k) g).1 := by
  simp only [settle]
  split
  · rename_i o _
    refine ho o _ ?_
    rw [acts_got, acts_ask, List.append_assoc]
    rfl
  · rw [acts_ask]
    exact hw _

theorem login_go {c : Nat} {k} (hk : LoginK E c k) {b : Bytes} {m : String} (hd : decodeMessageString b = .ok m) (t : Nat) (g : Gw) (o)
    (hg : g.acts t = [.opn h p, .ask c 14 [], .got (.ok (some b)), .ask c 27 loginBytes, .got o]) :
    Stage E h p ((settle t (k o) g).2.acts t) (settle t (k o) g).1 := by
  match o with
  | .error e =>
    rw [hk.err]
    change Stage E h p (g.acts t) (.done (.error e))
    rw [hg]
    exact .over _ _ (.noLogin c b m hd e)
  | .ok none =>
    rw [hk.none]
    change Stage E h p (g.acts t) (.done (.ok (.bool false)))
    rw [hg]
    exact .over _ _ (.loginSwallowed c b m hd)
  | .ok (some b') =>
    obtain ⟨f, k', hk', e⟩ := hk.ok b'
    obtain ⟨r, e⟩ := e t g
    rw [e]
    have hg' : (g.apply f).acts t = [.opn h p, .ask c 14 [], .got (.ok (some b)), .ask c 27 loginBytes, .got (.ok (some b'))] := hg
    refine settle_asks t c 8120 [] r k' _ (fun i => ?_) (fun o g' ho => ?_)
    · rw [hg']; exact .version c i k' hk' b b' m hd
    · rw [hg'] at ho
      exact ver_go hk' hd t g' o ho

theorem challenge_go {c : Nat} {k} (hk : ChallengeK E c k) (t : Nat) (g : Gw) (o)
    (hg : g.acts t = [.opn h p, .ask c 14 [], .got o]) :
    Stage E h p ((settle t (k o) g).2.acts t) (settle t (k o) g).1 := by
  match o with
  | .error e =>
    rw [hk.err]
    change Stage E h p (g.acts t) (.done (.error e))
    rw [hg]
    exact .over _ _ (.noChallenge c e)
  | .ok none =>
    rw [hk.none]
    change Stage E h p (g.acts t) (.done (.error .typeError))
    rw [hg]
    exact .over _ _ (.swallowed c)
  | .ok (some b) =>
    cases hd : decodeMessageString b with
    | error e =>
      rw [hk.bad b e hd]
      change Stage E h p (g.acts t) (.done (.error e))
      rw [hg]
      exact .over _ _ (.badMac c b e hd)
    | ok m =>
      obtain ⟨r, k', hk', e⟩ := hk.ok b m hd
      rw [e]
      refine settle_asks t c 27 loginBytes r k' _ (fun i => ?_) (fun o g' ho => ?_)
      · rw [hg]; exact .login c i k' hk' b m hd
      · rw [hg] at ho
        exact login_go hk' hd t g' o ho

theorem pause_go {c : Nat} {k} (hk : PauseK E c k) (t : Nat) (g : Gw) (o) (hg : g.acts t = [.opn h p]) :
    Stage E h p ((settle t (k o) g).2.acts t) (settle t (k o) g).1 := by
  match o with
  | .error e =>
    rw [hk.err]
    change Stage E h p (g.acts t) (.done (.error e))
    rw [hg]
    exact .over _ _ (.unopened e)
  | .ok () =>
    cases hc : g.connected c with
    | false =>
      rw [hk.no t g hc]
      change Stage E h p (g.acts t) (.done (.error .slConnection))
      rw [hg]
      exact .over _ _ (.unopened _)
    | true =>
      obtain ⟨r, k', hk', e⟩ := hk.ok t g hc
      rw [e]
      refine settle_asks t c 14 [] r k' _ (fun i => ?_) (fun o g' ho => ?_)
      · rw [hg]; exact .challenge c i k' hk'
      · rw [hg] at ho
        exact challenge_go hk' t g' o ho

theorem task_own {s : Sys} {t : Nat} {x : Task} (hx : s.tasks[t]? = some x) (ev : Ev) (ho : ev.own t = true) :
    s.step E ev = s ∨ ∃ co g0, s.step E ev = s.put t (settle t co g0) ∧ Adds t s.g g0 ∧
      (∀ Q, x.Leaves Q → co.Leaves Q) := by
  have ev_eq : (∃ ok, ev = .opened t ok) ∨ ev = .resume t ∨ ev = .cancel t := by
    cases ev <;> simp_all [Ev.own]
  rcases ev_eq with ⟨ok, rfl⟩ | rfl | rfl
  · cases x with
    | opening r k =>
      right
      cases ok with
      | true =>
        refine ⟨(afterOpen E r s.g.conns.length).bindE k, s.g.addConn, ?_, ⟨[], by simp [Gw.addConn]⟩, fun Q h => Co.leaves_bindE h _⟩
        simp only [Sys.step, hx, if_true]
      | false =>
        refine ⟨k (.error .slConnection), s.g, ?_, .refl _ _, fun Q h => h _⟩
        simp only [Sys.step, hx, Bool.false_eq_true, if_false]
    | _ => left; simp only [Sys.step, hx]
  · cases x with
    | request c r k =>
      cases h : s.g.outcome c r with
      | none => left; simp only [Sys.step, hx, h]
      | some o =>
        right
        refine ⟨k o, s.g.note t (.got o), ?_, ⟨[.got o], rfl⟩, fun Q h => h _⟩
        simp only [Sys.step, hx, h]
    | sleeping k =>
      right
      refine ⟨k (.ok ()), s.g, ?_, .refl _ _, fun Q h => h _⟩
      simp only [Sys.step, hx]
    | closing c i k =>
      cases h : s.g.closeEnded c i with
      | false => left; simp only [Sys.step, hx, h, Bool.false_eq_true, if_false]
      | true =>
        right
        refine ⟨k (s.g.closeResult c i), s.g, ?_, .refl _ _, fun Q h => h _⟩
        simp only [Sys.step, hx, h, if_true]
    | locked k =>
      by_cases h : s.g.lock = none ∧ s.g.waiters.head? = some t
      · right
        refine ⟨k (.ok ()), (s.g.setWaiters s.g.waiters.tail).take t, ?_, ⟨[], by simp [Gw.take, Gw.setWaiters]⟩, fun Q h => h _⟩
        simp only [Sys.step, hx]
        rw [if_pos h]
      · left
        simp only [Sys.step, hx]
        rw [if_neg h]
    | _ => left; simp only [Sys.step, hx]
  · cases x with
    | opening r k =>
      right
      refine ⟨k (.error .cancelled), s.g, ?_, .refl _ _, fun Q h => h _⟩
      simp only [Sys.step, hx]
    | sleeping k =>
      right
      refine ⟨k (.error .cancelled), s.g, ?_, .refl _ _, fun Q h => h _⟩
      simp only [Sys.step, hx]
    | locked k =>
      right
      refine ⟨k (.error .cancelled), s.g.setWaiters (s.g.waiters.filter (· ≠ t)), ?_, ⟨[], by simp [Gw.setWaiters]⟩, fun Q h => h _⟩
      simp only [Sys.step, hx]
    | _ => left; simp only [Sys.step, hx]

theorem put_task {s : Sys} {t : Nat} {x : Task} (hx : s.tasks[t]? = some x) (r : Task × Gw) : (s.put t r).tasks[t]? = some r.1 := by
  have ht : t < s.tasks.length := (List.getElem?_eq_some_iff.1 hx).1
  simp [Sys.put, ht]

/-- However the task goes on, it has done what it had done, and more. -/
theorem leaves_step {Q : Except PyErr Res → Prop} {s : Sys} {t : Nat} {x : Task} (hx : s.tasks[t]? = some x) (hl : x.Leaves Q) (ev : Ev) (ho : ev.own t = true) :
    ∃ y l, (s.step E ev).tasks[t]? = some y ∧ y.Leaves Q ∧ (s.step E ev).g.acts t = s.g.acts t ++ l := by
  rcases task_own (E := E) hx ev ho with e | ⟨co, g0, e, ha, hq⟩
  · rw [e]
    exact ⟨x, [], hx, hl, by simp⟩
  · rw [e]
    have := settle_leaves t co g0 (hq Q hl)
    obtain ⟨l, hl⟩ := adds_acts (ha.trans this.2)
    exact ⟨_, l, put_task hx _, this.1, hl⟩

theorem stage_step {s : Sys} {t : Nat} {x : Task} (hx : s.tasks[t]? = some x) (hs : Stage E h p (s.g.acts t) x) (ev : Ev) :
    ∃ y, (s.step E ev).tasks[t]? = some y ∧ Stage E h p ((s.step E ev).g.acts t) y := by
  have ht : t < s.tasks.length := (List.getElem?_eq_some_iff.1 hx).1
  cases ho : ev.own t with
  | false =>
    have := step_other_task E s ev ht ho
    exact ⟨x, this.1.trans hx, by rw [this.2]; exact hs⟩
  | true =>
    have ev_eq : (∃ ok, ev = .opened t ok) ∨ ev = .resume t ∨ ev = .cancel t := by
      cases ev <;> simp_all [Ev.own]
    have put : ∀ co g0, s.step E ev = s.put t (settle t co g0) → Stage E h p ((settle t co g0).2.acts t) (settle t co g0).1 →
        ∃ y, (s.step E ev).tasks[t]? = some y ∧ Stage E h p ((s.step E ev).g.acts t) y := by
      intro co g0 e hst
      rw [e]
      exact ⟨_, put_task hx _, hst⟩
    have same : s.step E ev = s → ∃ y, (s.step E ev).tasks[t]? = some y ∧ Stage E h p ((s.step E ev).g.acts t) y := by
      intro e
      rw [e]
      exact ⟨x, hx, hs⟩
    have req : ∀ c i k, x = .request c i k → (∀ o, Stage E h p ((settle t (k o) (s.g.note t (.got o))).2.acts t) (settle t (k o) (s.g.note t (.got o))).1) →
        ∃ y, (s.step E ev).tasks[t]? = some y ∧ Stage E h p ((s.step E ev).g.acts t) y := by
      intro c i k hxk hgo
      subst hxk
      rcases ev_eq with ⟨ok, rfl⟩ | rfl | rfl
      · exact same (by simp only [Sys.step, hx])
      · cases h : s.g.outcome c i with
        | none => exact same (by simp only [Sys.step, hx, h])
        | some o => exact put (k o) _ (by simp only [Sys.step, hx, h]) (hgo o)
      · exact same (by simp only [Sys.step, hx])
    generalize hl : s.g.acts t = l at hs
    cases hs with
    | opening r =>
      rcases ev_eq with ⟨ok, rfl⟩ | rfl | rfl
      · cases ok with
        | false =>
          refine put (boolK (.error .slConnection)) s.g (by simp only [Sys.step, hx, Bool.false_eq_true, if_false]) ?_
          change Stage E h p (s.g.acts t) (.done (.error .slConnection))
          rw [hl]
          exact .over _ _ (.unopened _)
        | true =>
          refine put ((afterOpen E r s.g.conns.length).bindE boolK) s.g.addConn (by simp only [Sys.step, hx, if_true]) ?_
          obtain ⟨k, hk, e⟩ := openK E r s.g.conns.length t s.g.addConn
          rw [e]
          change Stage E h p (s.g.acts t) (.sleeping k)
          rw [hl]
          exact .pausing _ k hk
      · exact same (by simp only [Sys.step, hx])
      · refine put (boolK (.error .cancelled)) s.g (by simp only [Sys.step, hx]) ?_
        change Stage E h p (s.g.acts t) (.done (.error .cancelled))
        rw [hl]
        exact .over _ _ (.unopened _)
    | pausing c k hk =>
      rcases ev_eq with ⟨ok, rfl⟩ | rfl | rfl
      · exact same (by simp only [Sys.step, hx])
      · exact put (k (.ok ())) s.g (by simp only [Sys.step, hx]) (pause_go hk t s.g _ hl)
      · exact put (k (.error .cancelled)) s.g (by simp only [Sys.step, hx]) (pause_go hk t s.g _ hl)
    | challenge c i k hk => exact req c i k rfl (fun o => challenge_go hk t _ o (by rw [acts_got, hl]; rfl))
    | login c i k hk b m hd => exact req c i k rfl (fun o => login_go hk hd t _ o (by rw [acts_got, hl]; rfl))
    | version c i k hk b b' m hd => exact req c i k rfl (fun o => ver_go hk hd t _ o (by rw [acts_got, hl]; rfl))
    | later c b b' m hd v l x hx' =>
      obtain ⟨y, l', h1, h2, h3⟩ := leaves_step (E := E) hx hx' ev ho
      refine ⟨y, h1, ?_⟩
      rw [h3, hl, List.append_assoc]
      exact .later c b b' m hd v _ y h2
    | over l r hb =>
      have := done_forever E [ev] hx
      refine ⟨_, this.1, ?_⟩
      rw [show (s.step E ev).g.acts t = s.g.acts t from this.2, hl]
      exact .over _ r hb

theorem stage_run : ∀ (es : List Ev) {s : Sys} {t : Nat} {x : Task}, s.tasks[t]? = some x → Stage E h p (s.g.acts t) x →
    ∃ y, (s.run E es).tasks[t]? = some y ∧ Stage E h p ((s.run E es).g.acts t) y
  | [], _, _, x, hx, hs => ⟨x, hx, hs⟩
  | ev :: es, s, t, x, hx, hs => by
    obtain ⟨y, h1, h2⟩ := stage_step hx hs ev
    exact stage_run es h1 h2

end

end SL
