import Verif.Lemmas.Calls
/-!
# The setters: validate against the cached data, then one managed request
-/
set_option linter.unusedVariables false

namespace SL

open Co (state modify makeRequest pause closeConn withLock tryExcept ofExcept)

/-- `if not ok: raise ValueError`. -/
def requireE (b : Except PyErr Bool) : Except PyErr Unit :=
  match b with
  | .ok true => .ok ()
  | .ok false => .error .valueError
  | .error e => .error e

/-- What a setter will send, given the cached data: message code and payload. -/
def setterPlan (E : Env) : Call → Option (Val → Except PyErr (Int × Except PyErr Bytes))
  | .setCircuit circuit st => some fun d => do
    requireE (knownIn "circuit" circuit d)
    requireE (.ok (validCircuitState st))
    .ok (12530, packObjs [.int 0, circuit, st])
  | .setHeatTemp body temp => some fun d => do
    requireE (knownIn "body" body d)
    requireE (validHeatTemp body temp d)
    .ok (12528, packObjs [.int 0, body, temp])
  | .setHeatMode body mode => some fun d => do
    requireE (knownIn "body" body d)
    requireE (validHeatMode mode)
    .ok (12538, packObjs [.int 0, body, mode])
  | .setColorLights cmd => some fun d => do
    requireE (pyBetween 0 cmd 21)
    .ok (12556, packObjs [.int 0, cmd])
  | .setScg a b c d => some fun data => do
    let v ← asScreenLogic (scgValues E a b c d data)
    .ok (12576, packObjs [.int 0, v.1, v.2.1, v.2.2.1, v.2.2.2])
  | .setChem a b c d e f => some fun data => do
    let v ← asScreenLogic (chemValues a b c d e f data)
    let ph ← phHundredths v.1
    .ok (12594, packObjs [.int 0, ph, v.2.1, v.2.2.1, v.2.2.2.1, v.2.2.2.2.1, v.2.2.2.2.2])
  | .setDateTime date dst => some fun data => do
    if date = none ∧ dst = .null then .error .valueError
    else
      let t ← dateOrCached E date data
      let v ← orCached dst [.s "controller", .s "date_time", .s "auto_dst"] data
      .ok (8112, dateTimePayload t v)
  | _ => none

/-- The coroutine of a setter, once it knows what to send. -/
def setterCo : Except PyErr (Int × Except PyErr Bytes) → Co Res
  | .error e => .throw e
  | .ok p => connectedRequest (ackRequest p.1 p.2) >>= fun _ => .ret .none

/-- Leading looks at the state. -/
def Co.look {α : Type} (g : Gw) : Co α → Co α
  | .get k => (k g).look g
  | x => x

theorem settle_look (t : Nat) (g : Gw) : ∀ x : Co Res, settle t x g = settle t (x.look g) g
  | .get k => settle_look t g (k g)
  | .ret _ | .throw _ | .upd _ _ | .request _ _ _ _ _ | .openConn _ _ | .sleep _ | .close _ _ _ | .acquire _ => rfl

theorem wp_look {α : Type} (M : Mon) (t : Nat) (Q : List Act → Except PyErr α → Gw → Prop) (h : List Act) (g : Gw) :
    ∀ x : Co α, x.wp M t Q h g ↔ (x.look g).wp M t Q h g
  | .get k => wp_look M t Q h g (k g)
  | .ret _ | .throw _ | .upd _ _ | .request _ _ _ _ _ | .openConn _ _ | .sleep _ | .close _ _ _ | .acquire _ => Iff.rfl

theorem setter_look (E : Env) {a : Call} {f : Val → Except PyErr (Int × Except PyErr Bytes)} (h : setterPlan E a = some f)
    (g : Gw) : (a.co E).look g = (setterCo (f g.data)).look g := by
  cases a with
  | setCircuit circuit st =>
    cases h
    change Co.look g (((require (knownIn "circuit" circuit g.data) >>= fun _ => require (.ok (validCircuitState st)) >>= fun _ =>
      connectedRequest (requestButton circuit st)).bindE _)) = _
    generalize hw : setterCo _ = w; dsimp only at hw; subst hw
    rcases knownIn "circuit" circuit g.data with e | b
    · rfl
    · cases b
      · rfl
      · cases validCircuitState st <;> rfl
  | setHeatTemp body temp =>
    cases h
    change Co.look g (((require (knownIn "body" body g.data) >>= fun _ => require (validHeatTemp body temp g.data) >>= fun _ =>
      connectedRequest (requestHeatTemp body temp)).bindE _)) = _
    generalize hw : setterCo _ = w; dsimp only at hw; subst hw
    rcases knownIn "body" body g.data with e | b
    · rfl
    · cases b
      · rfl
      · rcases validHeatTemp body temp g.data with e | b
        · rfl
        · cases b <;> rfl
  | setHeatMode body mode =>
    cases h
    change Co.look g (((require (knownIn "body" body g.data) >>= fun _ => require (validHeatMode mode) >>= fun _ =>
      connectedRequest (requestHeatMode body mode)).bindE _)) = _
    generalize hw : setterCo _ = w; dsimp only at hw; subst hw
    rcases knownIn "body" body g.data with e | b
    · rfl
    · cases b
      · rfl
      · rcases validHeatMode mode with e | b
        · rfl
        · cases b <;> rfl
  | setColorLights cmd =>
    cases h
    change Co.look g (((require (pyBetween 0 cmd 21) >>= fun _ => connectedRequest (requestLights cmd)).bindE _)) = _
    generalize hw : setterCo _ = w; dsimp only at hw; subst hw
    rcases pyBetween 0 cmd 21 with e | b
    · rfl
    · cases b <;> rfl
  | setScg a b c d =>
    cases h
    change Co.look g (((ofExcept (asScreenLogic (scgValues E a b c d g.data)) >>= fun v =>
      connectedRequest (requestSetScg v.1 v.2.1 v.2.2.1 v.2.2.2)).bindE _)) = _
    generalize hw : setterCo _ = w; dsimp only at hw; subst hw
    rcases asScreenLogic (scgValues E a b c d g.data) with e | v
    · rfl
    · rfl
  | setChem a b c d e f =>
    cases h
    change Co.look g (((ofExcept (asScreenLogic (chemValues a b c d e f g.data)) >>= fun v => ofExcept (phHundredths v.1) >>= fun ph =>
      connectedRequest (requestSetChem ph v.2.1 v.2.2.1 v.2.2.2.1 v.2.2.2.2.1 v.2.2.2.2.2)).bindE _)) = _
    generalize hw : setterCo _ = w; dsimp only at hw; subst hw
    rcases asScreenLogic (chemValues a b c d e f g.data) with e | v
    · rfl
    · obtain ⟨p, v⟩ := v
      change Co.look g (((ofExcept (phHundredths p) >>= fun ph =>
        connectedRequest (requestSetChem ph v.1 v.2.1 v.2.2.1 v.2.2.2.1 v.2.2.2.2)).bindE _)) = Co.look g (setterCo (do
          let ph ← phHundredths p
          .ok (12594, packObjs [.int 0, ph, v.1, v.2.1, v.2.2.1, v.2.2.2.1, v.2.2.2.2])))
      cases phHundredths p <;> rfl
  | setDateTime date dst =>
    cases h
    simp only [Call.co, setDateTime]
    by_cases hn : date = none ∧ dst = .null
    · simp only [hn, and_self, if_true]
      rfl
    · simp only [hn, if_false]
      change Co.look g (((ofExcept (dateOrCached E date g.data) >>= fun x => ofExcept (orCached dst _ g.data) >>= fun v =>
        connectedRequest (requestSetDateTime x v)).bindE _)) = _
      rcases dateOrCached E date g.data with e | x
      · rfl
      · rcases orCached dst [.s "controller", .s "date_time", .s "auto_dst"] g.data with e | v
        · rfl
        · rfl
  | _ => cases h

theorem bind_ok {α β : Type} {x : Except PyErr α} {f : α → Except PyErr β} {b : β} (h : (x >>= f) = .ok b) :
    ∃ a, x = .ok a ∧ f a = .ok b := by
  cases x with
  | error e => cases h
  | ok a => exact ⟨a, rfl, h⟩

theorem setter_code (E : Env) {a : Call} {f : Val → Except PyErr (Int × Except PyErr Bytes)} (h : setterPlan E a = some f)
    {d : Val} {p : Int × Except PyErr Bytes} (hp : f d = .ok p) : p.1 ∉ connectCodes := by
  have fin : ∀ {c : Int} {q : Except PyErr Bytes}, c ∉ connectCodes → (Except.ok (c, q) : Except PyErr _) = .ok p → p.1 ∉ connectCodes := by
    intro c q hc he
    cases he
    exact hc
  cases a with
  | setCircuit circuit st =>
    cases h
    obtain ⟨_, _, hp⟩ := bind_ok hp
    obtain ⟨_, _, hp⟩ := bind_ok hp
    exact fin (by decide) hp
  | setHeatTemp body temp =>
    cases h
    obtain ⟨_, _, hp⟩ := bind_ok hp
    obtain ⟨_, _, hp⟩ := bind_ok hp
    exact fin (by decide) hp
  | setHeatMode body mode =>
    cases h
    obtain ⟨_, _, hp⟩ := bind_ok hp
    obtain ⟨_, _, hp⟩ := bind_ok hp
    exact fin (by decide) hp
  | setColorLights cmd =>
    cases h
    obtain ⟨_, _, hp⟩ := bind_ok hp
    exact fin (by decide) hp
  | setScg a b c d =>
    cases h
    obtain ⟨_, _, hp⟩ := bind_ok hp
    exact fin (by decide) hp
  | setChem a b c d e f =>
    cases h
    obtain ⟨_, _, hp⟩ := bind_ok hp
    obtain ⟨_, _, hp⟩ := bind_ok hp
    exact fin (by decide) hp
  | setDateTime date dst =>
    cases h
    simp only at hp
    split at hp
    · cases hp
    · obtain ⟨_, _, hp⟩ := bind_ok hp
      obtain ⟨_, _, hp⟩ := bind_ok hp
      exact fin (by decide) hp
  | _ => cases h

section setters
variable {E : Env} {U : Prop} {X : List Act → Val → Prop} [hX : XC E X] {I : List Act → Prop} {t : Nat} {L N : Prop}

/-- What a setter does. -/
theorem wp_setter {a : Call} {f : Val → Except PyErr (Int × Except PyErr Bytes)} (hf : setterPlan E a = some f) {g : Gw}
    (hI : ∀ code payload h', f g.data = .ok (code, payload) → Sent [] code payload 2 h' → I h') (s : St U X t L N [] g) :
    (a.co E).wp (mon E U X I) t (fun h' o g' => St U X t L N h' g' ∧
      (∀ e, f g.data = .error e → h' = [] ∧ o = .error e) ∧
      (∀ code payload, f g.data = .ok (code, payload) → Sent [] code payload 2 h' ∧
        (∀ r, o = .ok r → r = .none ∧ ∃ data, payload = .ok data ∧ EndsWith h' code data (some [])))) [] g := by
  rw [wp_look, setter_look E hf, ← wp_look]
  cases hp : f g.data with
  | error e => exact ⟨s, by simp, by simp⟩
  | ok p =>
    obtain ⟨code, payload⟩ := p
    refine Co.wp_bind' _ _ _ _ (Co.wp_mono ?_ _ _ _ (wp_connectedAck (E := E) (l0 := []) (setter_code E hf hp)
      (fun h' hs => hI code payload h' hp hs) s rfl))
    intro h' o g' hq
    cases o with
    | error e =>
      refine ⟨hq.1, by simp, fun code' payload' he => ?_⟩
      cases he
      exact ⟨hq.2.1, by simp⟩
    | ok u =>
      refine ⟨hq.1, by simp, fun code' payload' he => ?_⟩
      cases he
      refine ⟨hq.2.1, fun r hr => ?_⟩
      cases hr
      exact ⟨rfl, hq.2.2 rfl⟩

end setters

/-- Every API call respects the monitor. -/
theorem wp_any {E : Env} {U : Prop} {t : Nat} (a : Call) (hU : U → ∀ code data, a = .send code data → code ≠ 12522 ∧ code ≠ 12524)
    {g : Gw} (s : St U noX t False False [] g) :
    (a.co E).wp (mon E U noX (fun _ => True)) t (fun _ _ _ => True) [] g := by
  have hT : HC (fun _ => True) (fun _ => True) := ⟨fun _ _ => trivial, fun _ _ _ _ => trivial⟩
  have set : ∀ {f}, setterPlan E a = some f → (a.co E).wp (mon E U noX (fun _ => True)) t (fun _ _ _ => True) [] g := by
    intro f hf
    exact Co.wp_mono (fun _ _ _ _ => trivial) _ _ _ (wp_setter (E := E) hf (fun _ _ _ _ _ => trivial) s)
  have seq : ∀ {α : Type} {x : Co α} {k : α → Res} {Q : List Act → Except PyErr α → Gw → Prop},
      x.wp (mon E U noX (fun _ => True)) t Q [] g →
      (x >>= fun v => (pure (k v) : Co Res)).wp (mon E U noX (fun _ => True)) t (fun _ _ _ => True) [] g := by
    intro α x k Q hx
    refine Co.wp_bind' _ _ _ _ (Co.wp_mono ?_ _ _ _ hx)
    intro h o g _
    cases o <;> trivial
  have pl : ∀ {key : Path} {D : Gw → Decoder} {code : Int} {payload : Except PyErr Bytes}, (∀ g, (D g).query = some (code, payload)) →
      (∀ g, (D g).rawPath = key) → code ∉ connectCodes →
      (poll key (queryRequest E D code payload) >>= fun _ => (pure Res.none : Co Res)).wp (mon E U noX (fun _ => True)) t (fun _ _ _ => True) [] g := by
    intro key D code payload h1 h2 h3
    exact seq (k := fun _ => Res.none) (wp_pollSent (E := E) (l0 := []) h1 h2 h3 (fun _ _ _ => trivial) s rfl)
  cases a with
  | connect a => exact seq (wp_asyncConnect (E := E) hT a s trivial)
  | disconnect force => exact seq (k := fun _ => Res.none) (wp_asyncDisconnect (E := E) hT force s trivial)
  | update => exact seq (k := fun _ => Res.none) (wp_asyncUpdate (E := E) (Kn := False) (F := 0) (fun k => k.elim) (fun _ _ => trivial) s rfl)
  | getConfig => exact seq (k := fun _ => Res.none) (wp_getConfig (E := E) hT s trivial)
  | getStatus => exact pl (D := fun _ => .status) (fun _ => rfl) (fun _ => rfl) (by decide)
  | getPumps =>
    exact seq (k := fun _ => Res.none) (wp_getPumpsFrom (E := E) (Kn := False) (F := 0) (p0 := []) (post := []) (fun k => k.elim)
      (fun _ _ => trivial) 8 0 rfl s ⟨[], List.Sublist.refl _, ⟨.nil, fun _ => rfl⟩, fun k => k.elim⟩)
  | getChemistry => exact pl (D := fun _ => .chemistry) (fun _ => rfl) (fun _ => rfl) (by decide)
  | getScg => exact pl (D := fun _ => .scg) (fun _ => rfl) (fun _ => rfl) (by decide)
  | getDatetime => exact pl (D := fun g => .dateTime g.now) (fun _ => rfl) (fun _ => rfl) (by decide)
  | setCircuit a b => exact set rfl
  | setHeatTemp a b => exact set rfl
  | setHeatMode a b => exact set rfl
  | setColorLights a => exact set rfl
  | setScg a b c d => exact set rfl
  | setChem a b c d e f => exact set rfl
  | setDateTime a b => exact set rfl
  | subscribe cb code => exact seq (wp_subscribe (E := E) hT cb code s trivial)
  | send code data => exact seq (wp_send (E := E) (fun u => hU u code data rfl) (fun _ _ => trivial) s rfl)

theorem wp_pingCo {E : Env} {U : Prop} {t : Nat} {g : Gw} (s : St U noX t False False [] g) :
    pingCo.wp (mon E U noX (fun _ => True)) t (fun _ _ _ => True) [] g := by
  refine Co.wp_bind' _ _ _ _ (Co.wp_mono ?_ _ _ _ (wp_pingTask (E := E) (fun _ _ => trivial) s rfl))
  intro h o g _
  cases o <;> trivial

theorem wp_unsubCo {E : Env} {U : Prop} {t : Nat} {g : Gw} (s : St U noX t False False [] g) :
    unsubCo.wp (mon E U noX (fun _ => True)) t (fun _ _ _ => True) [] g := by
  refine Co.wp_bind' _ _ _ _ (Co.wp_mono ?_ _ _ _ (wp_unsubscribeGateway (E := E) (H := fun _ => True)
    ⟨fun _ _ => trivial, fun _ _ _ _ => trivial⟩ s trivial))
  intro h o g _
  cases o <;> trivial

end SL
