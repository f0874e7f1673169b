import Verif.Lemmas.Piece
/-!
# The client manager's handlers when it is attached to a connection
-/
set_option linter.unusedVariables false

namespace SL

open Co (state modify makeRequest pause closeConn withLock tryExcept ofExcept)

section
variable (E : Env)

theorem fine_connect (a : ConnectArgs) : Fine (asyncConnect a) := by
  refine ⟨fun g => ?_, fun J hJ t g h => ?_⟩
  · change Co.Att _ (if g.isConnected then _ else _)
    split
    · trivial
    · refine ⟨.inl (fun _ => rfl), fun g => ?_⟩
      change Co.Att _ (if g.noIp then _ else _)
      split
      · trivial
      · exact fun o => ⟨ofExcept_att o, (calm_ofExcept o).keeps⟩
  · simp only [asyncConnect, Co.now]
    split
    · exact h
    · change Co.now _ _ _ (if (g.remember a).noIp then _ else _) (g.remember a)
      have h1 : J (g.remember a) := hJ.same g _ ⟨rfl, rfl, rfl, rfl⟩ h
      split
      · exact h1
      · exact hJ.same (g.remember a) _ ⟨rfl, rfl, rfl, rfl⟩ h1

theorem fine_ack (code : Int) (payload : Except PyErr Bytes) (c : Nat) (r : Int) : Fine (ackRequest code payload c r) :=
  fine_bind (fine_ofExcept _) (fun data => fine_bind (fine_make _ _ _ _) (fun v => fine_ite (fine_ret _) (fine_throw _)))

theorem fine_decode (D : Decoder) (b : Bytes) : Fine (decodeCo E D b) :=
  fine_state (fun g => fine_bind (fine_modify (fun _ => ⟨rfl, rfl, rfl, rfl⟩)) (fun _ => fine_ofExcept _))

theorem fine_query (D : Gw → Decoder) (code : Int) (payload : Except PyErr Bytes) (c : Nat) (r : Int) :
    Fine (queryRequest E D code payload c r) := by
  refine fine_bind (fine_ofExcept _) (fun data => fine_bind (fine_make _ _ _ _) (fun v => ?_))
  split
  · exact fine_state (fun g => fine_bind (fine_decode E _ _) (fun _ => fine_ret _))
  · exact fine_ret _

theorem att_unsubscribeGateway : unsubscribeGateway.Att (fun _ => True) := by
  intro g
  change Co.Att _ (if g.attached then _ else _)
  split
  · refine att_lock (fun g => ?_)
    change Co.Att _ (match g.isClient, g.cmProto with | true, some c => _ | _, _ => _)
    split
    · exact ⟨.inl (fun _ => rfl), .inl (fun _ => rfl), .inl (fun _ => rfl), (fine_try (fine_ack _ _ _ _) (fun e => fine_ite (fine_ret _) (fine_throw _))).1⟩
    · trivial
  · trivial

theorem calm_unsubscribeGateway : Calm unsubscribeGateway := by
  refine calm_state (fun g0 => calm_ite (calm_lock ?_) (calm_ret _))
  intro J hJ t g h
  change Co.now _ _ _ (match g.isClient, g.cmProto with | true, some c => _ | _, _ => _) g
  rw [hJ.client g h]
  exact h

theorem fine_disconnect (force : Bool) : Fine (asyncDisconnect force) := by
  refine fine_state (fun g => fine_bind (fine_when ⟨att_unsubscribeGateway, calm_unsubscribeGateway⟩) (fun _ => fine_state (fun g => ?_)))
  split
  · exact fine_close _ _
  · exact fine_throw _

theorem fine_attempt {α : Type} (r : Int) {method : Nat → Int → Co α} (hm : ∀ c r, Fine (method c r)) : Fine (attemptRequest r method) := by
  refine fine_bind (fine_connect _) (fun ok => fine_ite (fine_state (fun g => ?_)) (fine_throw _))
  split
  · exact hm _ _
  · exact fine_throw _

theorem fine_connected {α : Type} {method : Nat → Int → Co α} (hm : ∀ c r, Fine (method c r)) : Fine (connectedRequest method) :=
  fine_state (fun g => fine_try (fine_attempt _ hm) (fun e => fine_ite
    (fine_bind (fine_disconnect _) (fun _ => fine_bind fine_pause (fun _ => fine_attempt _ hm))) (fine_throw _)))

theorem startAttempt_now {w : World} {t : Nat} (ht : t < w.reqs.length) (rq q : Req) (hq : (w.startAttempt t rq).reqs[t]? = some q)
    (v : Option Bytes) (hv : q.phase = .done (.ret v)) : v = none := by
  unfold World.startAttempt at hq
  split at hq
  · simp only [World.setReq] at hq
    rw [List.getElem?_set_self ht] at hq
    cases hq
    cases hv
    rfl
  · split at hq
    · simp only [World.setReq] at hq
      rw [List.getElem?_set_self ht] at hq
      cases hq
      cases hv
    · split at hq
      · simp only [World.setReq] at hq
        rw [List.getElem?_set_self ht] at hq
        cases hq
        cases hv
      · simp only at hq
        split at hq
        · simp only [World.setReq] at hq
          rw [List.getElem?_set_self ht] at hq
          cases hq
          simp only [Req.onCancelled] at hv
          split at hv
          · cases hv; rfl
          · cases hv
        · simp only [World.setReq] at hq
          rw [List.getElem?_set_self ht] at hq
          cases hq
          cases hv

/-- A request that ends without having been suspended has no answer. -/
theorem ask_now {g : Gw} {t c : Nat} {code : Int} {data : Bytes} {r : Int} {v : Option Bytes}
    (h : (g.ask t c code data r).2.outcome c (g.ask t c code data r).1 = some (.ok v)) : v = none := by
  cases hx : g.conns[c]? with
  | none =>
    simp [Gw.ask, Gw.outcome, Gw.note, Gw.net, List.getElem?_modify, hx] at h
  | some x =>
    obtain ⟨h1, h2⟩ := conns_ask g t c code data r hx
    rw [h2] at h
    simp only [Gw.outcome, h1, Option.bind_some, World.outcome] at h
    have key : ∀ q : Req, ((x.w.step (.call code data r)).step (.run x.w.reqs.length)).reqs[x.w.reqs.length]? = some q →
        ∀ v, q.phase = .done (.ret v) → v = none := by
      intro q hq
      have e : ((x.w.step (.call code data r)).step (.run x.w.reqs.length)) =
          World.startAttempt (x.w.step (.call code data r)) x.w.reqs.length { code := code, data := data, maxRetries := r } := by
        simp only [World.step, List.getElem?_concat_length, if_true]
      rw [e] at hq
      exact startAttempt_now (by simp [World.step]) _ q hq
    split at h
    · rename_i q hq
      have kk := key q hq
      split at h
      · rename_i v' hv'
        cases h
        exact kk _ hv'
      · cases h
      · cases h
    · cases h

/-- An acknowledged request never ends well without having been suspended. -/
theorem now_ack {J : Gw → Prop} (hJ : Still J) (code : Int) (payload : Except PyErr Bytes) (c : Nat) (r : Int) (t : Nat) (g : Gw) (h : J g) :
    (ackRequest code payload c r).now t J (fun o g => J g ∧ ∀ v, o ≠ .ok v) g := by
  cases payload with
  | error e => exact ⟨h, by simp⟩
  | ok data =>
    have h1 := hJ.same _ _ (same_ask g t c code data r) h
    refine ⟨fun _ => h1, fun o ho => ?_⟩
    have h2 : J ((g.ask t c code data r).2.note t (.got o)) := hJ.same (g.ask t c code data r).2 _ ⟨rfl, rfl, rfl, rfl⟩ h1
    cases o with
    | error e => exact ⟨h2, by simp⟩
    | ok v =>
      have := ask_now ho
      subst this
      exact ⟨h2, by simp⟩

theorem now_connect {J : Gw → Prop} (hJ : Still J) (t : Nat) (g : Gw) (h : J g) :
    (asyncConnect {}).now t J (fun o g => J g) g := (fine_connect {}).2 J hJ t g h

theorem now_managed {J : Gw → Prop} (hJ : Still J) (code : Int) (payload : Except PyErr Bytes) (t : Nat) (g : Gw) (h : J g) :
    (connectedRequest (fun c r => ackRequest code payload c r)).now t J (fun o g => J g ∧ ∀ v, o ≠ .ok v) g := by
  have hatt : ∀ n g, J g → (attemptRequest n (fun c r => ackRequest code payload c r)).now t J (fun o g => J g ∧ ∀ v, o ≠ .ok v) g := by
    intro n g h
    refine Co.now_bind _ _ _ (Co.now_mono ?_ _ _ (now_connect hJ t g h))
    intro o g h
    cases o with
    | error e => exact ⟨h, by simp⟩
    | ok b =>
      cases b with
      | false => exact ⟨h, by simp⟩
      | true =>
        change Co.now _ _ _ (match g.protocol with | some c => _ | none => _) g
        split
        · exact now_ack hJ _ _ _ _ _ _ h
        · exact ⟨h, by simp⟩
  change Co.now _ _ _ (tryExcept _ _) g
  refine Co.now_bindE _ _ _ (Co.now_mono ?_ _ _ (hatt _ g h))
  intro o g h
  cases o with
  | ok v => exact absurd rfl (h.2 v)
  | error e =>
    simp only
    split
    · refine Co.now_bind _ _ _ (Co.now_mono ?_ _ _ ((fine_disconnect true).2 J hJ t g h.1))
      intro o g h
      cases o with
      | error e => exact ⟨h, by simp⟩
      | ok u => exact h
    · exact ⟨h.1, by simp⟩

theorem att_managed (code : Int) (payload : Except PyErr Bytes) :
    (connectedRequest (fun c r => ackRequest code payload c r)).Att (fun o => ∀ v, o ≠ .ok v) := by
  have hack : ∀ c r, (ackRequest code payload c r).Att (fun o => ∀ v, o ≠ .ok v) := by
    intro c r
    cases payload with
    | error e => trivial
    | ok data =>
      intro o
      cases o with
      | error e => trivial
      | ok v =>
        change Co.Att _ (if v = some [] then _ else _)
        split <;> trivial
  have hatt : ∀ n, (attemptRequest n (fun c r => ackRequest code payload c r)).Att (fun o => ∀ v, o ≠ .ok v) := by
    intro n
    refine Co.att_bindE (R := fun _ => True) ?_ _ (fine_connect {}).1
    intro o
    cases o with
    | error e => exact ⟨trivial, fun _ t g h => ⟨h, by simp⟩⟩
    | ok b =>
      cases b with
      | false => exact ⟨trivial, fun _ t g h => ⟨h, by simp⟩⟩
      | true =>
        refine ⟨fun g => ?_, fun _ t g h => ?_⟩
        · change Co.Att _ (match g.protocol with | some c => _ | none => _)
          split
          · exact hack _ _
          · trivial
        · change Co.now _ _ _ (match g.protocol with | some c => _ | none => _) g
          split
          · exact now_ack readyAny_still _ _ _ _ _ _ h
          · exact ⟨h, by simp⟩
  intro g
  change Co.Att _ (tryExcept _ _)
  refine Co.att_bindE (R := fun o => ∀ v, o ≠ .ok v) ?_ _ (hatt _)
  intro o
  cases o with
  | ok v => exact ⟨trivial, fun h => absurd rfl (h v)⟩
  | error e =>
    simp only
    split
    · refine ⟨Co.att_bindE (R := fun _ => True) ?_ _ (fine_disconnect true).1, fun _ => ?_⟩
      · intro o
        cases o with
        | error e => exact ⟨trivial, fun _ t g h => ⟨h, by simp⟩⟩
        | ok u =>
          refine ⟨?_, fun _ t g h => h⟩
          intro o
          cases o with
          | error e => trivial
          | ok u => exact hatt _
      · refine keeps_bindE (fine_disconnect true).2.keeps (fun o _ => ?_)
        cases o with
        | error e => exact fun t g h => ⟨h, by simp⟩
        | ok u => exact fun t g h => h
    · exact ⟨trivial, fun _ t g h => ⟨h, by simp⟩⟩

theorem att_subscribeGateway : subscribeGateway.Att (fun _ => True) := by
  intro g
  change Co.Att _ (if g.attached then _ else _)
  split
  · refine att_lock (fun g => ?_)
    change Co.Att _ (if g.isClientNow then _ else _)
    split
    · trivial
    · refine Co.att_bindE (R := fun o => ∀ v, o ≠ .ok v) ?_ _ (att_managed _ _)
      intro o
      cases o with
      | error e => exact ⟨trivial, fun _ => (calm_throw e).keeps⟩
      | ok u =>
        refine ⟨⟨.inl (fun _ => rfl), fun g => ?_⟩, fun h => absurd rfl (h u)⟩
        change Co.Att _ (match g.cmProto with | some c => _ | none => _)
        split
        · exact ⟨.inl (fun _ => rfl), trivial⟩
        · trivial
  · trivial

theorem calm_subscribeGateway : Calm subscribeGateway := by
  refine calm_state (fun g0 => calm_ite (calm_lock (calm_state (fun g => calm_ite (calm_ret _) ?_))) (calm_ret _))
  intro J hJ t g h
  refine Co.now_bind _ _ _ (Co.now_mono ?_ _ _ (now_managed hJ _ _ t g h))
  intro o g h
  cases o with
  | ok v => exact absurd rfl (h.2 v)
  | error e => exact h.1

/-- The handlers at connection `c` are exactly those of the codes in `done`. -/
def RegOk (c : Nat) (L done : List (Nat × Nat)) (g : Gw) : Prop :=
  g.isClient = false ∧ g.cmProto = some c ∧ g.listeners = L ∧ ∀ x, g.conns[c]? = some x →
    (∀ code : Nat, code ∈ done.map (·.1) → aget (code : Int) x.w.p.cbs = some (commonHandler code)) ∧
    (∀ code : Int, aget code x.w.p.cbs ≠ none → ∃ n : Nat, code = n ∧ n ∈ done.map (·.1))

theorem regOk_register {c : Nat} {L done : List (Nat × Nat)} {g : Gw} (h : RegOk c L done g) (code s : Nat) :
    RegOk c L (done ++ [(code, s)]) (g.net c (.register code (commonHandler code))) := by
  obtain ⟨h1, h2, h3, h4⟩ := h
  refine ⟨h1, h2, h3, ?_⟩
  intro x hx
  simp only [Gw.net, List.getElem?_modify, if_true] at hx
  cases hy : g.conns[c]? with
  | none => simp [hy] at hx
  | some y =>
    simp only [hy, Option.map_eq_map, Option.map_some, Option.some.injEq] at hx
    subst hx
    obtain ⟨h5, h6⟩ := h4 y hy
    have hcb : (y.w.step (.register code (commonHandler code))).p.cbs = aset (code : Int) (commonHandler code) y.w.p.cbs := by rw [step_cbs]
    simp only [hcb]
    refine ⟨?_, ?_⟩
    · intro code' hm
      rw [aget_aset]
      split
      · rename_i e
        have : code = code' := by omega
        rw [this]
      · rename_i e
        simp only [List.map_append, List.map_cons, List.map_nil, List.mem_append, List.mem_singleton] at hm
        rcases hm with hm | hm
        · exact h5 _ hm
        · subst hm
          exact absurd rfl e
    · intro code' hm
      rw [aget_aset] at hm
      split at hm
      · rename_i e
        exact ⟨code, e.symm, by simp⟩
      · obtain ⟨n, e, hn⟩ := h6 _ hm
        exact ⟨n, e, by simp [hn]⟩

theorem now_registerAll (t c : Nat) (L : List (Nat × Nat)) {I : Gw → Prop} : ∀ (l done : List (Nat × Nat)) (g : Gw), RegOk c L done g →
    (registerAll c l).now t I (fun o g => o = .ok () ∧ RegOk c L (done ++ l) g) g
  | [], done, g, h => by
    rw [List.append_nil]
    exact ⟨rfl, h⟩
  | (code, s) :: l, done, g, h => by
    have h1 := regOk_register h code s
    have := now_registerAll t c L (I := I) l _ _ h1
    rw [List.append_assoc] at this
    exact this

theorem att_registerAll (c : Nat) : ∀ l, (registerAll c l).Att (fun _ => True)
  | [] => trivial
  | (code, _) :: rest => ⟨.inl (fun _ => rfl), att_registerAll c rest⟩

theorem regOk_ready {c : Nat} {L : List (Nat × Nat)} {g : Gw} (h : RegOk c L L g) : Ready c g := by
  obtain ⟨h1, h2, h3, h4⟩ := h
  have key : ∀ code : Nat, (aget code L).isSome ↔ code ∈ L.map (·.1) := by
    intro code
    constructor
    · intro hs
      obtain ⟨v, hv⟩ := Option.isSome_iff_exists.1 hs
      exact List.mem_map.2 ⟨(code, v), mem_of_aget hv, rfl⟩
    · intro hm
      obtain ⟨x, hx, rfl⟩ := List.mem_map.1 hm
      exact mem_aget_isSome hx
  refine ⟨h1, h2, fun _ x hx => ?_⟩
  obtain ⟨h5, h6⟩ := h4 x hx
  refine ⟨?_, ?_⟩
  · intro code hs
    rw [h3] at hs
    exact h5 code ((key code).1 hs)
  · intro code hs
    obtain ⟨n, e, hn⟩ := h6 code hs
    rw [h3]
    exact ⟨n, e, (key n).2 hn⟩

theorem att_attach (c : Nat) : (attach c).Att (fun _ => True) := by
  refine ⟨.inr ⟨c, rfl, fun t g => ?_⟩, fun g => ?_⟩
  · change Co.now _ _ _ (if (g.attachTo c).clientNeeded then _ else _) (g.attachTo c)
    split
    · have h0 : RegOk c g.listeners [] ((g.attachTo c).net c .unregisterAll) := by
        refine ⟨rfl, rfl, rfl, ?_⟩
        intro x hx
        have hx' : (g.conns.modify c (fun x => { x with w := x.w.step .unregisterAll }))[c]? = some x := hx
        rw [List.getElem?_modify] at hx'
        cases hy : g.conns[c]? with
        | none => simp [hy] at hx'
        | some y =>
          simp only [hy, if_true, Option.map_eq_map, Option.map_some, Option.some.injEq] at hx'
          subst hx'
          refine ⟨by simp, ?_⟩
          intro code hs
          have hcb : (y.w.step .unregisterAll).p.cbs = [] := by rw [step_cbs]
          simp only [hcb] at hs
          exact absurd rfl hs
      change Co.now _ _ _ (registerAll c g.listeners >>= fun _ => subscribeGateway) ((g.attachTo c).net c .unregisterAll)
      refine Co.now_bind _ _ _ (Co.now_mono ?_ _ _ (now_registerAll t c g.listeners g.listeners [] _ h0))
      rintro o g1 ⟨rfl, h1⟩
      rw [List.nil_append] at h1
      exact calm_subscribeGateway.keeps t g1 ⟨c, regOk_ready h1⟩
    · rename_i hn
      have hl : g.listeners = [] := by simpa [Gw.clientNeeded, Gw.attachTo] using hn
      exact ⟨⟨c, rfl, rfl, fun h => absurd hl h⟩, trivial⟩
  · change Co.Att _ (if g.clientNeeded then _ else _)
    split
    · refine ⟨.inl (fun _ => rfl), ?_⟩
      change Co.Att _ (registerAll c g.listeners >>= fun _ => subscribeGateway)
      refine Co.att_bindE (R := fun _ => True) ?_ _ (att_registerAll c _)
      intro o
      cases o with
      | error e => exact ⟨trivial, fun _ => (calm_throw e).keeps⟩
      | ok u => exact ⟨att_subscribeGateway, fun _ => calm_subscribeGateway.keeps⟩
    · trivial

theorem fine_poll {method : Nat → Int → Co (Option Bytes)} (key : Path) (hm : ∀ c r, Fine (method c r)) : Fine (poll key method) := by
  refine fine_bind (fine_connected hm) (fun raw => ?_)
  split
  · exact fine_modify (fun _ => ⟨rfl, rfl, rfl, rfl⟩)
  · exact fine_ret _

theorem fine_requestPump (j : Int) (c : Nat) (r : Int) : Fine (requestPump E j c r) :=
  fine_query E (fun _ => .pump j) 12584 (packObjs [.int 0, .int j]) c r

theorem fine_getPump (i : Nat) : Fine (getPump E i) := by
  have q : ∀ c r, Fine (requestPump E i c r) := by
    generalize (i : Int) = j
    exact fine_requestPump E j
  simp only [getPump]
  generalize requestPump E i = m at q
  refine fine_state (fun g => fine_bind (fine_ofExcept _) (fun f => ?_))
  split
  · exact fine_bind (fine_modify (fun _ => ⟨rfl, rfl, rfl, rfl⟩)) (fun _ => fine_poll _ q)
  · exact fine_ret _

theorem fine_getPumpsFrom : ∀ n i, Fine (getPumpsFrom E n i)
  | 0, _ => fine_ret _
  | n + 1, i => fine_bind (fine_getPump E i) (fun _ => fine_getPumpsFrom n (i + 1))

theorem fine_update : Fine (asyncUpdate E) := by
  have q : ∀ (D : Gw → Decoder) code payload, ∀ c r, Fine (queryRequest E D code payload c r) := fun D code payload c r => fine_query E D _ _ _ _
  exact fine_state (fun g => fine_ite (fine_bind (fine_poll _ (q _ _ _)) (fun _ => fine_bind (fine_getPumpsFrom E 8 0) (fun _ =>
    fine_bind (fine_poll _ (q _ _ _)) (fun _ => fine_bind (fine_poll _ (q _ _ _)) (fun _ => fine_poll _ (q _ _ _)))))) (fine_throw _))

theorem fine_require (b : Except PyErr Bool) : Fine (require b) := by
  cases b with
  | error e => exact fine_throw e
  | ok b => cases b <;> first | exact fine_ret _ | exact fine_throw _

/-- Every API call but `async_subscribe`. -/
theorem fine_call (a : Call) (hb : ∀ x y, a ≠ .subscribe x y) : Fine (a.co E) := by
  have q : ∀ (D : Gw → Decoder) code payload, ∀ c r, Fine (queryRequest E D code payload c r) := fun D code payload c r => fine_query E D _ _ _ _
  have k : ∀ code payload, ∀ c r, Fine (ackRequest code payload c r) := fun code payload c r => fine_ack _ _ _ _
  have rq := fine_require
  cases a with
  | connect x => exact fine_bind (fine_connect x) (fun _ => fine_ret _)
  | disconnect force => exact fine_bind (fine_disconnect force) (fun _ => fine_ret _)
  | update => exact fine_bind (fine_update E) (fun _ => fine_ret _)
  | getConfig => exact fine_bind (fine_poll _ (q _ _ _)) (fun _ => fine_ret _)
  | getStatus => exact fine_bind (fine_poll _ (q _ _ _)) (fun _ => fine_ret _)
  | getPumps => exact fine_bind (fine_getPumpsFrom E 8 0) (fun _ => fine_ret _)
  | getChemistry => exact fine_bind (fine_poll _ (q _ _ _)) (fun _ => fine_ret _)
  | getScg => exact fine_bind (fine_poll _ (q _ _ _)) (fun _ => fine_ret _)
  | getDatetime => exact fine_bind (fine_poll _ (q _ _ _)) (fun _ => fine_ret _)
  | setCircuit x y =>
    exact fine_bind (fine_state (fun g => fine_bind (rq _) (fun _ => fine_bind (rq _) (fun _ => fine_connected (k _ _))))) (fun _ => fine_ret _)
  | setHeatTemp x y =>
    exact fine_bind (fine_state (fun g => fine_bind (rq _) (fun _ => fine_bind (rq _) (fun _ => fine_connected (k _ _))))) (fun _ => fine_ret _)
  | setHeatMode x y =>
    exact fine_bind (fine_state (fun g => fine_bind (rq _) (fun _ => fine_bind (rq _) (fun _ => fine_connected (k _ _))))) (fun _ => fine_ret _)
  | setColorLights x => exact fine_bind (fine_bind (rq _) (fun _ => fine_connected (k _ _))) (fun _ => fine_ret _)
  | setScg x y z w =>
    exact fine_bind (fine_state (fun g => fine_bind (fine_ofExcept _) (fun _ => fine_connected (k _ _)))) (fun _ => fine_ret _)
  | setChem x y z w u v =>
    exact fine_bind (fine_state (fun g => fine_bind (fine_ofExcept _) (fun _ => fine_bind (fine_ofExcept _) (fun _ => fine_connected (k _ _))))) (fun _ => fine_ret _)
  | setDateTime x y =>
    exact fine_bind (fine_ite (fine_throw _) (fine_state (fun g => fine_bind (fine_ofExcept _) (fun _ => fine_bind (fine_ofExcept _) (fun _ => fine_connected (k _ _)))))) (fun _ => fine_ret _)
  | subscribe cb code => exact absurd rfl (hb cb code)
  | send code data => exact fine_bind (fine_connected (fun c r => fine_make _ _ _ _)) (fun _ => fine_ret _)

theorem fine_ping : Fine pingCo := by
  refine fine_bind (fine_state (fun g => ?_)) (fun _ => fine_ret _)
  split
  · exact fine_try (fine_ack _ _ _ _) (fun e => fine_ite (fine_ret _) (fine_throw _))
  · exact fine_throw _

theorem fine_unsub : Fine unsubCo := fine_bind ⟨att_unsubscribeGateway, calm_unsubscribeGateway⟩ (fun _ => fine_ret _)

theorem fine_connectToGateway (r : Int) (c : Nat) : Fine (connectToGateway c r) := by
  refine fine_bind ?_ (fun mac => fine_bind (fine_ofExcept _) (fun msg => fine_bind (fine_make _ _ _ _) (fun r => ?_)))
  · refine fine_bind (fine_modify (fun g => ⟨rfl, rfl, rfl, map_modify_id (fun x : Conn => x.w.p.cbs) (fun x => { x with raw := x.raw ++ _ }) (fun _ => rfl) g.conns c⟩)) (fun _ => fine_bind fine_pause (fun _ => fine_state (fun g => fine_ite
      (fine_bind (fine_make _ _ _ _) (fun r => ?_)) (fine_throw _))))
    split
    · exact fine_ofExcept _
    · exact fine_throw _
  · split <;> exact fine_ret _

/-- Attaching, from any state. -/
theorem now_attach (t c : Nat) (g : Gw) : (attach c).now t ReadyAny (fun _ => ReadyAny) g := by
  rcases (att_attach c).1 with h | ⟨c', e, h⟩
  · have := h ({} : Gw)
    cases this
  · have : c' = c := by
      have := congrArg (fun f => (f ({} : Gw)).cmProto) e
      simpa [Gw.attachTo] using this.symm
    subst this
    exact Co.now_mono (fun _ _ h => h.1) _ _ (h t g)

/-- `Att`, and keeps the client manager ready within a piece. -/
def Good {α : Type} (x : Co α) : Prop := x.Att (fun _ => True) ∧ Keeps (fun _ => True) x

theorem Fine.good {α : Type} {x : Co α} (h : Fine x) : Good x := ⟨h.1, h.2.keeps⟩

theorem good_bind {α β : Type} {x : Co α} {f : α → Co β} (hx : Good x) (hf : ∀ a, Good (f a)) : Good (x >>= f) := by
  have h : ∀ o : Except PyErr α, Good (match o with | .ok a => f a | .error e => Co.throw e) := by
    intro o
    cases o with
    | ok a => exact hf a
    | error e => exact (fine_throw e).good
  exact ⟨Co.att_bindE (R := fun _ => True) (fun o => ⟨(h o).1, fun _ => (h o).2⟩) x hx.1, keeps_bindE hx.2 (fun o _ => (h o).2)⟩

theorem good_state {α : Type} {f : Gw → Co α} (hf : ∀ g, Good (f g)) : Good (state >>= f) :=
  ⟨fun g => (hf g).1, fun t g h => (hf g).2 t g h⟩

theorem good_attach (c : Nat) : Good (attach c) :=
  ⟨att_attach c, fun t g _ => Co.now_mono (fun _ _ h => ⟨h, trivial⟩) _ _ (now_attach t c g)⟩

theorem good_afterOpen (r : Int) (c : Nat) : Good (afterOpen E r c) := by
  refine good_bind (fine_connectToGateway r c).good (fun mac => ?_)
  split
  · exact (fine_ret _).good
  · refine good_bind (Fine.good (fine_modify (fun _ => ⟨rfl, rfl, rfl, rfl⟩))) (fun _ => good_bind ?_ (fun _ => good_state (fun g => ?_)))
    · exact Fine.good (fine_state (fun g => fine_bind (fine_query E _ _ _ _ _) (fun _ => fine_modify (fun _ => ⟨rfl, rfl, rfl, rfl⟩))))
    · split
      · refine good_bind (fine_poll _ (fun c r => fine_query E _ _ _ _ _)).good (fun _ => good_state (fun g => ?_))
        split
        · exact good_bind (good_attach _) (fun _ => (fine_ret _).good)
        · exact (fine_throw _).good
      · exact (fine_ret _).good

/-- Subscribing. -/
theorem att_subscribe (cb code : Nat) : ((Call.subscribe cb code).co E).Att (fun _ => True) := by
  refine Co.att_bindE (R := fun _ => True) (fun o => ?_) _ ?_
  · cases o with
    | error e => exact ⟨trivial, fun _ => (calm_throw e).keeps⟩
    | ok v => exact ⟨trivial, fun _ => (calm_ret _).keeps⟩
  · intro g
    change Co.Att _ (match g.attached, g.cmProto with | true, some c => _ | _, _ => _)
    split
    · refine ⟨.inl (fun g => ?_), .inl (fun _ => rfl), fun g' => ?_⟩
      · simp only [Gw.addListener]
        split <;> rfl
      · refine (fine_bind (x := whenCo g'.clientNeeded subscribeGateway) (fine_when ⟨att_subscribeGateway, calm_subscribeGateway⟩) (fun _ => fine_ret _)).1
    · trivial

end

/-! ## Over a history -/

/-- The rest of the task is `Att`. -/
def Task.Att : Task → Prop
  | .request _ _ k => ∀ o, (k o).Att (fun _ => True)
  | .opening _ k => ∀ o, (k o).Att (fun _ => True) ∧ Keeps (fun _ => True) (k o)
  | .sleeping k => ∀ o, (k o).Att (fun _ => True)
  | .closing _ _ k => ∀ o, (k o).Att (fun _ => True)
  | .locked k => ∀ o, (k o).Att (fun _ => True)
  | .done _ => True

theorem cm_ask (g : Gw) (t c : Nat) (code : Int) (data : Bytes) (r : Int) : (g.ask t c code data r).2.cmProto = g.cmProto := (same_ask g t c code data r).cm
theorem cm_close (g : Gw) (t c : Nat) (force : Bool) : (g.startClose t c force).2.cmProto = g.cmProto := (same_close g t c force).cm

/-- A piece of execution either leaves the client manager's connection alone or leaves it ready. -/
theorem settle_att (t : Nat) : ∀ (co : Co Res) (g : Gw), co.Att (fun _ => True) →
    (settle t co g).1.Att ∧ ((settle t co g).2.cmProto = g.cmProto ∨ ReadyAny (settle t co g).2)
  | .ret a, g, _ => ⟨trivial, .inl rfl⟩
  | .throw e, g, _ => ⟨trivial, .inl rfl⟩
  | .get k, g, ha => settle_att t (k g) g (ha g)
  | .upd f k, g, ha => by
    have := settle_att t k (g.apply f) ha.2
    refine ⟨this.1, ?_⟩
    rcases ha.1 with h | ⟨c, e, h⟩
    · rcases this.2 with h2 | h2
      · exact .inl (h2.trans (h g))
      · exact .inr h2
    · subst e
      exact .inr (now_settle k _ (Co.now_mono (fun _ _ h => h.1) _ _ (h t g)))
  | .request c code data r k, g, ha => by
    simp only [settle]
    split
    · rename_i o _
      have := settle_att t (k o) (((g.ask t c code data r).2).note t (.got o)) (ha o)
      refine ⟨this.1, ?_⟩
      rcases this.2 with h2 | h2
      · exact .inl (h2.trans (cm_ask g t c code data r))
      · exact .inr h2
    · exact ⟨ha, .inl (cm_ask g t c code data r)⟩
  | .openConn r k, g, ha => ⟨ha, .inl rfl⟩
  | .sleep k, g, ha => ⟨ha, .inl rfl⟩
  | .close c force k, g, ha => by
    simp only [settle]
    split
    · have := settle_att t (k ((g.startClose t c force).2.closeResult c (g.startClose t c force).1)) ((g.startClose t c force).2) (ha _)
      refine ⟨this.1, ?_⟩
      rcases this.2 with h2 | h2
      · exact .inl (h2.trans (cm_close g t c force))
      · exact .inr h2
    · exact ⟨ha, .inl (cm_close g t c force)⟩
  | .acquire k, g, ha => by
    simp only [settle]
    split
    · exact settle_att t (k (.ok ())) (g.take t) (ha _)
    · exact ⟨ha, .inl rfl⟩

/-- All tasks are. -/
def Sys.Att (s : Sys) : Prop := ∀ x ∈ s.tasks, x.Att

theorem cm_lost (g : Gw) (c : Nat) (e : Event) : (g.lostCallback c e).cmProto = g.cmProto := by
  simp only [Gw.lostCallback]
  repeat' split
  all_goals rfl

theorem cm_unsubscribe (g : Gw) (u : Sub) : (g.unsubscribe u).cmProto = g.cmProto := by
  simp only [Gw.unsubscribe, Gw.dropCode]
  repeat' split
  all_goals first | rfl | simp_all [Gw.setSet, Gw.delListener, Gw.net, Gw.schedUnsub]

theorem cm_handler (E : Env) (g : Gw) (c : Nat) : (g.runHandler E c).cmProto = g.cmProto := by
  simp only [Gw.runHandler, Gw.commonCallback, Gw.commonCallback.notify]
  repeat' split
  all_goals rfl

theorem Sys.Att.step {E : Env} {s : Sys} (h : s.Att) (ev : Ev) :
    (s.step E ev).Att ∧ ((s.step E ev).g.cmProto = s.g.cmProto ∨ ReadyAny (s.step E ev).g) := by
  have mem : ∀ {t : Nat} {x : Task}, s.tasks[t]? = some x → x.Att := fun hx => h _ (List.mem_of_getElem? hx)
  have spawn : ∀ (co : Co Res) (g0 : Gw), co.Att (fun _ => True) → g0.cmProto = s.g.cmProto →
      (Sys.spawn { s with g := g0 } co).Att ∧ ((Sys.spawn { s with g := g0 } co).g.cmProto = s.g.cmProto ∨ ReadyAny (Sys.spawn { s with g := g0 } co).g) := by
    intro co g0 hco hg
    have := settle_att s.tasks.length co g0 hco
    refine ⟨?_, this.2.imp (fun x => x.trans hg) id⟩
    intro x hx
    simp only [Sys.spawn] at hx
    rcases List.mem_append.1 hx with hx | hx
    · exact h x hx
    · simp only [List.mem_singleton] at hx
      subst hx
      exact this.1
  have own : ∀ (t : Nat) (co : Co Res) (g0 : Gw), co.Att (fun _ => True) → g0.cmProto = s.g.cmProto →
      (s.put t (settle t co g0)).Att ∧ ((s.put t (settle t co g0)).g.cmProto = s.g.cmProto ∨ ReadyAny (s.put t (settle t co g0)).g) := by
    intro t co g0 hco hg
    have := settle_att t co g0 hco
    refine ⟨?_, this.2.imp (fun x => x.trans hg) id⟩
    intro x hx
    rcases List.mem_or_eq_of_mem_set hx with hx | rfl
    · exact h x hx
    · exact this.1
  cases ev with
  | call a =>
    refine spawn _ s.g ?_ rfl
    by_cases hsub : ∃ cb code, a = .subscribe cb code
    · obtain ⟨cb, code, rfl⟩ := hsub
      exact att_subscribe E cb code
    · exact (fine_call E a (fun x y e => hsub ⟨x, y, e⟩)).1
  | setMaxRetries n =>
    refine ⟨h, .inl ?_⟩
    simp only [Sys.step, Gw.setMaxRetries]
    split <;> rfl
  | unsubscribe u => exact ⟨h, .inl (cm_unsubscribe _ _)⟩
  | registerHandler code h' =>
    simp only [Sys.step]
    split
    · exact ⟨h, .inl rfl⟩
    · exact ⟨h, .inl rfl⟩
  | removeHandler code =>
    simp only [Sys.step]
    split
    · exact ⟨h, .inl rfl⟩
    · exact ⟨h, .inl rfl⟩
  | opened t ok =>
    simp only [Sys.step]
    split
    · rename_i r k hk
      have hk := mem hk
      split
      · exact own t _ _ (Co.att_bindE (R := fun _ => True) (fun o => ⟨(hk o).1, fun _ => (hk o).2⟩) _ (good_afterOpen E r _).1) rfl
      · exact own t _ _ (hk _).1 rfl
    · exact ⟨h, .inl rfl⟩
  | resume t =>
    simp only [Sys.step]
    split
    · rename_i c r k hk
      have hk := mem hk
      split
      · exact own t _ _ (hk _) rfl
      · exact ⟨h, .inl rfl⟩
    · rename_i k hk
      exact own t _ _ (mem hk _) rfl
    · rename_i c i k hk
      have hk := mem hk
      split
      · exact own t _ _ (hk _) rfl
      · exact ⟨h, .inl rfl⟩
    · rename_i k hk
      have hk := mem hk
      split
      · exact own t _ _ (hk _) rfl
      · exact ⟨h, .inl rfl⟩
    · exact ⟨h, .inl rfl⟩
  | cancel t =>
    simp only [Sys.step]
    split
    · rename_i r k hk
      exact own t _ _ (mem hk _).1 rfl
    · rename_i k hk
      exact own t _ _ (mem hk _) rfl
    · rename_i k hk
      exact own t _ _ (mem hk _) rfl
    · exact ⟨h, .inl rfl⟩
  | net c e =>
    simp only [Sys.step]
    split
    · exact ⟨h, .inl (cm_lost _ _ _)⟩
    · exact ⟨h, .inl rfl⟩
  | handle c => exact ⟨h, .inl (cm_handler E _ _)⟩
  | ping c =>
    simp only [Sys.step]
    split
    · split
      · exact spawn _ _ fine_ping.1 rfl
      · exact ⟨h, .inl rfl⟩
    · exact ⟨h, .inl rfl⟩
  | runUnsub =>
    simp only [Sys.step]
    split
    · exact spawn _ _ fine_unsub.1 rfl
    · exact ⟨h, .inl rfl⟩
  | tick now => exact ⟨h, .inl rfl⟩

theorem reach_att (E : Env) (clientId maxRetries : Int) (es : List Ev) : (after E clientId maxRetries es).Att := by
  have key : ∀ (es : List Ev) {s : Sys}, s.Att → (s.run E es).Att := by
    intro es
    induction es with
    | nil => intro s h; exact h
    | cons ev es ih => intro s h; exact ih (h.step ev).1
  exact key es (fun x hx => by cases hx)

end SL
