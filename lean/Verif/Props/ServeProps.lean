import Verif.Props.SubProps
import Verif.Lemmas.Attach
/-!
# C47, C48: listeners are served
-/
set_option linter.unusedVariables false

namespace SL

section
variable (E : Env) (clientId maxRetries : Int)

/-! ## C47 -/

/-- **C47**, a part that holds: when a subscription on an attached gateway returns, the gateway is a client. -/
theorem C47_returned_partial (es : List Ev) (cb code : Nat) (es2 : List Ev) (r : Option Sub)
    (ha : (after E clientId maxRetries es).g.attached = true)
    (hr : EndsNow E clientId maxRetries es (.subscribe cb code) es2 (.ok (.sub r))) :
    (after E clientId maxRetries (es ++ .call (.subscribe cb code) :: es2)).g.isClient = true ∧ ∃ u, r = some u ∧ u.code = code ∧ u.cb = cb := by
  refine call_end (E := E) (clientId := clientId) (maxRetries := maxRetries) (U := False) (X := noX) (I := fun _ => True)
    hc_true (Q := fun h o g => ∀ r, o = .ok (.sub r) → g.isClient = true ∧ ∃ u, r = some u ∧ u.code = code ∧ u.cb = cb) es (.subscribe cb code) es2
    (fun u => u.elim) (fun _ _ _ _ _ _ _ => trivial) trivial trivial ?_ hr r rfl
  rintro g rfl s
  refine Co.wp_bind' _ _ _ _ (Co.wp_mono ?_ _ _ _ (wp_subscribe (E := E) hc_true cb code s trivial))
  intro h' o g' hq
  cases o with
  | error e => intro r hr; cases hr
  | ok v =>
    intro r hr
    cases hr
    rcases hq.2.2 _ rfl with ⟨h1, _⟩ | ⟨_, h2, h3⟩
    · rw [ha] at h1; cases h1
    · exact ⟨h3, _, h2, rfl, rfl⟩

/-- **C47**, a part that holds: subscribing on an attached gateway registers the handler at once. -/
theorem C47_registers_partial (es : List Ev) (cb code c : Nat) (hc : (after E clientId maxRetries es).g.cmProto = some c)
    (ha : (after E clientId maxRetries es).g.attached = true) :
    (after E clientId maxRetries (es ++ [.call (.subscribe cb code)])).g.cmProto = some c ∧
    Handles (after E clientId maxRetries (es ++ [.call (.subscribe cb code)])).g c code := by
  rw [after_snoc]
  simp only [Sys.step, Sys.spawn]
  have hlt : ∃ x, (after E clientId maxRetries es).g.conns[c]? = some x := by
    cases hx : (after E clientId maxRetries es).g.conns[c]? with
    | some x => exact ⟨x, rfl⟩
    | none => simp [Gw.attached, hc, Gw.connected, hx] at ha
  generalize (after E clientId maxRetries es).tasks.length = t
  generalize (after E clientId maxRetries es).g = g at *
  obtain ⟨x, hx⟩ := hlt
  refine now_settle (t := t) (I := fun g => g.cmProto = some c ∧ Handles g c code) _ _ ?_
  refine Co.now_bind _ _ _ ?_
  change Co.now _ _ _ (match g.attached, g.cmProto with | true, some c => _ | _, _ => _) g
  rw [ha, hc]
  simp only
  have hg1 : ∃ g1 : Gw, g.apply (fun g => (g.addListener code cb).2) = g1 ∧ g1.cmProto = some c ∧ g1.conns[c]? = some x := by
    refine ⟨_, rfl, ?_, ?_⟩
    · simp only [Gw.apply, Gw.addListener]
      split <;> exact hc
    · simp only [Gw.apply, Gw.addListener]
      split <;> exact hx
  obtain ⟨g1, e1, hc1, hx1⟩ := hg1
  change Co.now _ _ _ (Co.upd _ _) (g.apply (fun g => (g.addListener code cb).2))
  rw [e1]
  have h2 : (fun g : Gw => g.cmProto = some c ∧ Handles g c code) (g1.net c (.register code (commonHandler code))) := by
    refine ⟨hc1, { x with w := x.w.step (.register code (commonHandler code)) }, ?_, ?_⟩
    · simp only [Gw.net, List.getElem?_modify, hx1, if_true, Option.map_eq_map, Option.map_some]
    · simp only
      rw [step_cbs]
      simp only
      rw [aget_aset, if_pos rfl]
  change Co.now _ _ _ (_ : Co (Option Sub)) (g1.net c (.register code (commonHandler code)))
  generalize g1.net c (.register code (commonHandler code)) = g2 at h2
  refine Co.now_bind (whenCo g2.clientNeeded subscribeGateway) _ _ ?_
  simp only [whenCo]
  split
  · rename_i hn
    have hcl : g2.isClient = false := by
      simp only [Gw.clientNeeded, Bool.and_eq_true, Bool.not_eq_true'] at hn
      exact hn.2
    have hst : Still (fun g : Gw => g.isClient = false ∧ g.cmProto = some c ∧ Handles g c code) := by
      refine ⟨fun g h => h.1, ?_⟩
      rintro a b ⟨s1, s2, s3, s4⟩ ⟨h1, h2, x, h3, h4⟩
      refine ⟨s1.trans h1, s2.trans h2, ?_⟩
      have hg := congrArg (fun l => l[c]?) s4
      simp only [List.getElem?_map, h3, Option.map_some] at hg
      cases hy : b.conns[c]? with
      | none => simp [hy] at hg
      | some y =>
        simp only [hy, Option.map_some, Option.some.injEq] at hg
        exact ⟨y, hy, by rw [hg]; exact h4⟩
    have := calm_subscribeGateway _ hst t g2 ⟨hcl, h2⟩
    refine Co.now_imp (fun g h => h.2) ?_ _ _ this
    intro o g h
    cases o with
    | ok u => exact h.2
    | error e => exact h.2
  · exact h2

/-! ## C48 -/

theorem listening_some {g : Gw} (hi : g.table.Inv) (code : Nat) : (aget code g.listeners).isSome ↔ ∃ cb, Listening g code cb := by
  constructor
  · intro hs
    obtain ⟨s, hs⟩ := Option.isSome_iff_exists.1 hs
    obtain ⟨l, h1, h2⟩ := hi.ref code s hs
    obtain ⟨cb, hcb⟩ := List.exists_mem_of_ne_nil l h2
    exact ⟨cb, s, l, hs, h1, hcb⟩
  · rintro ⟨cb, s, l, hs, _⟩
    exact Option.isSome_iff_exists.2 ⟨s, hs⟩

theorem reach_cm (es : List Ev) (c : Nat) (h : (after E clientId maxRetries es).g.cmProto = some c) :
    ∃ x, (after E clientId maxRetries es).g.conns[c]? = some x := by
  have hi : GInv False (after E clientId maxRetries es).g := ((SysOk.init E False clientId maxRetries).run es (fun u => u.elim)).inv
  exact ⟨_, List.getElem?_eq_getElem (hi.cm c h)⟩

/-- **C48**: whenever the client manager is attached to another connection, then, before anything else happens, the
client manager's handler is registered there for every code that has listeners, and if any has there is no other
handler. -/
theorem C48_handlers (es : List Ev) (ev : Ev) (hh : Honest E clientId maxRetries (es ++ [ev])) (c : Nat)
    (hc : (after E clientId maxRetries (es ++ [ev])).g.cmProto = some c) (hne : (after E clientId maxRetries es).g.cmProto ≠ some c) :
    (∀ code cb, Listening (after E clientId maxRetries (es ++ [ev])).g code cb → Handles (after E clientId maxRetries (es ++ [ev])).g c code) ∧
    ((∃ code cb, Listening (after E clientId maxRetries (es ++ [ev])).g code cb) → ∀ code : Int,
      HasHandler (after E clientId maxRetries (es ++ [ev])).g c code →
        ∃ n : Nat, code = n ∧ ∃ cb, Listening (after E clientId maxRetries (es ++ [ev])).g n cb) := by
  obtain ⟨x, hx⟩ := reach_cm E clientId maxRetries _ c hc
  have hi := hh.inv E clientId maxRetries
  have hr : ReadyAny (after E clientId maxRetries (es ++ [ev])).g := by
    have h := ((reach_att E clientId maxRetries es).step (E := E) ev).2
    rw [← after_snoc] at h
    rcases h with h | h
    · exact absurd (h.symm.trans hc) hne
    · exact h
  obtain ⟨c', h1, h2, h3⟩ := hr
  have : c' = c := by rw [hc] at h2; exact (Option.some.inj h2).symm
  subst this
  refine ⟨?_, ?_⟩
  · intro code cb hl
    have hs := (listening_some hi code).2 ⟨cb, hl⟩
    exact ⟨x, hx, (h3 (fun e => by rw [e] at hs; cases hs) x hx).1 code hs⟩
  · rintro ⟨code, cb, hl⟩ code' ⟨x', hx', hc'⟩
    rw [hx] at hx'
    cases hx'
    have hs := (listening_some hi code).2 ⟨cb, hl⟩
    obtain ⟨n, e, hn⟩ := (h3 (fun e => by rw [e] at hs; cases hs) x hx).2 code' hc'
    exact ⟨n, e, (listening_some hi n).1 hn⟩

/-- **C48**: when a connect call that had to connect returns True, the gateway is registered as a client if there are
listeners (unless the connection has been lost meanwhile). -/
theorem C48_client (es : List Ev) (a : ConnectArgs) (es2 : List Ev) (h : (after E clientId maxRetries es).g.isConnected = false)
    (hr : EndsNow E clientId maxRetries es (.connect a) es2 (.ok (.bool true))) (code cb : Nat)
    (hl : Listening (after E clientId maxRetries (es ++ .call (.connect a) :: es2)).g code cb)
    (ha : (after E clientId maxRetries (es ++ .call (.connect a) :: es2)).g.attached = true) :
    (after E clientId maxRetries (es ++ .call (.connect a) :: es2)).g.isClientNow = true := by
  have key := call_end (E := E) (clientId := clientId) (maxRetries := maxRetries) (U := False) (X := noX) (I := fun _ => True)
    hc_true (Q := fun h o g => o = .ok (.bool true) → Served g) es (.connect a) es2
    (fun u => u.elim) (fun _ _ _ _ _ _ _ => trivial) trivial trivial ?_ hr rfl
  · simp only [Gw.isClientNow, ha, Bool.and_true]
    rcases key with k | k | k
    · exact k
    · obtain ⟨s, l, hs, _⟩ := hl
      rw [k] at hs
      cases hs
    · rw [ha] at k; cases k
  · rintro g rfl s
    refine Co.wp_bind' _ _ _ _ (Co.wp_mono ?_ _ _ _ (wp_asyncConnect (E := E) hc_true a s trivial))
    intro h' o g' hq
    cases o with
    | error e => intro hr; cases hr
    | ok b =>
      intro hr
      cases hr
      rcases hq.2.2 rfl with ⟨hc, _⟩ | ⟨l, e, hl⟩
      · rw [h] at hc; cases hc
      · exact hl.2

end

/-! ### Concrete cases -/

/-- Callback 7 has subscribed and been acknowledged; it unsubscribes, and before the scheduled background task has run
callback 8 subscribes; then the background task runs, the adapter acknowledges its request, and it ends. -/
def silencedEvs : List Ev :=
  sub7Evs ++ [.unsubscribe ⟨12500, 0, 7⟩, .call (.subscribe 8 12500), .runUnsub] ++ reply 0 5 12525 [] ++ [.resume 3]

/-- Decidable form of "every call and background task has ended". -/
def allDone (s : Sys) : Bool := s.tasks.all (fun k => match k with | .done _ => true | _ => false)

/-- **C47** (full statement), refuted: every call and every background task has ended, the gateway is attached, and
callback 8, whose subscription was accepted, listens, but the gateway is no longer a client and no handler is registered. -/
theorem C47_refuted : Honest sampleEnv 1 3 silencedEvs ∧
    (∀ k ∈ (after sampleEnv 1 3 silencedEvs).tasks, ∃ o, k = .done o) ∧
    (after sampleEnv 1 3 silencedEvs).g.attached = true ∧
    Listening (after sampleEnv 1 3 silencedEvs).g 12500 8 ∧
    (after sampleEnv 1 3 silencedEvs).g.isClientNow = false ∧ ¬ Handles (after sampleEnv 1 3 silencedEvs).g 0 12500 ∧
    Returns sampleEnv 1 3 (sub7Evs ++ [.unsubscribe ⟨12500, 0, 7⟩]) 8 12500 ([.runUnsub] ++ reply 0 5 12525 [] ++ [.resume 3]) ⟨12500, 1, 8⟩ := by
  refine ⟨?_, ?_, by decide +kernel, ⟨1, [8], by decide +kernel, by decide +kernel, by simp⟩, by decide +kernel, ?_, gotSub_eq (by decide +kernel)⟩
  · intro pre u post e
    have h1 := C45_witness.1
    have e1 : silencedEvs = sub7Evs ++ (.unsubscribe ⟨12500, 0, 7⟩ ::
        ([.call (.subscribe 8 12500), .runUnsub] ++ reply 0 5 12525 [] ++ [.resume 3])) := by simp [silencedEvs]
    rw [e1] at e
    rcases List.append_eq_append_iff.1 e with ⟨a, ha, hb⟩ | ⟨a, ha, hb⟩
    · rcases a with _ | ⟨a0, a⟩
      · simp only [List.nil_append, List.cons.injEq, Ev.unsubscribe.injEq] at hb
        obtain ⟨rfl, _⟩ := hb
        rw [List.append_nil] at ha
        exact ⟨_, _, _, _, ha, h1⟩
      · simp only [List.cons_append, List.cons.injEq] at hb
        have : Ev.unsubscribe u ∈ ([.call (.subscribe 8 12500), .runUnsub] ++ reply 0 5 12525 [] ++ [.resume 3] : List Ev) := by
          have h2 := hb.2
          simp only [List.nil_append] at h2
          simp only [List.cons_append, List.nil_append]
          rw [h2]; simp
        simp [reply] at this
    · rcases a with _ | ⟨a0, a⟩
      · simp only [List.nil_append, List.cons.injEq, Ev.unsubscribe.injEq] at hb
        obtain ⟨rfl, _⟩ := hb
        rw [List.append_nil] at ha
        exact ⟨_, _, _, _, ha.symm, h1⟩
      · simp only [List.cons_append, List.cons.injEq] at hb
        have : Ev.unsubscribe u ∈ sub7Evs := by rw [ha, ← hb.1]; simp
        simp [sub7Evs, bareConnectEvs, loginEvs, noConfigEvs, reply] at this
  · have h : allDone (after sampleEnv 1 3 silencedEvs) = true := by decide +kernel
    intro k hk
    have := List.all_eq_true.1 h k hk
    split at this
    · exact ⟨_, rfl⟩
    · cases this
  · rintro ⟨x, hx, hb⟩
    have h : ((after sampleEnv 1 3 silencedEvs).g.conns[0]?.map (fun x => (aget ((12500 : Nat) : Int) x.w.p.cbs).isNone)) = some true := by
      decide +kernel
    rw [hx, Option.map_some, hb] at h
    cases h

/-- The hypotheses of the partial theorems about C47 are met. -/
theorem C47_witness : (after sampleEnv 1 3 bareConnectEvs).g.attached = true ∧ (after sampleEnv 1 3 bareConnectEvs).g.cmProto = some 0 ∧
    Listening (after sampleEnv 1 3 sub7Evs).g 12500 7 ∧ Handles (after sampleEnv 1 3 sub7Evs).g 0 12500 := by
  refine ⟨by decide +kernel, by decide +kernel, C45_witness.2.2, ?_⟩
  have h : ((after sampleEnv 1 3 sub7Evs).g.conns[0]?.bind (fun x => aget ((12500 : Nat) : Int) x.w.p.cbs)) = some (commonHandler 12500) := by
    decide +kernel
  obtain ⟨x, h1, h2⟩ := Option.bind_eq_some_iff.1 h
  exact ⟨x, h1, h2⟩

/-- With callback 7 subscribed the connection is lost, and somebody connects again. -/
def againEvs : List Ev := loginEvs 2 1 ++ reply 1 3 12533 []

/-- Decidable form of "has returned True". -/
def saidTrue (r : Option (Except PyErr Res)) : Bool :=
  match r with
  | some (.ok (.bool b)) => b
  | _ => false

theorem saidTrue_eq {r : Option (Except PyErr Res)} (h : saidTrue r = true) : r = some (.ok (.bool true)) := by
  unfold saidTrue at h
  split at h
  · rw [h]
  · cases h

/-- The hypotheses of the C48 theorems are met: with a listener the gateway attaches to its second connection, and when
the adapter has acknowledged the registration the connect call returns True. -/
theorem C48_witness :
    (after sampleEnv 1 3 (sub7Evs ++ [.net 0 .lost])).g.isConnected = false ∧
    Honest sampleEnv 1 3 (sub7Evs ++ [.net 0 .lost] ++ .call (.connect { ip := some "10.0.0.1" }) :: againEvs ++ [.resume 2]) ∧
    (after sampleEnv 1 3 (sub7Evs ++ [.net 0 .lost] ++ .call (.connect { ip := some "10.0.0.1" }) :: againEvs)).g.cmProto = some 0 ∧
    (after sampleEnv 1 3 (sub7Evs ++ [.net 0 .lost] ++ .call (.connect { ip := some "10.0.0.1" }) :: againEvs ++ [.resume 2])).g.cmProto = some 1 ∧
    Listening (after sampleEnv 1 3 (sub7Evs ++ [.net 0 .lost] ++ .call (.connect { ip := some "10.0.0.1" }) :: againEvs ++ [.resume 2])).g 12500 7 ∧
    resultOf sampleEnv 1 3 (sub7Evs ++ [.net 0 .lost]) (.connect { ip := some "10.0.0.1" })
      (againEvs ++ [.resume 2] ++ reply 1 4 12523 []) = none ∧
    resultOf sampleEnv 1 3 (sub7Evs ++ [.net 0 .lost]) (.connect { ip := some "10.0.0.1" })
      (againEvs ++ [.resume 2] ++ reply 1 4 12523 [] ++ [.resume 2]) = some (.ok (.bool true)) ∧
    (after sampleEnv 1 3 (sub7Evs ++ [.net 0 .lost] ++ .call (.connect { ip := some "10.0.0.1" }) ::
      (againEvs ++ [.resume 2] ++ reply 1 4 12523 [] ++ [.resume 2]))).g.attached = true := by
  refine ⟨by decide +kernel, ?_, by decide +kernel, by decide +kernel, ⟨0, [7], by decide +kernel, by decide +kernel, by simp⟩, ?_, ?_, by decide +kernel⟩
  · intro pre u post e
    have : Ev.unsubscribe u ∈ (sub7Evs ++ [.net 0 .lost] ++ .call (.connect { ip := some "10.0.0.1" }) :: againEvs ++ [.resume 2]) := by
      rw [e]; simp
    simp [sub7Evs, againEvs, bareConnectEvs, loginEvs, noConfigEvs, reply] at this
  · exact Option.isNone_iff_eq_none.1 (by decide +kernel)
  · exact saidTrue_eq (by decide +kernel)

end SL
