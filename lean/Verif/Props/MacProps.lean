import Verif.Model.Mac
import Verif.Lemmas.Sig
import Verif.Spec.Handshake
import Verif.Props.RequestProps
import Verif.Props.ProtocolProps
import Verif.Props.TextProps
import Verif.Props.TextExactProps
import Verif.Props.ConnectProps
set_option linter.unusedVariables false
/-!
# C82: asking only for the MAC address
-/
namespace SL
open Spec

theorem no_close {es : List Event} {e : Event} (h : ∀ force, Event.close force ∉ es) (he : e.external = true) :
    ∀ force, Event.close force ∉ es ++ [e] := by
  intro force hm
  rcases List.mem_append.1 hm with hm | hm
  · exact h force hm
  · rw [List.mem_singleton] at hm
    subst hm
    cases he

/-- What is true of a call of `async_get_mac_address` at any moment. -/
inductive MacOk (n : Int) : MacCall → Prop
  | opening : MacOk n { retries := n, phase := .opening, conn := none }
  | unopened (e : PyErr) : MacOk n { retries := n, phase := .done (.error e), conn := none }
  | before (ph : MacPhase) (es : List Event) (x : Conn) (hraw : x.raw = [helloBytes]) (hw : x.w = World.init.run es)
      (hc : ∀ force, Event.close force ∉ es) (hs : x.w.reqs = []) (hp : ph = .pausing ∨ ∃ e, ph = .done (.error e)) : MacOk n { retries := n, phase := ph, conn := some x }
  | after (ph : MacPhase) (es : List Event) (x : Conn) (hraw : x.raw = [helloBytes]) (hw : x.w = World.init.run es)
      (hc : ∀ force, Event.close force ∉ es) (hs : x.w.reqs.map Req.sig = [(14, [], n)])
      (hd : ∀ m, ph = .done (.ok m) → x.w.p.tclosing = true ∧ ∃ r b, x.w.reqs[0]? = some r ∧ r.phase = .done (.ret (some b)) ∧ decodeMessageString b = .ok m)
      (hp : ph = .asking ∨ ∃ r, ph = .done r) : MacOk n { retries := n, phase := ph, conn := some x }

theorem finish_ok {n : Int} {ph : MacPhase} {c : Option Conn} {x : Conn} {es : List Event} {o : Except PyErr (Option Bytes)}
    (hraw : x.raw = [helloBytes]) (hw : x.w = World.init.run es)
    (hc : ∀ force, Event.close force ∉ es) (hs : x.w.reqs.map Req.sig = [(14, [], n)]) (ho : x.w.outcome 0 = some o) :
    MacOk n (MacCall.finish { retries := n, phase := ph, conn := c } x o) := by
  unfold MacCall.finish
  split
  · rename_i b
    split
    · rename_i m hm
      refine .after _ (es ++ [.peerClose]) _ hraw ?_ (by simpa using hc) hs ?_ (.inr ⟨_, rfl⟩)
      · rw [run_append, ← hw]; rfl
      · intro m' hm'
        injection hm' with e; injection e with e
        subst e
        refine ⟨rfl, ?_⟩
        unfold World.outcome at ho
        split at ho
        · rename_i q hq
          split at ho
          · rename_i v hv
            injection ho with ho; injection ho with ho
            exact ⟨q, b, hq, by rw [hv, ho], hm⟩
          · injection ho with ho; cases ho
          · cases ho
        · cases ho
    · exact .after _ es _ hraw hw hc hs (fun m h => by cases h) (.inr ⟨_, rfl⟩)
  · exact .after _ es _ hraw hw hc hs (fun m h => by cases h) (.inr ⟨_, rfl⟩)
  · exact .after _ es _ hraw hw hc hs (fun m h => by cases h) (.inr ⟨_, rfl⟩)

theorem challenge_ok {n : Int} {ph : MacPhase} {c : Option Conn} {x : Conn} {es : List Event}
    (hraw : x.raw = [helloBytes]) (hw : x.w = World.init.run es) (hc : ∀ force, Event.close force ∉ es) (hs : x.w.reqs = []) (hx : c = some x) :
    MacOk n (MacCall.challenge { retries := n, phase := ph, conn := c } x) := by
  unfold MacCall.challenge
  split
  · have h1 : ((x.w.step (.call 14 [] n)).step (.run 0)) = World.init.run (es ++ [.call 14 [] n, .run 0]) := by
      rw [run_append, ← hw]; rfl
    have h2 : ((x.w.step (.call 14 [] n)).step (.run 0)).reqs.map Req.sig = [(14, [], n)] := by
      have e1 : (x.w.step (.call 14 [] n)).reqs = [{ code := 14, data := [], maxRetries := n }] := by
        simp only [World.step, hs, List.nil_append]
      have e2 : ((x.w.step (.call 14 [] n)).step (.run 0)) =
          (x.w.step (.call 14 [] n)).startAttempt 0 { code := 14, data := [], maxRetries := n } := by
        generalize x.w.step (.call 14 [] n) = w at e1
        simp only [World.step, e1, List.getElem?_cons_zero, if_true]
      rw [e2, startAttempt_sig _ (r := { code := 14, data := [], maxRetries := n }) (by rw [e1]; rfl) rfl, e1]
      rfl
    dsimp only
    split
    · rename_i o ho
      exact finish_ok (x := { x with w := (x.w.step (.call 14 [] n)).step (.run 0) }) hraw h1 (by simpa using hc) h2 ho
    · exact .after _ _ _ hraw h1 (by simpa using hc) h2 (fun m h => by cases h) (.inl rfl)
  · subst hx
    exact .before _ es x hraw hw hc hs (.inr ⟨_, rfl⟩)

theorem mac_step {n : Int} {s : MacCall} (h : MacOk n s) (ev : MacEv) : MacOk n (s.step ev) := by
  cases h with
  | opening =>
    cases ev with
    | opened ok =>
      cases ok with
      | false => exact .unopened _
      | true => exact .before _ [] _ rfl rfl (by simp) rfl (.inl rfl)
    | resume => exact .opening
    | cancel => exact .unopened _
    | net e => exact .opening
  | unopened e =>
    cases ev with
    | opened ok => exact .unopened e
    | resume => exact .unopened e
    | cancel => exact .unopened e
    | net e' => exact .unopened e
  | before ph es x hraw hw hc hs hp =>
    have keep := MacOk.before (n := n) ph es x hraw hw hc hs hp
    cases ev with
    | opened ok =>
      rcases hp with rfl | ⟨e, rfl⟩ <;> exact keep
    | resume =>
      rcases hp with rfl | ⟨e, rfl⟩
      · exact challenge_ok hraw hw hc hs rfl
      · exact keep
    | cancel =>
      rcases hp with rfl | ⟨e, rfl⟩
      · exact .before _ es x hraw hw hc hs (.inr ⟨_, rfl⟩)
      · exact keep
    | net e =>
      simp only [MacCall.step]
      split
      · rename_i he
        refine .before ph (es ++ [e]) _ hraw (by rw [run_append, ← hw]; rfl) (no_close hc he) ?_ hp
        have := external_sig x.w e he
        rw [hs] at this
        simpa using this
      · exact keep
  | after ph es x hraw hw hc hs hd hp =>
    have keep := MacOk.after (n := n) ph es x hraw hw hc hs hd hp
    cases ev with
    | opened ok =>
      rcases hp with rfl | ⟨e, rfl⟩ <;> exact keep
    | resume =>
      rcases hp with rfl | ⟨e, rfl⟩
      · simp only [MacCall.step]
        split
        · rename_i o ho
          exact finish_ok hraw hw hc hs ho
        · exact keep
      · exact keep
    | cancel =>
      rcases hp with rfl | ⟨e, rfl⟩ <;> exact keep
    | net e =>
      simp only [MacCall.step]
      split
      · rename_i he
        have hw' : x.w.step e = World.init.run (es ++ [e]) := by rw [run_append, ← hw]; rfl
        refine .after ph (es ++ [e]) _ hraw hw' (no_close hc he) ((external_sig x.w e he).trans hs) ?_ hp
        intro m hm
        obtain ⟨h1, r, b, h2, h3, h4⟩ := hd m hm
        refine ⟨?_, ?_⟩
        · exact (run_later x.w [e]).tclosing h1
        · rw [hw] at h2
          obtain ⟨r', a1, a2, -⟩ := C24_final es [e] 0 r _ h2 h3
          exact ⟨r', b, by rw [show ({ x with w := x.w.step e } : Conn).w = _ from hw']; exact a1, a2, h4⟩
      · exact keep

theorem mac_ok (n : Int) (es : List MacEv) : MacOk n (MacCall.run n es) := by
  have key : ∀ (es : List MacEv) (s : MacCall), MacOk n s → MacOk n (es.foldl MacCall.step s) := by
    intro es
    induction es with
    | nil => exact fun s h => h
    | cons e es ih => exact fun s h => ih _ (mac_step h e)
  exact key es _ .opening

/-- **C82** (what is sent).  At any moment of any history, the connection of a call for the MAC address (if there is one
yet) has seen the first text once and otherwise nothing but challenges: at most `max_retries + 1`, numbered 0, 1, 2, …  In
particular no login. -/
theorem C82_sends (n : Int) (es : List MacEv) (x : Conn) (hx : (MacCall.run n es).conn = some x) :
    x.raw = [helloBytes] ∧ (∀ i bs, (i, bs) ∈ x.w.p.written → bs = frame (i % 32767) 14 []) ∧
    x.w.p.written.Pairwise (fun a b => a.1 < b.1) ∧ (x.w.p.written.length : Int) ≤ max (n + 1) 0 := by
  have hok := mac_ok n es
  generalize MacCall.run n es = s at *
  have nil : ∀ es, x.w = World.init.run es → x.w.reqs = [] → x.w.p.written = [] := by
    intro es hw hs
    apply List.eq_nil_iff_forall_not_mem.2
    rintro ⟨i, bs⟩ hm
    rw [hw] at hm
    obtain ⟨t, r, h1, _⟩ := C22_only_calls_write es i bs hm
    rw [← hw, hs] at h1
    simp at h1
  cases hok with
  | opening => cases hx
  | unopened e => cases hx
  | before ph es' x' hraw hw hc hs hp =>
    cases hx
    rw [nil es' hw hs]
    exact ⟨hraw, by simp, .nil, by simp; omega⟩
  | after ph es' x' hraw hw hc hs hd hp =>
    cases hx
    have hone : ∃ r, x.w.reqs = [r] ∧ r.sig = (14, [], n) := by
      rcases hq : x.w.reqs with _ | ⟨r, _ | ⟨r', l⟩⟩
      · rw [hq] at hs; cases hs
      · rw [hq] at hs; exact ⟨r, rfl, by simpa using hs⟩
      · rw [hq] at hs; simp at hs
    obtain ⟨r, hr, hsig⟩ := hone
    have hr0 : (World.init.run es').reqs[0]? = some r := by rw [← hw, hr]; rfl
    have hb := C22_bounded es' 0 r hr0
    simp only [Req.sig, Prod.mk.injEq] at hsig
    obtain ⟨s1, s2, s3⟩ := hsig
    obtain ⟨hwire, hpw⟩ := C12_wire es'
    have hmine : ∀ i bs, (i, bs) ∈ x.w.p.written → i ∈ r.mine := by
      intro i bs hm
      rw [hw] at hm
      obtain ⟨t, q, h1, h2⟩ := C22_only_calls_write es' i bs hm
      rw [← hw, hr] at h1
      cases t with
      | zero => simp at h1; subst h1; exact h2
      | succ t => simp at h1
    refine ⟨hraw, ?_, by rw [hw]; exact hpw, ?_⟩
    · intro i bs hm
      have hi := hmine i bs hm
      rw [hw] at hm
      obtain ⟨code, data, h1, h2⟩ := hwire i bs hm
      have := hb.2.2.1 i hi
      rw [h1, s1, s2] at this
      simp only [Option.some.injEq, Prod.mk.injEq] at this
      obtain ⟨e1, e2⟩ := this
      have e1' : code = 14 := by omega
      rw [h2, e1', e2]
    · have hle : x.w.p.written.length ≤ r.mine.length := by
        have hnd : (x.w.p.written.map (·.1)).Nodup := by
          rw [hw]
          exact (List.pairwise_map.2 (hpw.imp (fun h => Nat.ne_of_lt h)))
        have hsub : x.w.p.written.map (·.1) ⊆ r.mine := by
          intro i hi
          obtain ⟨⟨i', bs⟩, hm, rfl⟩ := List.mem_map.1 hi
          exact hmine i' bs hm
        have := List.Nodup.length_le_of_subset hnd hsub
        simpa using this
      have := hb.1
      rw [s3] at this
      omega

/-- **C82** (what is returned).  If the call returns a text, the adapter sent a message that answered a challenge of this very
call and whose payload is that text; and the connection is closed (or closing) from then on. -/
theorem C82_returns (n : Int) (es : List MacEv) (m : String) (h : (MacCall.run n es).phase = .done (.ok m)) :
    ∃ x, (MacCall.run n es).conn = some x ∧ x.w.p.tclosing = true ∧
      ∃ (f k : Nat) (b : Bytes), x.w.p.calls[f]? = some (14, []) ∧ x.w.p.recv[k]? = some ⟨((f % 32767 : Nat) : Int), 15, b⟩ ∧
        x.w.p.fates[k]? = some (.answered f) ∧ decodeMessageString b = .ok m := by
  have hok := mac_ok n es
  generalize MacCall.run n es = s at *
  cases hok with
  | opening => cases h
  | unopened e => cases h
  | before ph es' x hraw hw hc hs hp =>
    rcases hp with rfl | ⟨e, rfl⟩ <;> cases h
  | after ph es' x hraw hw hc hs hd hp =>
    obtain ⟨h1, r, b, h2, h3, h4⟩ := hd m h
    have h2' := h2
    rw [hw] at h2
    obtain ⟨f, hf, k, i, g1, g2, g3, g4⟩ := C23_genuine es' 0 r b h2 h3
    have hb := (C22_bounded es' 0 r h2).2.2.1 f hf
    have hsig : r.sig = (14, [], n) := by
      have : (x.w.reqs.map Req.sig)[0]? = some r.sig := by rw [List.getElem?_map, h2']; rfl
      rw [hs] at this
      simpa using this.symm
    simp only [Req.sig, Prod.mk.injEq] at hsig
    obtain ⟨s1, s2, s3⟩ := hsig
    rw [s1, s2] at hb
    rw [s1] at g1
    refine ⟨x, rfl, h1, f, k, b, ?_, ?_, ?_, h4⟩
    · rw [hw]; exact hb
    · rw [hw]; exact g1
    · rw [hw]; exact g4

/-- **C82** (an answer is taken).  If the call is waiting for the answer of its latest challenge, no partial message is
pending, and the adapter answers with a text, the call returns that text as soon as it is resumed. -/
theorem C82_answered (n : Int) (es : List MacEv) (x : Conn) (r : Req) (f : Nat) (m : String) (u : Bool)
    (hph : (MacCall.run n es).phase = .asking) (hx : (MacCall.run n es).conn = some x) (hr : x.w.reqs[0]? = some r)
    (hw : r.phase = .waiting f false false) (hf : x.w.p.futs[f]? = some .pending) (hbuf : x.w.p.buff = [])
    (hrecent : x.w.p.futs.length ≤ f + 32767) (hlen : (textBytes u m.toList).length < 2 ^ 31) :
    ∃ b, encodeMessageString m u = .ok b ∧
      (MacCall.run n (es ++ [.net (.data (frame (f % 32767) 15 b)), .net (.resume 0), .resume])).phase = .done (.ok m) := by
  obtain ⟨b, hb, -, hdec⟩ := C04_text_roundtrip m u hlen
  have hdec := hdec []
  rw [List.append_nil] at hdec
  have hbl : b.length < 2 ^ 32 := by
    have e := C04_text_layout m u hlen
    rw [hb] at e
    rw [Except.ok.inj e]
    simp only [List.length_append, length_u32, List.length_replicate, pad4]
    omega
  refine ⟨b, hb, ?_⟩
  have hok := mac_ok n es
  rw [MacCall.run, List.foldl_append, ← MacCall.run]
  generalize MacCall.run n es = s at *
  cases hok with
  | opening => cases hph
  | unopened e => cases hph
  | before ph es' x' hraw hw' hc hs hp =>
    rcases hp with rfl | ⟨e, rfl⟩ <;> cases hph
  | after ph es' x' hraw hw' hc hs hd hp =>
    cases hx
    cases hph
    have hsig : r.sig = (14, [], n) := by
      have : (x.w.reqs.map Req.sig)[0]? = some r.sig := by rw [List.getElem?_map, hr]; rfl
      rw [hs] at this
      simpa using this.symm
    have hcode : r.code = 14 := congrArg Prod.fst hsig
    have hcl : (World.init.run es').p.closing = false := by
      cases h : (World.init.run es').p.closing with
      | false => rfl
      | true => obtain ⟨force, hm⟩ := closing_history es' h; exact absurd hm (hc force)
    have hfut := C13_reply_arrives es' f 15 b hcl (by rw [← hw']; exact hbuf) (by rw [← hw']; exact hf) (by rw [← hw']; exact hrecent) (by decide) hbl
    rw [run_append, ← hw'] at hfut
    generalize hw1 : x.w.step (.data (frame (f % 32767) 15 b)) = w1 at *
    have hfut1 : w1.p.futs[f]? = some (.result ⟨((f % 32767 : Nat) : Int), 15, b⟩) := by
      rw [← hw1]
      have := congrArg (fun l => l[f]?) hfut
      refine Eq.trans this ?_
      simp only [List.getElem?_set_self (lt_of_getElem? hf)]
      rfl
    have hr1 : w1.reqs = x.w.reqs := by rw [← hw1]; rfl
    have hw2 : w1.step (.resume 0) = w1.setReq 0 { r with phase := .done (.ret (some b)) } := by
      simp only [World.step, hr1, hr, hw, hfut1]
      simp [Req.onResult, hcode]
    have ho : (w1.step (.resume 0)).outcome 0 = some (.ok (some b)) := by
      rw [hw2]
      have : 0 < w1.reqs.length := by rw [hr1]; exact lt_of_getElem? hr
      simp [World.outcome, World.setReq, this]
    simp only [List.foldl_cons, List.foldl_nil, MacCall.step, Event.external, if_true, hw1, ho, MacCall.finish, hdec]

/-- **C82** (a failure leaves the connection open).  If the challenge is rejected, the call raises and the connection stays
open, although nobody can close it any more. -/
theorem C82_leak : ∃ x, (MacCall.run 0 [.opened true, .resume, .net (.data (frame 0 31 [])), .net (.resume 0), .resume]).conn = some x ∧
    (MacCall.run 0 [.opened true, .resume, .net (.data (frame 0 31 [])), .net (.resume 0), .resume]).phase = .done (.error .slRequest) ∧
    x.w.p.connected = true ∧ x.w.p.tclosing = false := by
  refine ⟨_, rfl, rfl, ?_⟩
  decide +kernel

/-- The hypotheses of `C82_answered` are met after the second try of a challenge. -/
theorem C82_witness : let s := MacCall.run 1 [.opened true, .resume, .net (.timeout 0), .net (.resume 0), .net (.wake 0)]
    s.phase = .asking ∧ (∃ x r, s.conn = some x ∧ x.w.reqs[0]? = some r ∧ r.phase = .waiting 1 false false ∧
      x.w.p.futs[1]? = some .pending ∧ x.w.p.buff = [] ∧ x.w.p.futs.length ≤ 1 + 32767 ∧
      x.w.p.written = [(0, frame 0 14 []), (1, frame 1 14 [])]) := by
  refine ⟨rfl, _, _, rfl, rfl, ?_⟩
  decide +kernel

/-- The exceptions that can leave a call for the MAC address. -/
def macErrors : List PyErr :=
  [.slConnection, .slRequest, .slResponse, .slLogin, .cancelled, .structError, .unicodeError, .typeError]

theorem mac_world_error {es : List Event} {e : PyErr} (h : (World.init.run es).outcome 0 = some (.error e)) : e ∈ macErrors := by
  obtain ⟨q, h1, h2⟩ := outcome_error h
  rcases (C24_classification es 0 q e h1 h2).1 with ⟨i, f, _, h, _⟩ | ⟨h, _⟩ | ⟨h, _⟩ | ⟨h, _⟩
  · rw [h]
    cases attemptReply (World.init.run es).p f with
    | none => decide
    | some c =>
      simp only [describes]
      split
      · decide
      · split <;> decide
  · rw [h]; decide
  · rw [h]; decide
  · rw [h]; decide

theorem finish_errors {s : MacCall} {x : Conn} {es : List Event} {o : Except PyErr (Option Bytes)} {e : PyErr}
    (hw : x.w = World.init.run es) (ho : x.w.outcome 0 = some o) (h : (s.finish x o).phase = .done (.error e)) : e ∈ macErrors := by
  unfold MacCall.finish at h
  split at h
  · rename_i b
    split at h
    · cases h
    · rename_i e' he'
      injection h with h; injection h with h
      subst h
      rcases C73_text_only b with ⟨m, _, _, _, hb, _⟩ | hb | hb
      · rw [hb] at he'; cases he'
      · rw [hb] at he'; injection he' with he'; subst he'; decide
      · rw [hb] at he'; injection he' with he'; subst he'; decide
  · injection h with h; injection h with h; subst h; decide
  · injection h with h; injection h with h; subst h
    rw [hw] at ho
    exact mac_world_error ho

theorem challenge_errors {s : MacCall} {x : Conn} {es : List Event} {e : PyErr}
    (hw : x.w = World.init.run es) (h : (s.challenge x).phase = .done (.error e)) : e ∈ macErrors := by
  unfold MacCall.challenge at h
  split at h
  · dsimp only at h
    split at h
    · rename_i o ho
      refine finish_errors (x := { x with w := (x.w.step (.call 14 [] s.retries)).step (.run 0) }) (es := es ++ [.call 14 [] s.retries, .run 0]) ?_ ho h
      rw [run_append, ← hw]; rfl
    · cases h
  · injection h with h; injection h with h; subst h; decide

theorem mac_step_errors {n : Int} {s : MacCall} (hok : MacOk n s) (hs : ∀ e, s.phase = .done (.error e) → e ∈ macErrors) (ev : MacEv) :
    ∀ e, (s.step ev).phase = .done (.error e) → e ∈ macErrors := by
  intro e h
  have hworld : ∀ x, s.conn = some x → ∃ es, x.w = World.init.run es := by
    intro x hx
    cases hok with
    | opening => cases hx
    | unopened _ => cases hx
    | before ph es x' hraw hw => cases hx; exact ⟨es, hw⟩
    | after ph es x' hraw hw => cases hx; exact ⟨es, hw⟩
  cases ev with
  | opened ok =>
    simp only [MacCall.step] at h
    split at h
    · split at h
      · cases h
      · injection h with h; injection h with h; subst h; decide
    · exact hs e h
  | resume =>
    simp only [MacCall.step] at h
    split at h
    · rename_i x h1 h2
      obtain ⟨es, hw⟩ := hworld x h2
      exact challenge_errors hw h
    · rename_i x h1 h2
      obtain ⟨es, hw⟩ := hworld x h2
      split at h
      · rename_i o ho
        exact finish_errors hw ho h
      · exact hs e h
    · exact hs e h
  | cancel =>
    simp only [MacCall.step] at h
    split at h
    · injection h with h; injection h with h; subst h; decide
    · injection h with h; injection h with h; subst h; decide
    · exact hs e h
  | net ev =>
    simp only [MacCall.step] at h
    split at h
    · split at h
      · exact hs e h
      · exact hs e h
    · exact hs e h

/-- **C82** (the adapter cannot be reached).  If the TCP connection fails, the call raises `ScreenLogicConnectionError`, and
there is no connection. -/
theorem C82_fails (n : Int) (es : List MacEv) (h : (MacCall.run n es).phase = .opening) :
    (MacCall.run n (es ++ [.opened false])).phase = .done (.error .slConnection) ∧ (MacCall.run n (es ++ [.opened false])).conn = none := by
  have hok := mac_ok n es
  rw [MacCall.run, List.foldl_append, ← MacCall.run]
  generalize MacCall.run n es = s at *
  cases hok with
  | opening => exact ⟨rfl, rfl⟩
  | unopened e => cases h
  | before ph es' x hraw hw hc hs hp => rcases hp with rfl | ⟨e, rfl⟩ <;> cases h
  | after ph es' x hraw hw hc hs hd hp => rcases hp with rfl | ⟨e, rfl⟩ <;> cases h

/-- **C82** (what it can raise).  Whatever happens, an exception of the call is one of eight: the four communication errors,
the cancellation of its task, `struct.error` or `UnicodeDecodeError` for an answer that is no text, and `TypeError` when the
challenge was cancelled on a live connection. -/
theorem C82_errors (n : Int) (es : List MacEv) (e : PyErr) (h : (MacCall.run n es).phase = .done (.error e)) : e ∈ macErrors := by
  have key : ∀ (es : List MacEv) (s : MacCall), MacOk n s → (∀ e, s.phase = .done (.error e) → e ∈ macErrors) →
      ∀ e, (es.foldl MacCall.step s).phase = .done (.error e) → e ∈ macErrors := by
    intro es
    induction es with
    | nil => exact fun s _ h => h
    | cons ev es ih => exact fun s hok hs => ih _ (mac_step hok ev) (mac_step_errors hok hs ev)
  exact key es _ .opening (fun e h => by cases h) e h

/-- A history in which the adapter cannot be reached, and one in which the answer is no text. -/
theorem C82_errors_witness : (MacCall.run 2 [.opened false]).phase = .done (.error .slConnection) ∧
    (MacCall.run 0 [.opened true, .resume, .net (.data (frame 0 15 [1])), .net (.resume 0), .resume]).phase = .done (.error .structError) := by
  refine ⟨rfl, ?_⟩
  rfl

/-- **C82** (the connection is lost).  If the connection is gone when the pause after the first text is over, the call raises
`ScreenLogicConnectionError` and no challenge is sent. -/
theorem C82_lost (n : Int) (es : List MacEv) (x : Conn) (h : (MacCall.run n es).phase = .pausing) (hx : (MacCall.run n es).conn = some x)
    (hc : x.w.p.connected = false) :
    (MacCall.run n (es ++ [.resume])).phase = .done (.error .slConnection) ∧
    ∃ y, (MacCall.run n (es ++ [.resume])).conn = some y ∧ y.w.p.written = x.w.p.written ∧ y.w.reqs = x.w.reqs := by
  rw [MacCall.run, List.foldl_append, ← MacCall.run]
  generalize MacCall.run n es = s at *
  simp only [List.foldl_cons, List.foldl_nil, MacCall.step, h, hx, MacCall.challenge, hc]
  exact ⟨rfl, x, rfl, rfl, rfl⟩

/-- A history in which that happens. -/
theorem C82_lost_witness : ∃ x, (MacCall.run 1 [.opened true, .net .lost]).phase = .pausing ∧ (MacCall.run 1 [.opened true, .net .lost]).conn = some x ∧
    x.w.p.connected = false := ⟨_, rfl, rfl, rfl⟩

end SL
