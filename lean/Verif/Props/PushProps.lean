import Verif.Props.SubProps
/-!
# C46: pushed messages
-/
set_option linter.unusedVariables false

namespace SL

section
variable (E : Env) (clientId maxRetries : Int)

theorem handle_push {g : Gw} {c code : Nat} {msg : Bytes} (h : NextPush g c code msg) :
    ∃ g0 : Gw, g.runHandler E c = (g0.commonCallback E code msg).2 ∧ g0.data = g.data ∧ g0.notes = g.notes ∧ g0.listeners = g.listeners ∧
      g0.sets = g.sets := by
  obtain ⟨x, h1, h2⟩ := h
  refine ⟨{ g with conns := g.conns.modify c (fun x => { x with handled := x.handled + 1 }) }, ?_, rfl, rfl, rfl, rfl⟩
  simp only [Gw.runHandler, h1, h2, commonHandler, Nat.mul_mod_right, if_true, Nat.mul_div_cancel_left code (by decide : 0 < 2)]

theorem KnownPush.eq {code : Nat} {D : Decoder} (h : KnownPush code D) : pushDecoder code = some D := by
  cases h <;> rfl

theorem pushDecoder_known {code : Nat} {D : Decoder} (h : pushDecoder code = some D) : KnownPush code D := by
  unfold pushDecoder at h
  split at h
  · rename_i e; subst e; cases h; exact .status
  · split at h
    · rename_i e; subst e; cases h; exact .chemistry
    · split at h
      · rename_i e; subst e; cases h; exact .color
      · cases h

theorem notified_notify {g g0 : Gw} (hi : g.table.Inv) (code : Nat) (hn : g0.notes = g.notes) (hl : g0.listeners = g.listeners)
    (hs : g0.sets = g.sets) : Notified g (Gw.commonCallback.notify g0 code).2 code ∧ (Gw.commonCallback.notify g0 code).2.data = g0.data := by
  simp only [Gw.commonCallback.notify]
  split
  · rename_i s hs'
    rw [hl] at hs'
    obtain ⟨l, h1, h2⟩ := hi.ref code s hs'
    change g.sets[s]? = some l at h1
    rw [hs, h1, hn]
    refine ⟨⟨l, hi.nodup s l h1, ?_, rfl⟩, rfl⟩
    intro cb
    constructor
    · intro h
      exact ⟨s, l, hs', h1, h⟩
    · rintro ⟨s', l', h3, h4, h5⟩
      rw [hs'] at h3
      cases h3
      rw [h1] at h4
      cases h4
      exact h5
  · rename_i hs'
    rw [hl] at hs'
    refine ⟨⟨[], List.nodup_nil, ?_, by simp [hn]⟩, rfl⟩
    intro cb
    simp only [List.not_mem_nil, false_iff]
    rintro ⟨s', l', h3, _⟩
    rw [hs'] at h3
    cases h3

/-- **C46**: a pushed message whose code has a decoder: first the data are updated, then the listeners are called. -/
theorem C46_known (es : List Ev) (h : Honest E clientId maxRetries es) (c code : Nat) (msg : Bytes) (D : Decoder) (hD : KnownPush code D)
    (hp : NextPush (after E clientId maxRetries es).g c code msg) (d : Val)
    (hd : decodeWith (D.prog E.pyFloat) msg (after E clientId maxRetries es).g.data = (.ok (), d)) :
    (after E clientId maxRetries (es ++ [.handle c])).g.data = d ∧
    Notified (after E clientId maxRetries es).g (after E clientId maxRetries (es ++ [.handle c])).g code := by
  rw [after_snoc]
  obtain ⟨g0, e, h1, h2, h3, h4⟩ := handle_push E hp
  change (Gw.runHandler E (after E clientId maxRetries es).g c).data = d ∧ Notified _ (Gw.runHandler E (after E clientId maxRetries es).g c) code
  rw [e]
  simp only [Gw.commonCallback, hD.eq, h1, hd]
  have := notified_notify (g0 := { g0 with data := d }) (h.inv E clientId maxRetries) code h2 h3 h4
  exact ⟨this.2, this.1⟩

/-- **C46**: a pushed message whose code has no decoder: the data stay as they are, and the listeners are called. -/
theorem C46_unknown (es : List Ev) (h : Honest E clientId maxRetries es) (c code : Nat) (msg : Bytes) (hD : ∀ D, ¬ KnownPush code D)
    (hp : NextPush (after E clientId maxRetries es).g c code msg) :
    (after E clientId maxRetries (es ++ [.handle c])).g.data = (after E clientId maxRetries es).g.data ∧
    Notified (after E clientId maxRetries es).g (after E clientId maxRetries (es ++ [.handle c])).g code := by
  rw [after_snoc]
  obtain ⟨g0, e, h1, h2, h3, h4⟩ := handle_push E hp
  change (Gw.runHandler E (after E clientId maxRetries es).g c).data = _ ∧ Notified _ (Gw.runHandler E (after E clientId maxRetries es).g c) code
  rw [e]
  have hn : pushDecoder code = none := by
    cases hx : pushDecoder code with
    | none => rfl
    | some D => exact absurd (pushDecoder_known hx) (hD D)
  simp only [Gw.commonCallback, hn]
  have := notified_notify (g0 := g0) (h.inv E clientId maxRetries) code h2 h3 h4
  exact ⟨this.2.trans h1, this.1⟩

/-- **C46**: if the message cannot be decoded nobody is called. -/
theorem C46_malformed (es : List Ev) (c code : Nat) (msg : Bytes) (D : Decoder) (hD : KnownPush code D)
    (hp : NextPush (after E clientId maxRetries es).g c code msg) (e : PyErr) (d : Val)
    (hd : decodeWith (D.prog E.pyFloat) msg (after E clientId maxRetries es).g.data = (.error e, d)) :
    (after E clientId maxRetries (es ++ [.handle c])).g.notes = (after E clientId maxRetries es).g.notes := by
  rw [after_snoc]
  obtain ⟨g0, e, h1, h2, h3, h4⟩ := handle_push E hp
  change (Gw.runHandler E (after E clientId maxRetries es).g c).notes = _
  rw [e]
  simp only [Gw.commonCallback, hD.eq, h1, hd]
  exact h2

theorem notes_kept : Part.Kept (Chg E) Gw.notes :=
  ⟨fun f g hf => by cases hf <;> rfl, fun _ _ _ => rfl, fun _ _ _ => rfl, fun _ _ => rfl, fun _ _ => rfl, fun _ => rfl⟩

/-- **C46**: listeners are called at no other time: if the event is not a handler task of the client manager, nobody is
called. -/
theorem C46_only (es : List Ev) (ev : Ev)
    (hev : ∀ c code msg, ev = .handle c → ¬ NextPush (after E clientId maxRetries es).g c code msg) :
    (after E clientId maxRetries (es ++ [ev])).g.notes = (after E clientId maxRetries es).g.notes := by
  rw [after_snoc]
  by_cases hc : ∃ a, ev = .call (.connect a)
  · obtain ⟨a, rfl⟩ := hc
    simp only [Sys.step, Sys.spawn]
    rcases settle_connect E (after E clientId maxRetries es).tasks.length a (after E clientId maxRetries es).g with
      ⟨_, e⟩ | ⟨_, _, e⟩ | ⟨_, _, k, hk, e⟩ <;> rw [e] <;> rfl
  · refine (Sys.All.step (notes_kept E) (reach_all E clientId maxRetries es) ev (fun a e => hc ⟨a, e⟩) ?_ ?_ ?_ ?_ ?_ (fun _ => rfl) (fun _ => rfl) rfl).2
    · intro cb code _ _
      simp only [Gw.addListener]
      split <;> rfl
    · intro n _
      simp only [Gw.setMaxRetries]
      split <;> rfl
    · intro u _
      simp only [Gw.unsubscribe, Gw.dropCode]
      repeat' split
      all_goals rfl
    · intro c e
      simp only [Gw.lostCallback]
      repeat' split
      all_goals rfl
    · intro c e
      have hn := fun code msg => hev c code msg e
      simp only [Gw.runHandler]
      split
      · rename_i x hx
        split
        · rename_i hh m hm
          split
          · rename_i h0
            refine absurd ⟨x, hx, ?_⟩ (hn (hh / 2) m)
            rw [hm]
            simp only [commonHandler, Option.some.injEq, Prod.mk.injEq, and_true]
            omega
          · rfl
        · rfl
      · rfl

end

/-! ### A concrete case -/

/-- Callback 7 has subscribed to chemistry messages, and the adapter pushes one. -/
def pushedEvs : List Ev := bareConnectEvs ++ .call (.subscribe 7 12505) :: (reply 0 4 12523 [] ++ [.resume 1] ++
  [.net 0 (.data ((makeMessage 0 12505 sampleChem.enc).toOption.getD []))])

/-- The message is queued for the client manager, it can be decoded, and callback 7 is called. -/
theorem C46_witness : NextPush (after sampleEnv 1 3 pushedEvs).g 0 12505 sampleChem.enc ∧
    Honest sampleEnv 1 3 pushedEvs ∧ Listening (after sampleEnv 1 3 pushedEvs).g 12505 7 ∧
    (∃ d, decodeWith ((Decoder.chemistry).prog sampleEnv.pyFloat) sampleChem.enc (after sampleEnv 1 3 pushedEvs).g.data = (.ok (), d)) ∧
    (after sampleEnv 1 3 (pushedEvs ++ [.handle 0])).g.notes.map (·.1) = [7] := by
  refine ⟨?_, ?_, ⟨0, [7], ?_, ?_, by simp⟩, ?_, ?_⟩
  · have h : ((after sampleEnv 1 3 pushedEvs).g.conns[0]?.bind (fun x => x.w.p.spawned[x.handled]?)) = some (commonHandler 12505, sampleChem.enc) := by
      decide +kernel
    obtain ⟨x, h1, h2⟩ := Option.bind_eq_some_iff.1 h
    exact ⟨x, h1, h2⟩
  · intro pre u post e
    have : Ev.unsubscribe u ∈ pushedEvs := by rw [e]; simp
    simp [pushedEvs, bareConnectEvs, loginEvs, noConfigEvs, reply] at this
  · decide +kernel
  · decide +kernel
  · have h : (match decodeWith ((Decoder.chemistry).prog sampleEnv.pyFloat) sampleChem.enc (after sampleEnv 1 3 pushedEvs).g.data with
      | (.ok _, _) => true
      | _ => false) = true := by decide +kernel
    split at h
    · rename_i u d hd
      exact ⟨d, hd⟩
    · cases h
  · decide +kernel

end SL
