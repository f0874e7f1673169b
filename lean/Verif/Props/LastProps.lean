import Verif.Props.GatewayProps
/-!
# C44: the raw answers kept for diagnostics
-/
set_option linter.unusedVariables false

namespace SL

theorem OwnMicro.grows {E : Env} {U : Prop} {t : Nat} {g g' : Gw} (m : OwnMicro E U t g g') : ∃ l, g'.acts t = g.acts t ++ l := by
  cases m with
  | upd _ hu =>
    refine ⟨[], ?_⟩
    rw [List.append_nil]
    cases hu with
    | listen cb code =>
      simp only [Gw.addListener]
      split <;> rfl
    | _ => rfl
  | ask c code data r => exact ⟨_, acts_ask_same _ _ _ _ _ _⟩
  | got o => exact ⟨_, acts_note_same _ _ _⟩
  | opn => exact ⟨_, acts_note_same _ _ _⟩
  | cls c force => exact ⟨_, acts_close_same _ _ _ _⟩
  | _ => exact ⟨[], by rw [List.append_nil]; rfl⟩

theorem FreeMicro.last {E : Env} {g g' : Gw} (m : FreeMicro E g g') : g'.last = g.last := by
  cases m with
  | env _ h =>
    cases h with
    | setMaxRetries n => simp only [Gw.setMaxRetries]; split <;> rfl
    | unsubscribe u =>
      simp only [Gw.unsubscribe]
      repeat' split
      all_goals try rfl
      all_goals
        simp only [Gw.dropCode]
        repeat' split
      all_goals rfl
    | net c e =>
      simp only [Gw.lostCallback, Gw.net]
      repeat' split
      all_goals rfl
    | handle c =>
      simp only [Gw.runHandler]
      repeat' split
      all_goals try rfl
      simp only [Gw.commonCallback]
      repeat' split
      all_goals try rfl
      all_goals
        simp only [Gw.commonCallback.notify]
        split <;> rfl
    | _ => rfl
  | _ => rfl

theorem keptRaw_query {p : Path} {x : Int × Bytes} {D : Decoder} (h : KeptRaw p x D) :
    D.query = some (x.1, .ok x.2) ∧ D.rawPath = p := by
  cases h with
  | pump i hi => exact ⟨by simp only [Decoder.query]; rw [pump_payload i hi]; rfl, rfl⟩
  | _ => exact ⟨rfl, rfl⟩


/-- Two raw answers are kept at the same place or at unrelated places. -/
theorem keptRaw_path {p : Path} {x : Int × Bytes} {D : Decoder} (h : KeptRaw p x D) (D' : Decoder) (hq : D'.query ≠ none) :
    KeptRaw p x D' ∧ D'.rawPath = p ∨ ¬ D'.rawPath <+: p ∧ ¬ p <+: D'.rawPath := by
  cases D' with
  | colorUpdate => exact absurd rfl hq
  | equipment => exact absurd rfl hq
  | status => cases h <;> first | exact .inl ⟨.status, rfl⟩ | (right; simp [Decoder.rawPath])
  | config => cases h <;> first | exact .inl ⟨.config, rfl⟩ | (right; simp [Decoder.rawPath])
  | scg => cases h <;> first | exact .inl ⟨.scg, rfl⟩ | (right; simp [Decoder.rawPath])
  | chemistry => cases h <;> first | exact .inl ⟨.chemistry, rfl⟩ | (right; simp [Decoder.rawPath])
  | dateTime now => cases h <;> first | exact .inl ⟨.dateTime _, rfl⟩ | (right; simp [Decoder.rawPath])
  | version => right; cases h <;> simp [Decoder.rawPath]
  | pump j =>
    cases h with
    | pump i hi =>
      by_cases hj : j = (i : Int)
      · subst hj; exact .inl ⟨.pump i hi, rfl⟩
      · right
        simp [Decoder.rawPath, hj, Ne.symm hj]
    | _ => right; simp [Decoder.rawPath]

theorem keptRaw_version {p : Path} {x : Int × Bytes} {D : Decoder} (h : KeptRaw p x D) :
    ¬ [Key.s "version"] <+: p ∧ ¬ p <+: [Key.s "version"] := by
  cases h <;> simp

theorem keptRaw_pumps {p : Path} {x : Int × Bytes} {D : Decoder} (h : KeptRaw p x D) : ¬ p <+: [Key.s "pumps"] := by
  cases h <;> simp

/-- The entry `p` was stored from an answer task `t` got, which decoded well. -/
def Stored (E : Env) (p : Path) (x : Int × Bytes) (t : Nat) (g : Gw) : Prop :=
  ∃ b D d, b ≠ [] ∧ Val.look p g.last = some (.bytes b) ∧ Answered (g.acts t) x b ∧ KeptRaw p x D ∧
    (decodeWith (D.prog E.pyFloat) b d).1 = .ok ()

theorem own_last {E : Env} {U : Prop} {p : Path} {x : Int × Bytes} {D : Decoder} (h : KeptRaw p x D) {t : Nat} {g g' : Gw}
    (m : OwnMicro E U t g g') : Val.look p g'.last = Val.look p g.last ∨ Stored E p x t g' := by
  cases m with
  | upd _ hu =>
    cases hu with
    | last D' code payload b hq hg hb hd =>
      rcases keptRaw_path h D' (by rw [hq]; simp) with ⟨hk, hp⟩ | ⟨h1, h2⟩
      · right
        obtain ⟨d, hd⟩ := hd
        refine ⟨b, D', d, hb, ?_, ?_, hk, by rw [hd]⟩
        · simp only [Gw.putLast, hp, look_put_same]
        · obtain ⟨h0, c, p', e, hp'⟩ := hg
          have := (keptRaw_query hk).1
          rw [hq] at this
          simp only [Option.some.injEq, Prod.mk.injEq] at this
          rw [hp'] at this
          simp only [Except.ok.injEq] at this
          refine ⟨h0, c, [], ?_⟩
          rw [← this.1, ← this.2, List.append_nil]
          exact e
      · left
        exact look_put_other _ _ h1 h2
    | noVersion o hg ho => exact .inl (look_put_other _ _ (keptRaw_version h).1 (keptRaw_version h).2)
    | pumps => exact .inl (look_putNew_empty _ (keptRaw_pumps h))
    | listen cb code =>
      left
      simp only [Gw.addListener]
      split <;> rfl
    | _ => exact .inl rfl
  | _ => exact .inl rfl

theorem star_last {E : Env} {U : Prop} {p : Path} {x : Int × Bytes} {D : Decoder} (h : KeptRaw p x D) {t : Nat} {g g' : Gw}
    (m : Star (OwnStep E U t) g g') : Val.look p g'.last = Val.look p g.last ∨ Stored E p x t g' := by
  induction m with
  | refl => exact .inl rfl
  | tail _ s ih =>
    rcases own_last h s.2.2.2 with e | e
    · rcases ih with e' | ⟨b, D', d, hb, hl, ⟨l1, c, l2, ha⟩, hk, hd⟩
      · exact .inl (e.trans e')
      · right
        obtain ⟨l, hgrow⟩ := s.2.2.2.grows
        exact ⟨b, D', d, hb, by rw [e, hl], ⟨l1, c, l2 ++ l, by rw [hgrow, ha]; simp⟩, hk, hd⟩
    · exact .inr e

/-- **C44**, first half: whatever happens, a kept raw answer changes only by being replaced with the (non-empty) answer the
task going on in this event - or started by it - got to just this request, and this answer decoded without error. -/
theorem C44_changes_partial (E : Env) (clientId maxRetries : Int) (es : List Ev) (ev : Ev) (p : Path) (x : Int × Bytes) (D : Decoder)
    (h : KeptRaw p x D)
    (hne : Val.look p (after E clientId maxRetries (es ++ [ev])).g.last ≠ Val.look p (after E clientId maxRetries es).g.last) :
    ∃ t b D' d, (ev.own t = true ∨ t = callTask E clientId maxRetries es) ∧ b ≠ [] ∧
      Val.look p (after E clientId maxRetries (es ++ [ev])).g.last = some (.bytes b) ∧
      Answered ((after E clientId maxRetries (es ++ [ev])).g.acts t) x b ∧
      KeptRaw p x D' ∧ (decodeWith (D'.prog E.pyFloat) b d).1 = .ok () := by
  have hs : SysOk E False (after E clientId maxRetries es) := (SysOk.init E False clientId maxRetries).run es (fun u => u.elim)
  rw [after_snoc] at hne ⊢
  rcases step_chain hs ev (fun u => u.elim) with ⟨t, _, ho, m⟩ | ⟨g0, m0, m⟩
  · rcases star_last h m with e | ⟨b, D', d, h1, h2, h3, h4, h5⟩
    · exact absurd e hne
    · exact ⟨t, b, D', d, .inl ho, h1, h2, h3, h4, h5⟩
  · have e0 : g0.last = (after E clientId maxRetries es).g.last :=
      m0.inv (I := fun g => g.last = (after E clientId maxRetries es).g.last) (fun a b ha hb => hb.2.2.last.trans ha) rfl
    rcases star_last h m with e | ⟨b, D', d, h1, h2, h3, h4, h5⟩
    · rw [e0] at e
      exact absurd e hne
    · exact ⟨_, b, D', d, .inr rfl, h1, h2, h3, h4, h5⟩

/-- **C44**, second half: when a getter returns normally, having got a non-empty answer, exactly this answer is kept, and
the data are the result of decoding it. -/
theorem C44_kept_partial (E : Env) (clientId maxRetries : Int) (es : List Ev) (a : Call) (x : Int × Bytes) (hx : a.getter = some x)
    (es2 : List Ev) (r : Res) (hr : EndsNow E clientId maxRetries es a es2 (.ok r)) (b : Bytes) (hb : b ≠ [])
    (he : EndsWith (actsOf E clientId maxRetries es a es2) x.1 x.2 (some b)) :
    ∃ p D d, KeptRaw p x D ∧ Val.look p (after E clientId maxRetries (es ++ .call a :: es2)).g.last = some (.bytes b) ∧
      decodeWith (D.prog E.pyFloat) b d = (.ok (), (after E clientId maxRetries (es ++ .call a :: es2)).g.data) := by
  have key : ∀ (key : Path) (D : Gw → Decoder) (code : Int) (payload : Except PyErr Bytes) (data : Bytes), payload = .ok data →
      (∀ g, (D g).query = some (code, payload)) → (∀ g, (D g).rawPath = key) → code ∉ connectCodes →
      (∀ g, KeptRaw key (code, data) (D g)) → x = (code, data) →
      (a.co E = do poll key (queryRequest E D code payload); return .none) →
      ∃ p D d, KeptRaw p x D ∧ Val.look p (after E clientId maxRetries (es ++ .call a :: es2)).g.last = some (.bytes b) ∧
        decodeWith (D.prog E.pyFloat) b d = (.ok (), (after E clientId maxRetries (es ++ .call a :: es2)).g.data) := by
    intro key D code payload data hp hD hkey hcode hk hxe hco
    subst hxe
    have h := call_end (E := E) (clientId := clientId) (maxRetries := maxRetries) (U := False) (X := noX) (I := fun _ => True)
      hc_true (Q := fun h o g => ∀ r, o = .ok r → ∃ v, EndsWith h code data v ∧ Kept E D key v g) es a es2
      (fun u => u.elim) (fun _ _ _ _ _ _ _ => trivial) trivial trivial ?_ hr
    · obtain ⟨v, ⟨h0, c, e1⟩, hkept⟩ := h _ rfl
      obtain ⟨h0', c', e2⟩ := he
      rw [e2] at e1
      have := (List.append_inj' e1 rfl).2
      simp only [List.cons.injEq, Act.got.injEq, Except.ok.injEq, and_true] at this
      obtain ⟨h1, g0, d, h2⟩ := hkept b this.2.symm hb
      exact ⟨key, D g0, d, hk g0, h1, h2⟩
    · rintro g rfl s
      rw [hco]
      refine Co.wp_bind' _ _ _ _ (Co.wp_mono ?_ _ _ _ (wp_pollSent (E := E) hD hkey hcode (l0 := []) (fun _ _ _ => trivial) s rfl))
      intro h o g hq
      cases o with
      | error e => intro r hr; cases hr
      | ok u =>
        intro r hr
        obtain ⟨d, k, hd, _, _, _, _, v, he, hk⟩ := hq.2.2.2 rfl
        rw [hp] at hd
        cases hd
        exact ⟨v, he, hk⟩
  cases a with
  | getStatus => cases hx; exact key _ (fun _ => .status) _ _ _ rfl (fun _ => rfl) (fun _ => rfl) (by decide) (fun _ => .status) rfl rfl
  | getChemistry => cases hx; exact key _ (fun _ => .chemistry) _ _ _ rfl (fun _ => rfl) (fun _ => rfl) (by decide) (fun _ => .chemistry) rfl rfl
  | getScg => cases hx; exact key _ (fun _ => .scg) _ _ _ rfl (fun _ => rfl) (fun _ => rfl) (by decide) (fun _ => .scg) rfl rfl
  | getDatetime => cases hx; exact key _ (fun g => .dateTime g.now) _ _ _ rfl (fun _ => rfl) (fun _ => rfl) (by decide) (fun _ => .dateTime _) rfl rfl
  | _ => cases hx

theorem endsNow_of {E : Env} {clientId maxRetries : Int} {es : List Ev} {a : Call} {pre : List Ev} {ev : Ev} {r : Except PyErr Res}
    (h : resultOf E clientId maxRetries es a (pre ++ [ev]) = some r) (h0 : resultOf E clientId maxRetries es a pre = none) :
    EndsNow E clientId maxRetries es a (pre ++ [ev]) r := by
  refine ⟨h, fun pre' ev' he => ?_⟩
  rw [← (List.append_inj' he rfl).1]
  exact h0

/-- Polling the chlorinator of a connected gateway, with a good answer: the theorem applies and the answer is kept. -/
theorem C44_witness :
    EndsNow sampleEnv 1 1 connectEvs .getScg (reply 0 4 12573 sampleScg.enc ++ [.resume 1]) (.ok .none) ∧
    EndsWith (actsOf sampleEnv 1 1 connectEvs .getScg (reply 0 4 12573 sampleScg.enc ++ [.resume 1])) 12572 (leBytes 4 0) (some sampleScg.enc) ∧
    sampleScg.enc ≠ [] := by
  refine ⟨endsNow_of (by decide +kernel) (by decide +kernel), ?_, by decide +kernel⟩
  · refine ⟨[], 0, ?_⟩
    decide +kernel

/-- The version answer is the exception (**C44** does not hold for it): an empty answer replaces a good one by None. -/
theorem C44_version_refuted :
    (match Val.look [.s "version"] (after sampleEnv 1 1 connectEvs).g.last with | some (.bytes _) => true | _ => false) = true ∧
    (match Val.look [.s "version"] (after sampleEnv 1 1 (connectEvs ++ .call .getScg :: (rejectEvs 1 0 4 ++
        [.opened 1 true, .resume 1] ++ reply 1 0 15 (wireText "00-C0-33-00-00-01") ++ [.resume 1] ++ reply 1 1 28 [] ++ [.resume 1] ++
        reply 1 2 8121 [] ++ [.resume 1]))).g.last with | some .null => true | _ => false) = true := by
  decide +kernel

end SL
