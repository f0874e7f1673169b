import Verif.Lemmas.Provenance
import Verif.Lemmas.Sample
import Verif.Props.DecodeGeneral
set_option linter.unusedVariables false
/-!
# C83: everything in the data came from the adapter
-/
namespace SL

/-! ## What has been received stays received -/

theorem run_later_p (w : World) (es : List Event) : Later w.p (w.run es).p := by
  induction es generalizing w with
  | nil => exact Later.refl _
  | cons e es ih => exact (step_later w e).trans (ih (w.step e))

theorem AnsweredOn.grows {g g' : Gw} (hg : Grows g g') {c : Nat} {code : Int} {p b : Bytes} (h : AnsweredOn g c code p b) : AnsweredOn g' c code p b := by
  obtain ⟨x, f, id, h1, h2, h3, h4⟩ := h
  obtain ⟨x', es, hx, e, -⟩ := hg.keep c x h1
  have hl := run_later_p x.w es
  rw [← e] at hl
  exact ⟨x', f, id, hx, hl.calls f _ h2, hl.result f _ h3, hl.recv.subset h4⟩

theorem AnsweredWith.grows {g g' : Gw} (hg : Grows g g') {code : Int} {p b : Bytes} (h : AnsweredWith g code p b) : AnsweredWith g' code p b := by
  obtain ⟨c, h⟩ := h
  exact ⟨c, h.grows hg⟩

theorem ReceivedMsg.grows {g g' : Gw} (hg : Grows g g') {code : Int} {b : Bytes} (h : ReceivedMsg g code b) : ReceivedMsg g' code b := by
  obtain ⟨c, x, id, h1, h2⟩ := h
  obtain ⟨x', es, hx, e, -⟩ := hg.keep c x h1
  have hl := run_later_p x.w es
  rw [← e] at hl
  exact ⟨c, x', id, hx, hl.recv.subset h2⟩

theorem SentFor.grows {g g' : Gw} (hg : Grows g g') {D : Decoder} {b : Bytes} (h : SentFor g D b) : SentFor g' D b :=
  h.imp (fun ⟨code, p, h1, h2⟩ => ⟨code, p, h1, h2.grows hg⟩) (fun ⟨code, h1, h2⟩ => ⟨code, h1, h2.grows hg⟩)

theorem MadeFrom.mono {f : String → Except PyErr Rat} {M M' : Decoder → Bytes → Prop} (hM : ∀ D b, M D b → M' D b) {d : Val}
    (h : MadeFrom f M d) : MadeFrom f M' d := by
  induction h with
  | init => exact .init
  | step D b hm _ ih => exact .step D b (hM D b hm) ih

/-! ## The invariant -/

/-- Every connection has a history of its own. -/
def TidyWorlds (g : Gw) : Prop := ∀ (c : Nat) (x : Conn), g.conns[c]? = some x → ∃ es, x.w = World.init.run es ∧ ∀ e ∈ es, e.tidy

/-- Every answer a task got is the answer to the request it made last. -/
def Heard (g : Gw) : Prop := ∀ (t : Nat) (h0 : List Act) (c : Nat) (code : Int) (p b : Bytes) (l : List Act),
  g.acts t = h0 ++ .ask c code p :: .got (.ok (some b)) :: l → AnsweredOn g c code p b

theorem TidyWorlds.grows {g g' : Gw} (h : TidyWorlds g) (hg : Grows g g') : TidyWorlds g' := by
  intro c x' hx'
  cases hx : g.conns[c]? with
  | none => exact hg.new c x' hx hx'
  | some x =>
    obtain ⟨es, e, t⟩ := h c x hx
    obtain ⟨y, es', hy, e', t'⟩ := hg.keep c x hx
    rw [hx'] at hy; cases hy
    exact ⟨es ++ es', by rw [e', e]; simp [World.run, List.foldl_append], fun e he => (List.mem_append.1 he).elim (t e) (t' e)⟩

/-- The outcome of a request that was answered. -/
theorem outcome_answered {g : Gw} (hw : TidyWorlds g) {c r : Nat} {x : Conn} {q : Req} {b : Bytes} (hx : g.conns[c]? = some x)
    (hq : x.w.reqs[r]? = some q) (ho : g.outcome c r = some (.ok (some b))) : AnsweredOn g c q.code q.data b := by
  obtain ⟨es, e, -⟩ := hw c x hx
  have hph : q.phase = .done (.ret (some b)) := by
    simp only [Gw.outcome, hx, Option.bind_some, World.outcome, hq] at ho
    split at ho
    · rename_i v hv
      simp only [Option.some.injEq, Except.ok.injEq] at ho
      rw [hv, ho]
    · cases ho
    · cases ho
  have hwo := worldOk es
  rw [← e] at hwo
  have hr := hwo.reqs r q hq
  obtain ⟨init, f, m, h1, h2, h3, h4⟩ := hr.outcome _ hph
  have hrv := invRecv es
  rw [← e] at hrv
  obtain ⟨k, hk⟩ := hrv.result f m h2
  obtain ⟨m', i, a1, a2, -⟩ := hrv.answered k f hk
  rw [h2] at a2
  simp only [Option.some.injEq, FutState.result.injEq] at a2
  subst a2
  have hm : m = ⟨m.id, q.code + 1, b⟩ := by rw [← h3, ← h4]
  refine ⟨x, f, m.id, hx, (hr.mine f (by rw [h1]; simp)).2, ?_, ?_⟩
  · rw [← hm]; exact h2
  · rw [← hm]; exact List.mem_of_getElem? a1

theorem acts_log {g g' : Gw} {t : Nat} {a : Act} (h : g'.log = g.log ++ [(t, a)]) (t' : Nat) :
    g'.acts t' = g.acts t' ++ (if t = t' then [a] else []) := by
  simp only [Gw.acts, h, List.filter_append, List.map_append]
  congr 1
  by_cases e : t = t' <;> simp [e]

theorem Heard.step {E : Env} {g g' : Gw} (h : Heard g) (hw : TidyWorlds g) (m : MicroA E False g g') : Heard g' := by
  have hg := micro_grows m.micro
  cases m with
  | base _ _ m hl =>
    rcases hl with hl | ⟨t, a, ha, hl⟩
    · intro t' h0 c code p b l he
      have : g'.acts t' = g.acts t' := by simp only [Gw.acts, hl]
      rw [this] at he
      exact (h t' h0 c code p b l he).grows hg
    · intro t' h0 c code p b l he
      rw [acts_log hl] at he
      split at he
      · rcases List.eq_nil_or_concat l with rfl | ⟨l', a', rfl⟩
        · have := congrArg List.getLast? he
          simp at this
          subst this
          exact absurd ha (by simp [Act.plain])
        · have e2 : h0 ++ .ask c code p :: .got (.ok (some b)) :: l'.concat a' = (h0 ++ .ask c code p :: .got (.ok (some b)) :: l') ++ [a'] := by
            simp
          rw [e2] at he
          exact (h t' h0 c code p b l' (List.append_inj' he rfl).1).grows hg
      · rw [List.append_nil] at he
        exact (h t' h0 c code p b l he).grows hg
  | got t o _ c0 r ho ha =>
    intro t' h0 c code p b l he
    rw [acts_log (g' := g.note t (.got o)) rfl] at he
    split at he
    · rename_i e
      subst e
      rcases List.eq_nil_or_concat l with rfl | ⟨l', a', rfl⟩
      · obtain ⟨h1, code', data', x, q, k1, k2, k3, k4, k5⟩ := ha
        rw [k1] at he
        have e3 : h1 ++ [Act.ask c0 code' data'] ++ [Act.got o] = h1 ++ [.ask c0 code' data', .got o] := by simp
        rw [e3] at he
        have := (List.append_inj' he rfl).2
        simp only [List.cons.injEq, Act.ask.injEq, Act.got.injEq, and_true] at this
        obtain ⟨⟨rfl, rfl, rfl⟩, rfl⟩ := this
        have := outcome_answered hw k2 k3 ho
        rw [k4, k5] at this
        exact this.grows hg
      · have e2 : h0 ++ .ask c code p :: .got (.ok (some b)) :: l'.concat a' = (h0 ++ .ask c code p :: .got (.ok (some b)) :: l') ++ [a'] := by
          simp
        rw [e2] at he
        exact (h t h0 c code p b l' (List.append_inj' he rfl).1).grows hg
    · rw [List.append_nil] at he
      exact (h t' h0 c code p b l he).grows hg

theorem query_queries {D : Decoder} {code : Int} {payload : Except PyErr Bytes} {p : Bytes} (h : D.query = some (code, payload))
    (hp : payload = .ok p) : Queries D code p := by
  subst hp
  have e1 : packObjs [.int 0] = .ok [0, 0, 0, 0] := by rfl
  have e2 : packObjs [.int 0, .int 0] = .ok [0, 0, 0, 0, 0, 0, 0, 0] := by rfl
  cases D <;> simp only [Decoder.query, e1, e2, Option.some.injEq, Prod.mk.injEq, Except.ok.injEq, reduceCtorEq] at h
  case pump i => obtain ⟨rfl, h⟩ := h; exact .pump i p h
  all_goals (obtain ⟨rfl, rfl⟩ := h; constructor)

/-- How the data change: a task reads the answer it has just got, or a message for the client manager is read. -/
theorem data_cases {E : Env} {U : Prop} {g g' : Gw} (m : Micro E U g g') : g'.data = g.data ∨
    (∃ (t : Nat) (D : Decoder) (code : Int) (payload : Except PyErr Bytes) (b : Bytes), D.query = some (code, payload) ∧ JustGot (g.acts t) code payload (some b) ∧
      g'.data = (decodeWith (D.prog E.pyFloat) b g.data).2) ∨
    (∃ (c : Nat) (x : Conn) (h : Nat) (msg : Bytes) (D : Decoder), g.conns[c]? = some x ∧ x.w.p.spawned[x.handled]? = some (h, msg) ∧ h % 2 = 0 ∧ pushDecoder (h / 2) = some D ∧
      g'.data = (decodeWith (D.prog E.pyFloat) msg g.data).2) := by
  cases m with
  | upd t _ _ hu =>
    cases hu with
    | data D code payload b hq hg hb => exact .inr (.inl ⟨t, D, code, payload, b, hq, hg, rfl⟩)
    | listen cb code =>
      left
      simp only [Gw.addListener]
      split <;> rfl
    | _ => exact .inl rfl
  | env _ _ he =>
    cases he with
    | handle c =>
      simp only [Gw.runHandler]
      split
      · rename_i x hx
        split
        · rename_i h msg hs
          split
          · rename_i hh
            simp only [Gw.commonCallback]
            split
            · rename_i D hD
              right; right
              refine ⟨c, x, h, msg, D, hx, hs, hh, hD, ?_⟩
              split
              · rename_i d hd
                rw [hd]
                simp only [Gw.commonCallback.notify]
                split <;> rfl
              · rename_i er d hd
                rw [hd]
            · left
              simp only [Gw.commonCallback.notify]
              split <;> rfl
          · exact .inl rfl
        · exact .inl rfl
      · exact .inl rfl
    | setMaxRetries n =>
      left
      simp only [Gw.setMaxRetries]
      split <;> rfl
    | unsubscribe u =>
      left
      simp only [Gw.unsubscribe, Gw.dropCode]
      repeat' (first | rfl | split)
    | net c e =>
      left
      simp only [Gw.lostCallback]
      repeat' (first | rfl | split)
    | _ => exact .inl rfl
  | _ => exact .inl rfl

theorem pushDecoder_push {code : Nat} {D : Decoder} (h : pushDecoder code = some D) : KnownPush code D := by
  unfold pushDecoder at h
  split at h
  · rename_i e; cases h; subst e; exact .status
  · split at h
    · rename_i e; cases h; subst e; exact .chemistry
    · split at h
      · rename_i e; cases h; subst e; exact .color
      · cases h

/-- What is kept by every change. -/
structure Genuine (E : Env) (g : Gw) : Prop where
  worlds : TidyWorlds g
  sound : Heard g
  made : MadeFrom E.pyFloat (SentFor g) g.data

theorem Genuine.step {E : Env} {g g' : Gw} (h : Genuine E g) (m : MicroA E False g g') : Genuine E g' := by
  have hg := micro_grows m.micro
  refine ⟨h.worlds.grows hg, h.sound.step h.worlds m, ?_⟩
  have hm : MadeFrom E.pyFloat (SentFor g') g.data := h.made.mono (fun D b => SentFor.grows hg)
  rcases data_cases m.micro with e | ⟨t, D, code, payload, b, hq, ⟨h0, c, p, ha, hp⟩, e⟩ | ⟨c, x, k, msg, D, hx, hs, hh, hD, e⟩
  · rw [e]; exact hm
  · rw [e]
    refine .step D b (.inl ⟨code, p, query_queries hq hp, ?_⟩) hm
    exact ⟨c, (h.sound t h0 c code p b [] ha).grows hg⟩
  · rw [e]
    refine .step D msg (.inr ⟨k / 2, pushDecoder_push hD, ?_⟩) hm
    obtain ⟨es, ew, ht⟩ := h.worlds c x hx
    have hf : Filed x.w.p := by rw [ew]; exact Filed.run es Filed.init ht
    obtain ⟨id, hid⟩ := hf.spawned k msg (List.mem_of_getElem? hs) hh
    exact ReceivedMsg.grows hg ⟨c, x, id, hx, hid⟩

section
variable (E : Env) (clientId maxRetries : Int)

theorem reach_genuine (es : List Ev) : Genuine E (after E clientId maxRetries es).g :=
  reach_asked (I := Genuine E) ⟨(fun c x hx => by cases hx), (fun t h0 c code p b l h => by simp [Sys.init, Gw.acts] at h), .init⟩
    (fun g g' h m => h.step m) es

/-- **C83** In every history the data of the gateway is what reading messages of the adapter makes of `{}`: every payload that
was ever read into it was received, on one of the gateway's own connections, in answer to the query of that decoder (for a
pump, the query of that very pump) or as a pushed message of a code known with it. -/
theorem C83_provenance (es : List Ev) :
    MadeFrom E.pyFloat (SentFor (after E clientId maxRetries es).g) (after E clientId maxRetries es).g.data :=
  (reach_genuine E clientId maxRetries es).made

/-- **C83** Whatever bytes a call gets from a request are what the adapter answered to that very request: the message has
the code of the answer and was given to a request sent with the same code and payload. -/
theorem C83_answers (es : List Ev) (t : Nat) (h0 : List Act) (c : Nat) (code : Int) (p b : Bytes) (l : List Act)
    (h : (after E clientId maxRetries es).g.acts t = h0 ++ .ask c code p :: .got (.ok (some b)) :: l) :
    AnsweredOn (after E clientId maxRetries es).g c code p b :=
  (reach_genuine E clientId maxRetries es).sound t h0 c code p b l h

/-- **C83** So the data of every gateway is data that the decoder theorems (C51 to C62, C79) are about. -/
theorem C83_reachable (es : List Ev) : Reachable E.pyFloat (after E clientId maxRetries es).g.data := by
  have := C83_provenance E clientId maxRetries es
  generalize (after E clientId maxRetries es).g.data = d at this ⊢
  induction this with
  | init => exact .init
  | step D b _ _ ih => exact .step D b ih

/-- **C83** As long as the adapter has sent none of these messages, the data is `{}`. -/
theorem C83_silent (es : List Ev)
    (h : ∀ code b, ReceivedMsg (after E clientId maxRetries es).g code b →
      code ∉ [12527, 12533, 12573, 12593, 12585, 8121, 8111, 12500, 12505, 12504]) :
    (after E clientId maxRetries es).g.data = .dict [] := by
  have := C83_provenance E clientId maxRetries es
  generalize (after E clientId maxRetries es).g.data = d at this ⊢
  cases this with
  | init => rfl
  | step D b hm _ =>
    exfalso
    rcases hm with ⟨code, p, hq, ⟨c, x, f, id, h1, -, -, h4⟩⟩ | ⟨code, hk, hr⟩
    · have := h (code + 1) b ⟨c, x, id, h1, h4⟩
      cases hq <;> simp at this
    · have := h code b hr
      cases hk <;> simp at this

theorem made_section {f : String → Except PyErr Rat} {M : Decoder → Bytes → Prop} {d : Val} (hm : MadeFrom f M d) (k : Key)
    (hk : d.look [k] ≠ none) : ∃ D b, M D b ∧ ∃ s ∈ Spec.branches D, k = .s s := by
  induction hm with
  | init => exact absurd rfl hk
  | step D b hM hd ih =>
    by_cases h : ∃ s ∈ Spec.branches D, k = .s s
    · exact ⟨D, b, hM, h⟩
    · rw [C58_frame f D b _ k (fun s hs e => h ⟨s, hs, e⟩)] at hk
      exact ih hk

/-- **C83** A section is in the data only if the adapter sent a message about it: for example `scg` only if it answered a
chlorinator query, and a section of any other name is never there. -/
theorem C83_sections (es : List Ev) (k : Key) (hk : (after E clientId maxRetries es).g.data.look [k] ≠ none) :
    ∃ s code b, k = .s s ∧ code ∈ sectionCodes s ∧ ReceivedMsg (after E clientId maxRetries es).g code b := by
  obtain ⟨D, b, hM, s, hs, rfl⟩ := made_section (C83_provenance E clientId maxRetries es) k hk
  rcases hM with ⟨code, p, hq, ⟨c, x, f, id, h1, -, -, h4⟩⟩ | ⟨code, hp, hr⟩
  · refine ⟨s, code + 1, b, rfl, ?_, c, x, id, h1, h4⟩
    cases hq <;> simp only [Spec.branches, List.mem_cons, List.not_mem_nil, or_false] at hs <;>
      first | (subst hs; simp [sectionCodes]) | (rcases hs with rfl | rfl | rfl <;> simp [sectionCodes])
  · refine ⟨s, code, b, rfl, ?_, hr⟩
    cases hp <;> simp only [Spec.branches, List.mem_cons, List.not_mem_nil, or_false] at hs <;>
      first | (subst hs; simp [sectionCodes]) | (rcases hs with rfl | rfl | rfl <;> simp [sectionCodes])
end

/-- After a chlorinator poll the data holds `scg`, and the bytes it was read from are there. -/
theorem C83_witness : (after sampleEnv 1 3 (polledEvs .getScg 12573 sampleScg.enc)).g.data.look [.s "scg"] ≠ none ∧
    AnsweredWith (after sampleEnv 1 3 (polledEvs .getScg 12573 sampleScg.enc)).g 12572 [0, 0, 0, 0] sampleScg.enc := by
  constructor
  · intro h
    have : ((after sampleEnv 1 3 (polledEvs .getScg 12573 sampleScg.enc)).g.data.look [.s "scg"]).isSome = true := by decide +kernel
    rw [h] at this
    cases this
  · have h : ((after sampleEnv 1 3 (polledEvs .getScg 12573 sampleScg.enc)).g.acts 1) =
        [] ++ .ask 0 12572 [0, 0, 0, 0] :: .got (.ok (some sampleScg.enc)) :: [] := by decide +kernel
    exact ⟨0, C83_answers sampleEnv 1 3 _ 1 [] 0 12572 _ _ [] h⟩

end SL
