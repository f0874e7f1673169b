import Verif.Props.ProvProps
import Verif.Props.LastProps
import Verif.Props.GrowthProps
set_option linter.unusedVariables false
/-!
# C44: where the raw answers come from
-/
namespace SL

theorem last_cases {E : Env} {U : Prop} {g g' : Gw} (m : Micro E U g g') : g'.last = g.last ∨
    (∃ (t : Nat) (D : Decoder) (code : Int) (payload : Except PyErr Bytes) (b : Bytes), D.query = some (code, payload) ∧
      JustGot (g.acts t) code payload (some b) ∧ g'.last = Val.put D.rawPath (.bytes b) g.last) ∨
    g'.last = Val.put [.s "version"] .null g.last ∨ g'.last = Val.putNew [.s "pumps"] (.dict []) g.last := by
  cases m with
  | upd t _ _ hu =>
    cases hu with
    | last D code payload b hq hg hb hd => exact .inr (.inl ⟨t, D, code, payload, b, hq, hg, rfl⟩)
    | noVersion o hg ho => exact .inr (.inr (.inl rfl))
    | pumps => exact .inr (.inr (.inr rfl))
    | listen cb code =>
      left
      simp only [Gw.addListener]
      split <;> rfl
    | _ => exact .inl rfl
  | env _ _ he =>
    left
    cases he with
    | handle c =>
      simp only [Gw.runHandler, Gw.commonCallback, Gw.commonCallback.notify]
      repeat' (first | rfl | split)
    | setMaxRetries n =>
      simp only [Gw.setMaxRetries]
      split <;> rfl
    | unsubscribe u =>
      simp only [Gw.unsubscribe, Gw.dropCode]
      repeat' (first | rfl | split)
    | net c e =>
      simp only [Gw.lostCallback]
      repeat' (first | rfl | split)
    | _ => rfl
  | _ => exact .inl rfl

/-- What `get_debug()` keeps was answered. -/
structure RawGenuine (g : Gw) : Prop where
  kept : ∀ p x D, KeptRaw p x D → ∀ b, Val.look p g.last = some (.bytes b) → AnsweredWith g x.1 x.2 b
  version : ∀ b, Val.look [.s "version"] g.last = some (.bytes b) → AnsweredWith g 8120 [] b

theorem version_unrelated {D : Decoder} {code : Int} {payload : Except PyErr Bytes} (hq : D.query = some (code, payload)) :
    D = .version ∨ ¬ D.rawPath <+: [.s "version"] ∧ ¬ [Key.s "version"] <+: D.rawPath := by
  cases D <;> first | exact .inl rfl | (right; simp [Decoder.rawPath]; done) | (simp [Decoder.query] at hq; done)

theorem RawGenuine.step {E : Env} {g g' : Gw} (h : RawGenuine g) (hn : Heard g) (m : MicroA E False g g') : RawGenuine g' := by
  have hg := micro_grows m.micro
  rcases last_cases m.micro with e | ⟨t, D, code, payload, b, hq, ⟨h0, c, p, ha, hp⟩, e⟩ | e | e
  · exact ⟨fun p x D hk b hb => (h.kept p x D hk b (e ▸ hb)).grows hg, fun b hb => (h.version b (e ▸ hb)).grows hg⟩
  · have ans : AnsweredWith g' code p b := ⟨c, (hn t h0 c code p b [] ha).grows hg⟩
    subst hp
    refine ⟨fun q x D' hk b' hb => ?_, fun b' hb => ?_⟩
    · rw [e] at hb
      rcases keptRaw_path hk D (by rw [hq]; simp) with ⟨hk2, hp⟩ | ⟨h1, h2⟩
      · rw [hp, look_put_same] at hb
        simp only [Option.some.injEq, Val.bytes.injEq] at hb
        subst hb
        have := (keptRaw_query hk2).1
        rw [hq] at this
        simp only [Option.some.injEq, Prod.mk.injEq, Except.ok.injEq] at this
        rw [← this.1, ← this.2]
        exact ans
      · rw [look_put_other _ _ h1 h2] at hb
        exact (h.kept q x D' hk b' hb).grows hg
    · rw [e] at hb
      rcases version_unrelated hq with rfl | ⟨h1, h2⟩
      · simp only [Decoder.query, Option.some.injEq, Prod.mk.injEq, Except.ok.injEq] at hq
        obtain ⟨rfl, rfl⟩ := hq
        rw [show Decoder.version.rawPath = [Key.s "version"] from rfl, look_put_same] at hb
        simp only [Option.some.injEq, Val.bytes.injEq] at hb
        subst hb
        exact ans
      · rw [look_put_other _ _ h1 h2] at hb
        exact (h.version b' hb).grows hg
  · refine ⟨fun q x D' hk b' hb => ?_, fun b' hb => ?_⟩
    · rw [e, look_put_other _ _ (keptRaw_version hk).1 (keptRaw_version hk).2] at hb
      exact (h.kept q x D' hk b' hb).grows hg
    · rw [e, look_put_same] at hb
      cases hb
  · refine ⟨fun q x D' hk b' hb => ?_, fun b' hb => ?_⟩
    · rw [e, look_putNew_empty _ (keptRaw_pumps hk)] at hb
      exact (h.kept q x D' hk b' hb).grows hg
    · rw [e, look_putNew_empty _ (by simp)] at hb
      exact (h.version b' hb).grows hg

/-- **C44** (where the raw data come from): whatever bytes `get_debug()` shows for a request were received from the adapter
as its answer to that very request; for a pump, to the query of that very pump. -/
theorem C44_genuine (E : Env) (clientId maxRetries : Int) (es : List Ev) :
    (∀ p x D b, KeptRaw p x D → Val.look p (after E clientId maxRetries es).g.last = some (.bytes b) →
      AnsweredWith (after E clientId maxRetries es).g x.1 x.2 b) ∧
    (∀ b, Val.look [.s "version"] (after E clientId maxRetries es).g.last = some (.bytes b) →
      AnsweredWith (after E clientId maxRetries es).g 8120 [] b) := by
  have := (reach_asked (I := fun g => Genuine E g ∧ RawGenuine g) (clientId := clientId) (maxRetries := maxRetries)
    ⟨⟨(fun c x hx => by cases hx), (fun t h0 c code p b l h => by simp [Sys.init, Gw.acts] at h), .init⟩,
      ⟨(fun p x D hk b hb => by cases hk <;> simp [Sys.init, Val.look, aget] at hb), (fun b hb => by simp [Sys.init, Val.look, aget] at hb)⟩⟩
    (fun g g' h m => ⟨h.1.step m, h.2.step h.1.sound m⟩) es).2
  exact ⟨fun p x D b hk hb => this.kept p x D hk b hb, this.version⟩

end SL
