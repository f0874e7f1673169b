import Verif.Lemmas.Opens
import Verif.Props.ToldProps
/-!
# C113: connecting answers True only when it was told the version and the configuration, and shows them
-/
set_option linter.unusedVariables false
set_option maxRecDepth 20000
namespace SL

section
variable (E : Env) (clientId maxRetries : Int)

theorem reach_wins {x : Int × Bytes} (hx : x ∈ connectQueries) (es : List Ev) (hc : (after E clientId maxRetries es).g.isConnected = false) (a : ConnectArgs)
    (es2 : List Ev) :
    ∃ y, (after E clientId maxRetries (es ++ .call (.connect a) :: es2)).tasks[callTask E clientId maxRetries es]? = some y ∧
      y.Wins x.1 x.2 (actsOf E clientId maxRetries es (.connect a) es2) := by
  refine snoc_ind (P := fun l => ∃ y, (after E clientId maxRetries (es ++ .call (.connect a) :: l)).tasks[callTask E clientId maxRetries es]? = some y ∧
      y.Wins x.1 x.2 (actsOf E clientId maxRetries es (.connect a) l)) ?_ ?_ es2
  · unfold actsOf
    rw [after_snoc]
    obtain ⟨co, hw, he⟩ := wins_connect E (x := x) a hc (callTask E clientId maxRetries es)
    have h1 := settle_wins (callTask E clientId maxRetries es) co (after E clientId maxRetries es).g False hw False.elim
    rw [← he _ rfl] at h1
    exact ⟨_, by simp [Sys.step, Sys.spawn, callTask], h1⟩
  · intro l ev ⟨y, hy, hw⟩
    have hok : SysOk E False (after E clientId maxRetries (es ++ .call (.connect a) :: l)) := (SysOk.init E False clientId maxRetries).run _ (fun u => u.elim)
    have hst := wins_step hx hok ev hy hw
    rw [← after_snoc] at hst
    unfold actsOf
    have e : es ++ .call (.connect a) :: (l ++ [ev]) = (es ++ .call (.connect a) :: l) ++ [ev] := by simp
    rw [e]
    exact hst

/-- **C113** (answered).  When `async_connect`, called on a gateway that is not connected, returns True, it has been answered each of these: the version and
the configuration queries. -/
theorem C113_answered (es : List Ev) (hc : (after E clientId maxRetries es).g.isConnected = false) (a : ConnectArgs) (es2 : List Ev)
    (hr : resultOf E clientId maxRetries es (.connect a) es2 = some (.ok (.bool true))) (x : Int × Bytes) (hx : x ∈ connectQueries) :
    ∃ h0 c reply l, actsOf E clientId maxRetries es (.connect a) es2 = h0 ++ .ask c x.1 x.2 :: .got (.ok reply) :: l := by
  obtain ⟨y, hy, hg⟩ := reach_wins E clientId maxRetries hx es hc a es2
  have : y = .done (.ok (.bool true)) := by
    simp only [resultOf, Sys.result] at hr
    rw [hy] at hr
    split at hr
    · rename_i h; cases h; cases hr; rfl
    · cases hr
  subst this
  exact hg rfl

/-- **C113** (shown).  And if an answer is a message, everything it tells was shown as soon as it was handed over, and when the call returns a documented
reading shows what the answer told, or what a message read since then tells. -/
theorem C113_shown (hf : ∀ t e, E.pyFloat t = .error e → e.isComm = false) (es : List Ev) (hc : (after E clientId maxRetries es).g.isConnected = false)
    (a : ConnectArgs) (es2 : List Ev) (hr : resultOf E clientId maxRetries es (.connect a) es2 = some (.ok (.bool true))) (x : Int × Bytes) (hx : x ∈ connectQueries) :
    ∃ h0 c reply l, actsOf E clientId maxRetries es (.connect a) es2 = h0 ++ .ask c x.1 x.2 :: .got (.ok reply) :: l ∧
      ∀ m, reply = some m → ∃ p rest, es2 = p ++ rest ∧ HandedNow E clientId maxRetries es (.connect a) p x.1 x.2 m ∧
        ∀ D q v, Queries D x.1 x.2 → Tells D m q v →
          (∃ v', Tells D m q v' ∧ Displays (after E clientId maxRetries (es ++ .call (.connect a) :: p)).g.data q v') ∧
          ∀ s, sheet q = some s →
            (∃ v', Tells D m q v' ∧ getValue false q (after E clientId maxRetries (es ++ .call (.connect a) :: es2)).g.data = .ok v') ∨
            ∃ D' m' v', ReadIn E clientId maxRetries (es ++ .call (.connect a) :: p) rest D' m' ∧ Tells D' m' q v' ∧
              getValue false q (after E clientId maxRetries (es ++ .call (.connect a) :: es2)).g.data = .ok v' := by
  obtain ⟨h0, c, reply, l, h⟩ := C113_answered E clientId maxRetries es hc a es2 hr x hx
  have ha : ∀ code data, Call.connect a ≠ .send code data := fun _ _ h => by cases h
  refine ⟨h0, c, reply, l, h, ?_⟩
  rintro m rfl
  obtain ⟨p, rest, he, hn⟩ := C111_when E clientId maxRetries es (.connect a) ha es2 h0 c x.1 x.2 m l h
  refine ⟨p, rest, he, hn, fun D q v hD hv => ⟨C111_returns E clientId maxRetries hf es (.connect a) ha es2 _ hr p rest he x.1 x.2 m hn D hD q v hv, fun s hs => ?_⟩⟩
  rcases C111_kept E clientId maxRetries hf es (.connect a) ha es2 _ hr p rest he x.1 x.2 m hn D hD q s hs v hv with h1 | h1 | ⟨i, k, m', rfl, -, -⟩
  · exact .inl h1
  · exact .inr h1
  · exfalso
    have hx1 : x.1 ∈ [(8120 : Int), 12532] := by
      simp only [connectQueries, List.mem_cons, List.not_mem_nil, or_false] at hx
      rcases hx with rfl | rfl <;> simp
    generalize x.1 = code at *
    generalize x.2 = data at *
    generalize hq : ([.s "pump", .i i, .s k] : Path) = q at hv
    cases hv with
    | fixed _ _ _ f _ hf _ =>
      subst hq
      cases D <;> simp [places, statusPlaces, configPlaces, scgPlaces, chemPlaces, timePlaces] at hf
    | pump => cases hD; simp at hx1
    | tail _ _ f _ n c _ _ hf _ => subst hq; simp [tailPlaces] at hf
    | _ => simp at hq

end

theorem model_of {f : String → Except PyErr Rat} {d : Val} (hd : Reachable f d)
    (h : (match Val.look [.s "controller", .s "model", .s "value"] d with | some (.str n) => n == Spec.modelName 13 0 | _ => false) = true) :
    getValue false [.s "controller", .s "model"] d = .ok (.str (Spec.modelName 13 0)) := by
  split at h
  · rename_i n hn
    rw [look_value hd (q := [.s "controller", .s "model"]) hn]
    rw [beq_iff_eq] at h
    rw [h]
  · cases h

/-- A first connection: it returns True; the configuration was handed to it and the model it tells is shown at the end. -/
theorem C113_witness :
    (after sampleEnv 1 1 []).g.isConnected = false ∧
    resultOf sampleEnv 1 1 [] (.connect { ip := some "10.0.0.1" }) (loginEvs 0 0 ++ configEvs 0 0) = some (.ok (.bool true)) ∧
    (∃ h0 c l, actsOf sampleEnv 1 1 [] (.connect { ip := some "10.0.0.1" }) (loginEvs 0 0 ++ configEvs 0 0) =
      h0 ++ .ask c 12532 [0, 0, 0, 0, 0, 0, 0, 0] :: .got (.ok (some sampleConfig.enc)) :: l) ∧
    Queries .config 12532 [0, 0, 0, 0, 0, 0, 0, 0] ∧ Tells .config sampleConfig.enc [.s "controller", .s "model"] (.str (Spec.modelName 13 0)) ∧
    (∃ s, sheet [.s "controller", .s "model"] = some s) ∧
    getValue false [.s "controller", .s "model"]
      (after sampleEnv 1 1 ([] ++ .call (.connect { ip := some "10.0.0.1" }) :: (loginEvs 0 0 ++ configEvs 0 0))).g.data = .ok (.str (Spec.modelName 13 0)) ∧
    (12532, [0, 0, 0, 0, 0, 0, 0, 0]) ∈ connectQueries := by
  obtain ⟨h1, h2, h3⟩ := C111_witness_connect
  refine ⟨by decide +kernel, h3, ?_, h2, ?_, ⟨_, rfl⟩, model_of (C83_reachable sampleEnv 1 1 _) (by decide +kernel), by simp [connectQueries]⟩
  · obtain ⟨pre, ev, h0, c, l, -, -, e⟩ := h1
    exact ⟨h0, c, l, e⟩
  · exact .model _ 13 0 ⟨sampleConfig.enc.take 9, [13], sampleConfig.enc.drop 10, by decide +kernel, by decide +kernel, by decide +kernel⟩
      ⟨sampleConfig.enc.take 10, [0], sampleConfig.enc.drop 11, by decide +kernel, by decide +kernel, by decide +kernel⟩

end SL
