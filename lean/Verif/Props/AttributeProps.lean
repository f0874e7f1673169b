import Verif.Model.Attributes
import Verif.Lemmas.Coheres
import Verif.Lemmas.Named
import Verif.Props.KnownProps
import Verif.Props.SheetProps
/-!
# C105: what the gateway's attributes say

`version`, `controller_model`, `equipment_flags` and `temperature_unit` in every history.
-/
set_option linter.unusedVariables false
namespace SL
open Spec

section
variable (E : Env) (clientId maxRetries : Int)

theorem flagsNamed_after (es : List Ev) : FlagsNamed (after E clientId maxRetries es).g.data := by
  have := later_data E clientId maxRetries (R := fun a b => FlagsNamed a → FlagsNamed b) (fun _ => id) (fun _ _ _ h1 h2 h => h2 (h1 h))
    (fun D b d => flagsNamed_decode E.pyFloat D b) [] es
  exact this (fun v hv => by cases hv)

/-- A documented reading with two names on its path is missing or has a value of its kind. -/
theorem sheet_value (es : List Ev) (ss : List String) (s : Sheet) (hs : sheet (ss.map .s) = some s) (hb : s.blank = false) (hne : ss ≠ []) :
    ((after E clientId maxRetries es).g.data.look (ss.map .s ++ [.s "value"]) = none ∧
      getValue false (ss.map .s) (after E clientId maxRetries es).g.data = .ok .null) ∨
    ∃ v, (after E clientId maxRetries es).g.data.look (ss.map .s ++ [.s "value"]) = some v ∧
      getValue false (ss.map .s) (after E clientId maxRetries es).g.data = .ok v ∧ s.kind.Of v := by
  have hr := C83_reachable E clientId maxRetries es
  have ht := reachable_tree hr
  have h0 : getValue false (ss.map .s) (after E clientId maxRetries es).g.data =
      .ok (((after E clientId maxRetries es).g.data.look (ss.map .s ++ [.s "value"])).getD .null) := by
    rw [C35_value _ _ _ (tree_look (p := []) ht rfl)]
    have := getData_strings (ss ++ ["value"]) (after E clientId maxRetries es).g.data
    simpa using this
  cases hl : (after E clientId maxRetries es).g.data.look (ss.map .s ++ [.s "value"]) with
  | none => exact .inl ⟨rfl, by rw [h0, hl]; rfl⟩
  | some v =>
    refine .inr ⟨v, rfl, by rw [h0, hl]; rfl, ?_⟩
    rw [look_append] at hl
    obtain ⟨w, hw, hv⟩ := Option.bind_eq_some_iff.1 hl
    have hw' : getData false (ss.map .s) (after E clientId maxRetries es).g.data = .ok w := by
      rw [getData_strings, hw]; rfl
    obtain ⟨-, hc⟩ := C86_documented E clientId maxRetries es _ s hs w (tree_look ht hw) hw' (by rw [hb]; intro e; cases e)
    obtain ⟨x, hx, hk⟩ := hc.value
    have := getData_strings (ss ++ ["value"]) (after E clientId maxRetries es).g.data
    rw [List.map_append, List.map_cons, List.map_nil, look_append, hw, Option.bind_some, hv] at this
    rw [this] at hx
    cases hx
    exact hk

/-- **C105** (temperature unit).  `temperature_unit` never raises: it is `"°C"` if the controller's configuration says so,
and `"°F"` if it says otherwise or is not known. -/
theorem C105_unit (es : List Ev) :
    (∃ n, n ≠ 0 ∧ getValue false [.s "controller", .s "configuration", .s "is_celsius"] (after E clientId maxRetries es).g.data = .ok (.int n) ∧
      (after E clientId maxRetries es).g.temperatureUnit = .ok "°C") ∨
    ((getValue false [.s "controller", .s "configuration", .s "is_celsius"] (after E clientId maxRetries es).g.data = .ok .null ∨
        getValue false [.s "controller", .s "configuration", .s "is_celsius"] (after E clientId maxRetries es).g.data = .ok (.int 0)) ∧
      (after E clientId maxRetries es).g.temperatureUnit = .ok "°F") := by
  have hr := C83_reachable E clientId maxRetries es
  have hc : (after E clientId maxRetries es).g.data.chain [.s "controller", .s "configuration", .s "is_celsius", .s "value"] =
      .ok ((after E clientId maxRetries es).g.data.look [.s "controller", .s "configuration", .s "is_celsius", .s "value"]) := by
    refine chain_shaped (reachable_sound hr).shaped (fun q k hq => ?_)
    rcases q with _ | ⟨a, _ | ⟨b, _ | ⟨c, _ | ⟨e, q⟩⟩⟩⟩
    · rfl
    · simp only [List.cons_append, List.nil_append, List.cons_prefix_cons] at hq; rw [hq.1]; rfl
    · simp only [List.cons_append, List.nil_append, List.cons_prefix_cons] at hq; rw [hq.1, hq.2.1]; rfl
    · simp only [List.cons_append, List.nil_append, List.cons_prefix_cons] at hq; rw [hq.1, hq.2.1, hq.2.2.1]; rfl
    · simp only [List.cons_append, List.cons_prefix_cons] at hq
      have := hq.2.2.2.2.length_le
      simp at this
  have run : (after E clientId maxRetries es).g.temperatureUnit =
      .ok (match (after E clientId maxRetries es).g.data.look [.s "controller", .s "configuration", .s "is_celsius", .s "value"] with
        | some v => if v.truthy then "°C" else "°F"
        | none => "°F") := by
    show Except.map _ (Prog.run [] (Prog.get _ _) 0 _).1 = _
    rw [Prog.run, hc]
    cases (after E clientId maxRetries es).g.data.look [.s "controller", .s "configuration", .s "is_celsius", .s "value"] <;> rfl
  rcases sheet_value E clientId maxRetries es ["controller", "configuration", "is_celsius"] _ rfl rfl (by simp) with ⟨h1, h2⟩ | ⟨v, h1, h2, n, rfl⟩
  · refine .inr ⟨.inl h2, ?_⟩
    rw [run, show (after E clientId maxRetries es).g.data.look [.s "controller", .s "configuration", .s "is_celsius", .s "value"] = none from h1]
  · rw [run, show (after E clientId maxRetries es).g.data.look [.s "controller", .s "configuration", .s "is_celsius", .s "value"] = some (.int n) from h1]
    by_cases hn : n = 0
    · subst hn
      exact .inr ⟨.inr h2, rfl⟩
    · exact .inl ⟨n, hn, h2, by simp [Val.truthy, hn]⟩

/-- **C105** (version).  `version` never raises: it is `None` or a text. -/
theorem C105_version (es : List Ev) :
    (after E clientId maxRetries es).g.version = .ok .null ∨ ∃ t, (after E clientId maxRetries es).g.version = .ok (.str t) := by
  rcases sheet_value E clientId maxRetries es ["adapter", "firmware"] _ rfl rfl (by simp) with ⟨h1, h2⟩ | ⟨v, h1, h2, t, rfl⟩
  · exact .inl h2
  · exact .inr ⟨t, h2⟩

/-- **C105** (model).  `controller_model` never raises: it is `None` or a text. -/
theorem C105_model (es : List Ev) :
    (after E clientId maxRetries es).g.controllerModel = .ok .null ∨ ∃ t, (after E clientId maxRetries es).g.controllerModel = .ok (.str t) := by
  rcases sheet_value E clientId maxRetries es ["controller", "model"] _ rfl rfl (by simp) with ⟨h1, h2⟩ | ⟨v, h1, h2, t, rfl⟩
  · exact .inl h2
  · exact .inr ⟨t, h2⟩

/-- **C105** (flags).  `equipment_flags` raises `ValueError` exactly as long as the flags are not in the data.  Afterwards it is the 32 bit
number `get_data` gives, the list of names in the data is that of its bits, and the controller's model is known. -/
theorem C105_flags (es : List Ev) :
    (getData false [.s "controller", .s "equipment", .s "flags"] (after E clientId maxRetries es).g.data = .ok .null ∧
      (after E clientId maxRetries es).g.equipmentFlags = .error .valueError) ∨
    ∃ n : Nat, n < 2 ^ 32 ∧
      getData false [.s "controller", .s "equipment", .s "flags"] (after E clientId maxRetries es).g.data = .ok (.int n) ∧
      (after E clientId maxRetries es).g.equipmentFlags = .ok n ∧
      getData false [.s "controller", .s "equipment", .s "list"] (after E clientId maxRetries es).g.data = .ok (.list ((namesShown n).map .str)) ∧
      ∃ t, (after E clientId maxRetries es).g.controllerModel = .ok (.str t) := by
  have h1 := getData_strings ["controller", "equipment", "flags"] (after E clientId maxRetries es).g.data
  have h2 := getData_strings ["controller", "equipment", "list"] (after E clientId maxRetries es).g.data
  simp only [List.map_cons, List.map_nil] at h1 h2
  cases hl : (after E clientId maxRetries es).g.data.look flagsAt with
  | none =>
    have h3 : getData false [.s "controller", .s "equipment", .s "flags"] (after E clientId maxRetries es).g.data = .ok .null := by
      rw [h1, show (after E clientId maxRetries es).g.data.look [.s "controller", .s "equipment", .s "flags"] = none from hl]; rfl
    refine .inl ⟨h3, ?_⟩
    show equipmentFlags _ = _
    rw [equipmentFlags, h3]
  | some v =>
    obtain ⟨n, hn, rfl, hnames⟩ := flagsNamed_after E clientId maxRetries es v hl
    have h3 : getData false [.s "controller", .s "equipment", .s "flags"] (after E clientId maxRetries es).g.data = .ok (.int n) := by
      rw [h1, show (after E clientId maxRetries es).g.data.look [.s "controller", .s "equipment", .s "flags"] = some (.int n) from hl]; rfl
    refine .inr ⟨n, hn, h3, ?_, ?_, ?_⟩
    · show equipmentFlags _ = _
      rw [equipmentFlags, h3]
      rfl
    · rw [h2, show (after E clientId maxRetries es).g.data.look [.s "controller", .s "equipment", .s "list"] = _ from hnames]; rfl
    · obtain ⟨-, hm⟩ := flagsOk_after E clientId maxRetries es _ hl
      rcases sheet_value E clientId maxRetries es ["controller", "model"] _ rfl rfl (by simp) with ⟨h4, -⟩ | ⟨v, -, h4, t, rfl⟩
      · rw [show (after E clientId maxRetries es).g.data.look modelPath = none from h4] at hm
        cases hm
      · exact ⟨t, h4⟩

/-- **C105** (no configuration, no flags).  `equipment_flags` raises as long as the adapter has not answered a request for its configuration. -/
theorem C105_before (es : List Ev) (h : ∀ b, ¬ ReceivedMsg (after E clientId maxRetries es).g 12533 b) :
    (after E clientId maxRetries es).g.equipmentFlags = .error .valueError := by
  have hn : (after E clientId maxRetries es).g.data.look flagsAt = none := by
    have := C83_provenance E clientId maxRetries es
    generalize (after E clientId maxRetries es).g.data = d at this ⊢
    induction this with
    | init => rfl
    | step D b hm _ ih =>
      have hD : D ≠ .config := by
        rintro rfl
        rcases hm with ⟨code, p, hq, ⟨c, x, f, id, h1, -, -, h4⟩⟩ | ⟨code, hk, hr⟩
        · cases hq
          exact h b ⟨c, x, id, h1, h4⟩
        · cases hk
      rw [flagsAt_only_config _ hD, ih]
  rcases C105_flags E clientId maxRetries es with ⟨-, h2⟩ | ⟨n, -, h2, -⟩
  · exact h2
  · have h1 := getData_strings ["controller", "equipment", "flags"] (after E clientId maxRetries es).g.data
    simp only [List.map_cons, List.map_nil] at h1
    rw [h2, show (after E clientId maxRetries es).g.data.look [.s "controller", .s "equipment", .s "flags"] = none from hn] at h1
    cases h1

/-- **C105** (known stays known).  Once `version`, `controller_model` or `equipment_flags` tell something they go on telling something. -/
theorem C105_stay (es es2 : List Ev) :
    (∀ t, (after E clientId maxRetries es).g.version = .ok (.str t) → ∃ t', (after E clientId maxRetries (es ++ es2)).g.version = .ok (.str t')) ∧
    (∀ t, (after E clientId maxRetries es).g.controllerModel = .ok (.str t) →
      ∃ t', (after E clientId maxRetries (es ++ es2)).g.controllerModel = .ok (.str t')) ∧
    ∀ n, (after E clientId maxRetries es).g.equipmentFlags = .ok n → ∃ n', (after E clientId maxRetries (es ++ es2)).g.equipmentFlags = .ok n' := by
  have one : ∀ (ss : List String) (s : Sheet), sheet (ss.map .s) = some s → s.blank = false → s.kind = .text → ss ≠ [] →
      isReading (ss.map .s) = true → isNode (ss.map Key.s).dropLast = true →
      ∀ t, getValue false (ss.map .s) (after E clientId maxRetries es).g.data = .ok (.str t) →
      ∃ t', getValue false (ss.map .s) (after E clientId maxRetries (es ++ es2)).g.data = .ok (.str t') := by
    intro ss s hs hb hk hne h1 h2 t ht
    have hl : ((after E clientId maxRetries es).g.data.look (ss.map .s ++ [.s "value"])).isSome := by
      rcases sheet_value E clientId maxRetries es ss s hs hb hne with ⟨-, h3⟩ | ⟨v, h3, -⟩
      · rw [h3] at ht; cases ht
      · rw [h3]; rfl
    have := later_data E clientId maxRetries (R := fun a b => (a.look (ss.map .s ++ [.s "value"])).isSome → (b.look (ss.map .s ++ [.s "value"])).isSome)
      (fun _ h => h) (fun _ _ _ h1 h2 h => h2 (h1 h)) (fun D b d h => reading_stays E.pyFloat D b d _ h1 h2 h) es es2 hl
    rcases sheet_value E clientId maxRetries (es ++ es2) ss s hs hb hne with ⟨h3, -⟩ | ⟨v, -, h3, h4⟩
    · rw [h3] at this; cases this
    · rw [hk] at h4
      obtain ⟨t', rfl⟩ := h4
      exact ⟨t', h3⟩
  refine ⟨one ["adapter", "firmware"] _ rfl rfl rfl (by simp) rfl rfl, one ["controller", "model"] _ rfl rfl rfl (by simp) rfl rfl, ?_⟩
  intro n hn
  have hk := flagsKnown_of hn
  have := later_data E clientId maxRetries (R := fun a b => FlagsKnown a → FlagsKnown b) (fun _ => id) (fun _ _ _ h1 h2 h => h2 (h1 h))
    (fun D b d => flagsKnown_stays E.pyFloat D b d) es es2 hk
  rcases C105_flags E clientId maxRetries (es ++ es2) with ⟨h2, -⟩ | ⟨n', -, -, h2, -⟩
  · obtain ⟨v, hv⟩ := Option.isSome_iff_exists.1 this
    have h1 := getData_strings ["controller", "equipment", "flags"] (after E clientId maxRetries (es ++ es2)).g.data
    simp only [List.map_cons, List.map_nil] at h1
    rw [h2, show (after E clientId maxRetries (es ++ es2)).g.data.look [.s "controller", .s "equipment", .s "flags"] = some v from hv] at h1
    obtain ⟨n', -, rfl, -⟩ := flagsNamed_after E clientId maxRetries _ v hv
    cases h1
  · exact ⟨n', h2⟩

end

/-- A new gateway tells nothing and a connected one everything. -/
theorem C105_witness :
    (after sampleEnv 1 3 []).g.equipmentFlags = .error .valueError ∧ (after sampleEnv 1 3 []).g.temperatureUnit = .ok "°F" ∧
    (after sampleEnv 1 3 connectEvs).g.version = .ok (.str "POOL: 5.2 Build 736.0 Rel") ∧
    (after sampleEnv 1 3 connectEvs).g.controllerModel = .ok (.str "EasyTouch2 8") ∧
    (after sampleEnv 1 3 connectEvs).g.equipmentFlags = .ok 32796 ∧
    (after sampleEnv 1 3 connectEvs).g.temperatureUnit = .ok "°F" := by
  refine ⟨rfl, rfl, ?_, ?_, ?_, ?_⟩
  · decide +kernel
  · decide +kernel
  · decide +kernel
  · decide +kernel

end SL
