import Verif.Props.GrowthProps
import Verif.Lemmas.Sheets
/-!
# C86: the readings describe themselves as documented
-/
set_option linter.unusedVariables false
namespace SL

theorem clear_prefix {p q : Path} (h : clear p = true) (hq : q <+: p) (hne : q ≠ p) : sheet q = none := by
  obtain ⟨r, rfl⟩ := hq
  have hr : r ≠ [] := by rintro rfl; simp at hne
  have := List.all_eq_true.1 h q.length (by
    rw [List.mem_range, List.length_append]
    have := List.length_pos_iff.2 hr
    omega)
  simpa using this

theorem sheet_place {q : Path} {s : Sheet} (h : sheet q = some s) : isNode q.dropLast = true ∧ q.length ≤ 3 := by
  unfold sheet at h
  split at h
  · exact ⟨rfl, Nat.le_refl 3⟩
  · exact ⟨rfl, Nat.le_refl 3⟩
  · have hm := mem_of_aget h
    have : ∀ e ∈ ctlSheets ++ scgSheets ++ chemSheets, isNode e.1.dropLast = true ∧ e.1.length ≤ 3 := by decide +kernel
    exact this _ hm

/-- Readings documented in the table are stored as documented. -/
def SheetsOK (d : Val) : Prop := ∀ q s, sheet q = some s → ∀ v, d.look q = some v → Meets s v

theorem sheets_step (f : String → Except PyErr Rat) (D : Decoder) (m : Bytes) (d : Val) (h : SheetsOK d) :
    SheetsOK (decodeWith (D.prog f) m d).2 := by
  refine run_rel (R := fun a b => SheetsOK a → SheetsOK b) (fun _ h => h) (fun a b c h1 h2 h => h2 (h1 h)) ?_ ?_
    (allOps_and (D.fits f) (D.sheeted f)) m 0 d h
  · rintro p x d ⟨hop, hc, hx⟩ h q s hs v hv
    have hn : isNode p = false := by
      simp only [opOK, Bool.and_eq_true, Bool.not_eq_true', defaulted, Bool.or_eq_false_iff] at hop
      exact hop.2.2.1
    by_cases h3 : p = q
    · subst h3
      rw [look_put_same] at hv
      cases hv
      exact hx s hs
    · by_cases h1 : p <+: q
      · have := isNode_prefix (sheet_place hs).1 (p := q.dropLast) (q := p) (by
          obtain ⟨r, rfl⟩ := h1
          have : r ≠ [] := by rintro rfl; simp at h3
          rw [List.dropLast_append_of_ne_nil this]
          exact List.prefix_append _ _)
        rw [hn] at this; cases this
      · by_cases h2 : q <+: p
        · rw [clear_prefix hc h2 (fun e => h3 e.symm)] at hs; cases hs
        · rw [look_put_other x d h1 h2] at hv
          exact h q s hs v hv
  · rintro p x d ⟨hop, hc, hp, hx⟩ h q s hs v hv
    cases hl : Val.look p d with
    | some y => rw [putNew_of_some hl] at hv; exact h q s hs v hv
    | none =>
      rw [putNew_of_none hl] at hv
      by_cases h3 : p = q
      · subst h3; rw [hp] at hs; cases hs
      · by_cases h1 : p <+: q
        · obtain ⟨r, rfl⟩ := h1
          have hr : r ≠ [] := by rintro rfl; simp at h3
          rw [look_put_below] at hv
          rcases hx with rfl | hx
          · cases r with
            | nil => exact absurd rfl hr
            | cons k r => simp [Val.look, aget] at hv
          · have := (sheet_place hs).2
            have := List.length_pos_iff.2 hr
            rw [List.length_append] at *
            omega
        · by_cases h2 : q <+: p
          · rw [clear_prefix hc h2 (fun e => h3 e.symm)] at hs; cases hs
          · rw [look_put_other x d h1 h2] at hv
            exact h q s hs v hv

theorem reachable_sheets {f : String → Except PyErr Rat} {d : Val} (h : Reachable f d) : SheetsOK d := by
  induction h with
  | init =>
    intro q s hs v hv
    cases q with
    | nil => rw [show sheet [] = none from rfl] at hs; cases hs
    | cons k q => simp [Val.look, aget] at hv
  | step D b _ ih => exact sheets_step f D b _ ih

/-- Under a group, an attribute of a reading is looked up in the reading. -/
theorem getData_attr {f : String → Except PyErr Rat} {d : Val} (hd : Reachable f d) {q : Path} {kv : List (Key × Val)}
    (h : d.look q = some (.dict kv)) (hq : q ≠ []) (a : String) : getData false (q ++ [.s a]) d = .ok ((aget (.s a) kv).getD .null) := by
  have hv : ∀ r v, r <+: q ++ [.s a] → d.look r = some v → v ≠ .null := fun r v _ hl => tree_look (reachable_tree hd) hl
  cases ha : aget (.s a) kv with
  | some v =>
    refine look_getData hv ?_
    rw [look_append, h]
    simp [Val.look, ha]
  | none =>
    have key : ∀ (q : Path) (d : Val), (∀ r v, r <+: q → d.look r = some v → v ≠ .null) → d.look q = some (.dict kv) →
        getData false (q ++ [.s a]) d = .ok .null := by
      intro q
      induction q with
      | nil =>
        intro d _ h
        simp only [Val.look, Option.some.injEq] at h
        subst h
        simp [getData, getNext, ha]
      | cons k q ih =>
        intro d hv h
        cases d with
        | dict kv' =>
          simp only [Val.look, Option.bind_eq_some_iff] at h
          obtain ⟨w, hw, h⟩ := h
          have e : getNext (.dict kv') k = w := by simp [getNext, hw]
          have : w ≠ .null := hv [k] w (by simp) (by simp [Val.look, hw])
          rw [List.cons_append, getData, if_neg (by rw [e]; exact this), e]
          exact ih w (fun r v hr hl => hv (k :: r) v (by simpa using hr) (by simp [Val.look, hw, hl])) h
        | _ => simp [Val.look] at h
    simpa using key q d (fun r v _ hl => tree_look (reachable_tree hd) hl) h

section
variable (E : Env) (clientId maxRetries : Int)

/-- **C86** Whenever a documented reading is in the data (and, for a pump, is not just the `{}` left by a message cut
short), it has a value and describes itself as documented: its name, unit, kind, options and limits. -/
theorem C86_documented (es : List Ev) (q : Path) (s : Sheet) (hs : sheet q = some s) (v : Val) (hv : v ≠ .null)
    (h : getData false q (after E clientId maxRetries es).g.data = .ok v) (hb : s.blank = true → v ≠ .dict []) :
    (∃ x, x ≠ .null ∧ getValue false q (after E clientId maxRetries es).g.data = .ok x) ∧
    Carries s (fun a => getData false (q ++ [.s a]) (after E clientId maxRetries es).g.data) := by
  have hr := C83_reachable E clientId maxRetries es
  generalize (after E clientId maxRetries es).g.data = d at *
  have ht := reachable_tree hr
  have hn := (sheet_place hs).1
  have hq0 : q ≠ [] := by rintro rfl; rw [show sheet [] = none from rfl] at hs; cases hs
  have hl : d.look q = some v := by
    refine getData_dicts (fun r i w hp hl => (reachable_sound hr).shaped r w ?_ hl) hv h
    rw [Bool.or_eq_true]
    left
    obtain ⟨q', k, rfl⟩ : ∃ q' k, q = q' ++ [k] := by
      rcases List.eq_nil_or_concat q with rfl | ⟨q', k, rfl⟩
      · exact absurd rfl hq0
      · exact ⟨q', k, by rw [List.concat_eq_append]⟩
    rw [List.dropLast_concat] at hn
    exact isNode_prefix hn (prefix_snoc hp)
  rcases reachable_sheets hr q s hs v hl with ⟨hb', e⟩ | ⟨kv, rfl, hval, hc⟩
  · exact absurd e (hb hb')
  · have hg := getData_attr hr hl hq0
    refine ⟨?_, ?_⟩
    · rw [C35_value _ _ _ (tree_look (p := []) ht rfl), hg]
      obtain ⟨x, hx⟩ := Option.isSome_iff_exists.1 hval
      rw [hx]
      exact ⟨x, tree_look ht (p := q ++ [.s "value"]) (by rw [look_append, hl]; simp [Val.look, hx]), rfl⟩
    · have e : (fun a => getData false (q ++ [.s a]) d) = fun a => .ok ((aget (.s a) kv).getD .null) := funext hg
      rw [e]
      exact hc
end

/-- After a chlorinator poll the documented salt reading is there. -/
theorem C86_witness : (sheet [.s "scg", .s "sensor", .s "salt_ppm"]).isSome ∧ (sheet [.s "body", .i 0, .s "heat_mode"]).isSome ∧
    (∃ v, v ≠ .null ∧ getData false [.s "scg", .s "sensor", .s "salt_ppm"] (after sampleEnv 1 3 (polledEvs .getScg 12573 sampleScg.enc)).g.data = .ok v) :=
  ⟨rfl, rfl, C85_witness.2.2.1⟩

end SL
