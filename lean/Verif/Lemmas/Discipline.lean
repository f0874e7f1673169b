import Verif.Lemmas.Reads
/-! Every decoder respects the shape of the data tree. -/
namespace SL
open Spec
open Prog (run andThen Res rd rdString rdArray rdTime rdMsgString offset store setdefault lookup throw loop forRange)

/-- A disciplined program keeps the data well-shaped, whatever happens. -/
theorem disc_shaped {α : Type} {p : Prog α} {E : List Path} {Q : List Path → α → Prop} (hD : Disc p E Q)
    (buff : Bytes) (o : Nat) (d : Val) (hS : Shaped d)
    (hE : ∀ e ∈ E, isNode e = true ∧ ∃ kv, Val.look e d = some (.dict kv)) : Shaped (p.run buff o d).2 := by
  induction p generalizing o d E with
  | pure a => exact hS
  | raise e => exact hS
  | num f k ih => exact andThen_snd hS (fun a o => ih a (hD a) o d hS hE)
  | str k ih => exact andThen_snd hS (fun a o => ih a (hD a) o d hS hE)
  | arr k ih => exact andThen_snd hS (fun a o => ih a (hD a) o d hS hE)
  | time k ih => exact andThen_snd hS (fun a o => ih a (hD a) o d hS hE)
  | msgStr k ih =>
    simp only [run]
    split
    · exact ih _ (hD _) o d hS hE
    · exact hS
  | off k ih => exact ih o (hD o) o d hS hE
  | set p x k ih =>
    simp only [run]
    split
    · exact ih hD.2.2.2 o _ (shaped_put hS hD.2.2.1) (present_put hE hD.2.2.1)
    · exact hS
  | setdef p x k ih =>
    simp only [run]
    split
    · exact ih hD.2.2.2 o _ (shaped_putNew hS hD.2.2.1) (present_putNew hS hE hD.2.2.1)
    · exact hS
  | get p k ih =>
    simp only [run]
    split
    · exact ih _ (hD.2 _) o d hS hE
    · exact hS

section
variable {α : Type} {E : List Path} {Q : List Path → α → Prop}

theorem ds_rd {f : Fmt} {k : Int → Prog α} (h : ∀ x, Disc (k x) E Q) : Disc (rd f >>= k) E Q := h
theorem ds_rdString {k : String → Prog α} (h : ∀ x, Disc (k x) E Q) : Disc (rdString >>= k) E Q := h
theorem ds_rdArray {k : List Int → Prog α} (h : ∀ x, Disc (k x) E Q) : Disc (rdArray >>= k) E Q := h
theorem ds_rdTime {k : DateTime → Prog α} (h : ∀ x, Disc (k x) E Q) : Disc (rdTime >>= k) E Q := h
theorem ds_rdMsgString {k : String → Prog α} (h : ∀ x, Disc (k x) E Q) : Disc (rdMsgString >>= k) E Q := h
theorem ds_offset {k : Nat → Prog α} (h : ∀ x, Disc (k x) E Q) : Disc (offset >>= k) E Q := h
theorem ds_set {p : Path} {x : Val} {k : Unit → Prog α} (h0 : p ≠ []) (h1 : p.dropLast ∈ E)
    (h2 : isNode p = false) (h3 : (isLeafDict p && !x.isDict) = false) (h4 : Disc (k ()) E Q) :
    Disc (store p x >>= k) E Q := by
  refine ⟨h0, h1, ⟨h2, fun h => ?_⟩, h4⟩
  rw [h] at h3; simpa using h3
theorem ds_set' {p : Path} {x : Val} {Q : List Path → Unit → Prop} (h0 : p ≠ []) (h1 : p.dropLast ∈ E)
    (h2 : isNode p = false) (h3 : (isLeafDict p && !x.isDict) = false) (h4 : Q E ()) :
    Disc (store p x) E Q := by
  refine ⟨h0, h1, ⟨h2, fun h => ?_⟩, h4⟩
  rw [h] at h3; simpa using h3
theorem ds_group {p : Path} {k : Unit → Prog α} (h0 : p ≠ []) (h1 : p.dropLast ∈ E)
    (h2 : isNode p = true) (h4 : Disc (k ()) (p :: E) Q) :
    Disc (setdefault p (.dict []) >>= k) E Q := by
  refine ⟨h0, h1, okDef_empty h2, ?_⟩
  rw [if_pos h2]; exact h4
theorem ds_groupx {p : Path} {x : Val} {k : Unit → Prog α} (h0 : p ≠ []) (h1 : p.dropLast ∈ E)
    (h2 : isNode p = true) (h3 : okDef p x) (h4 : Disc (k ()) (p :: E) Q) :
    Disc (setdefault p x >>= k) E Q := by
  refine ⟨h0, h1, h3, ?_⟩
  rw [if_pos h2]; exact h4
theorem ds_leaf {p : Path} {x : Val} {k : Unit → Prog α} (h0 : p ≠ []) (h1 : p.dropLast ∈ E)
    (h2 : isNode p = false) (h3 : isLeafDict p = false) (h4 : Disc (k ()) E Q) :
    Disc (setdefault p x >>= k) E Q := by
  refine ⟨h0, h1, by unfold okDef; rw [h2]; exact h3, ?_⟩
  rw [h2]; exact h4
theorem ds_get {p : Path} {k : Option Val → Prog α} (h : okGet p) (hk : ∀ v, Disc (k v) E Q) :
    Disc (lookup p >>= k) E Q := ⟨h, hk⟩
theorem ds_pure {a : α} (h : Q E a) : Disc (pure a) E Q := h
theorem ds_throw {e : PyErr} : Disc (throw e) E Q := trivial
/-- A block with a result, then the rest. -/
theorem ds_seq {β : Type} {p : Prog β} {k : β → Prog α} {E' : List Path}
    (h : Disc p E (fun F _ => ∀ e ∈ E', e ∈ F)) (hk : ∀ a F, (∀ e ∈ E', e ∈ F) → Disc (k a) F Q) :
    Disc (p >>= k) E Q :=
  disc_bind (disc_mono h (fun _ he => he) (fun _ _ a h1 _ h3 => hk a _ (fun e he => h1 e (h3 e he))))
/-- A block that is fine with the groups `E'`. -/
theorem ds_weaken {p : Prog α} {E' : List Path} (h : Disc p E' (fun _ _ => True)) (hE : ∀ e ∈ E', e ∈ E) :
    Disc p E (fun _ _ => True) := disc_mono h hE (fun _ _ _ _ _ _ => trivial)
theorem ds_block {β : Type} {p : Prog β} {k : β → Prog α} {E' : List Path} (h : Disc p E' (fun _ _ => True))
    (hE : ∀ e ∈ E', e ∈ E) (hk : ∀ a F, (∀ e ∈ E, e ∈ F) → Disc (k a) F Q) : Disc (p >>= k) E Q :=
  disc_bind (disc_mono h hE (fun _ F a _ h2 _ => hk a F h2))
/-- A block or loop in the middle; the groups known before are still known after. -/
theorem ds_mid {β : Type} {p : Prog β} {k : β → Prog α} {E' : List Path} (h : Disc p E' (fun _ _ => True))
    (hE : ∀ e ∈ E', e ∈ E) (hQ : ∀ F F' b, (∀ e ∈ F, e ∈ F') → Q F b → Q F' b) (hk : ∀ a, Disc (k a) E Q) :
    Disc (p >>= k) E Q :=
  ds_block h hE (fun a _ hF => disc_mono (hk a) hF (fun F' F'' b h1 _ h3 => hQ F' F'' b h1 h3))
theorem ds_keep {p : Prog α} {E' : List Path} (h : Disc p E' (fun _ _ => True)) (hE : ∀ e ∈ E', e ∈ E) :
    Disc p E (fun F _ => ∀ e ∈ E, e ∈ F) := disc_mono h hE (fun _ _ _ _ h _ => h)
end

theorem okGet_of (p : Path) (h : p.dropLast = [] ∨ isNode p.dropLast = true ∨ isLeafDict p.dropLast = true) : okGet p := by
  intro q k hq
  have hpre : q <+: p.dropLast := by
    obtain ⟨t, rfl⟩ := hq
    rcases List.eq_nil_or_concat t with rfl | ⟨t, x, rfl⟩
    · simp
    · rw [List.concat_eq_append, ← List.append_assoc, List.dropLast_concat, List.append_assoc]; exact List.prefix_append _ _
  rcases h with h | h | h
  · rw [h] at hpre
    rw [List.prefix_nil.1 hpre]; rfl
  · rw [isNode_prefix h hpre]; rfl
  · by_cases he : q = p.dropLast
    · rw [he, h, Bool.or_true]
    · rw [leaf_prefix_node h hpre he]; rfl

/-- Membership in a concrete list of groups. -/
macro "mem_tac" : tactic =>
  `(tactic| (repeat (first | assumption | exact List.mem_cons_self | apply List.mem_cons_of_mem)))

/-- Unknown-field names are unlike all other names. -/
theorem unknownAt_ne (o : Nat) (s : String) (h : s.toList.take 18 ≠ "unknown_at_offset_".toList) : unknownAt o ≠ s := by
  rintro rfl
  apply h
  unfold unknownAt
  rw [String.toList_append, List.take_append_of_le_length (by decide)]
  rfl

theorem beq_unknownAt (o : Nat) (s : String) (h : s.toList.take 18 ≠ "unknown_at_offset_".toList) :
    (s == unknownAt o) = false := by
  rw [beq_eq_false_iff_ne]; exact (unknownAt_ne o s h).symm

/-- Evaluate `isNode`/`isLeafDict` on a path, possibly ending in an unknown-field name. -/
macro "path_tac" : tactic =>
  `(tactic| first
    | rfl
    | (simp only [isNode, isLeafDict, nodePats, leafPats, List.any_cons, List.any_nil, pathMatches, ctlConfig, ctlSensor];
       (repeat rw [beq_unknownAt _ _ (by decide)]); rfl))

theorem disc_unit {α : Type} {E : List Path} {Q : List Path → α → Prop} {k : String → Prog α}
    (h : ∀ u, Disc (k u) E Q) : Disc (getTemperatureUnit >>= k) E Q := by
  unfold getTemperatureUnit
  refine disc_bind ⟨okGet_of _ (.inr (.inr rfl)), fun v => ?_⟩
  cases v with
  | none => exact h _
  | some v => exact h _

/-- One step of a discipline proof. -/
macro "disc_step" : tactic =>
  `(tactic| first
    | (refine ds_rd (fun _ => ?_))
    | (refine ds_rdString (fun _ => ?_))
    | (refine ds_rdArray (fun _ => ?_))
    | (refine ds_rdTime (fun _ => ?_))
    | (refine ds_rdMsgString (fun _ => ?_))
    | (refine ds_offset (fun _ => ?_))
    | (refine ds_group (List.cons_ne_nil _ _) (by mem_tac) (by rfl) ?_)
    | (refine ds_leaf (List.cons_ne_nil _ _) (by mem_tac) (by rfl) (by rfl) ?_)
    | (refine ds_set (List.cons_ne_nil _ _) (by mem_tac) (by path_tac) (by path_tac) ?_)
    | (refine ds_set' (List.cons_ne_nil _ _) (by mem_tac) (by path_tac) (by path_tac) ?_)
    | (refine disc_unit (fun _ => ?_))
    | (refine ds_get (okGet_of _ (by first | exact .inl rfl | exact .inr (.inl rfl) | exact .inr (.inr rfl))) (fun _ => ?_))
    | exact ds_throw
    | exact trivial)

theorem disc_scg : Disc decodeScg [[]] (fun _ _ => True) := by
  unfold decodeScg
  repeat disc_step

/-- The end of a block: the listed groups are present. -/
macro "have_groups" : tactic =>
  `(tactic| (intro e he; simp only [List.mem_cons, List.not_mem_nil, or_false] at he ⊢; revert he; simp +contextual [or_imp]))

theorem disc_chemA : Disc decodeChemistryA [[]] (fun F _ => ∀ e ∈ [[Key.s "intellichem"], [.s "intellichem", .s "sensor"],
    [.s "intellichem", .s "configuration"], [.s "intellichem", .s "dose_status"]], e ∈ F) := by
  unfold decodeChemistryA
  repeat disc_step
  have_groups

theorem disc_chemB : Disc decodeChemistryB [[.s "intellichem"], [.s "intellichem", .s "sensor"],
    [.s "intellichem", .s "configuration"], [.s "intellichem", .s "dose_status"]] (fun _ _ => True) := by
  unfold decodeChemistryB
  repeat disc_step

theorem disc_chemC : Disc decodeChemistryC [[.s "intellichem"], [.s "intellichem", .s "sensor"],
    [.s "intellichem", .s "configuration"], [.s "intellichem", .s "dose_status"]] (fun _ _ => True) := by
  unfold decodeChemistryC
  repeat disc_step

theorem disc_chemD : Disc decodeChemistryD [[.s "intellichem"], [.s "intellichem", .s "sensor"],
    [.s "intellichem", .s "configuration"], [.s "intellichem", .s "dose_status"]] (fun _ _ => True) := by
  unfold decodeChemistryD
  repeat disc_step

theorem disc_chemistry : Disc decodeChemistry [[]] (fun _ _ => True) := by
  unfold decodeChemistry
  refine ds_seq disc_chemA (fun _ F hF => ?_)
  refine ds_block disc_chemB hF (fun _ F' hF' => ?_)
  refine ds_block disc_chemC (fun e he => hF' e (hF e he)) (fun _ F'' hF'' => ?_)
  exact ds_weaken disc_chemD (fun e he => hF'' e (hF' e (hF e he)))

/-- Groups used by the status decoder. -/
abbrev statusGroups : List Path := [[], [.s "controller"], [.s "controller", .s "sensor"], [.s "controller", .s "configuration"]]

theorem disc_statusHead : Disc decodeStatusHead [[]] (fun F _ => ∀ e ∈ statusGroups, e ∈ F) := by
  unfold decodeStatusHead
  repeat disc_step
  have_groups

theorem disc_statusTail : Disc decodeStatusTail statusGroups (fun _ _ => True) := by
  unfold decodeStatusTail
  repeat disc_step

theorem disc_subscript {α : Type} {E : List Path} {Q : List Path → α → Prop} (v : Val) (k : Key) {c : Val → Prog α}
    (h : ∀ x, Disc (c x) E Q) : Disc (subscript v k >>= c) E Q := by
  unfold subscript
  cases v with
  | dict kv =>
    simp only
    cases aget k kv with
    | none => trivial
    | some x => exact h x
  | _ => trivial

theorem disc_copySetpoints {α : Type} {E : List Path} {Q : List Path → α → Prop} (i : Int) (o : Option Val) (t : Int)
    {c : Unit → Prog α} (hE : [Key.s "body", .i i] ∈ E) (h : Disc (c ()) E Q) :
    Disc (copySetpoints i o t >>= c) E Q := by
  unfold copySetpoints
  refine disc_bind ?_
  cases o with
  | none => exact h
  | some v =>
    cases v with
    | dict kv =>
      simp only
      cases aget (Key.i t) kv with
      | none => exact h
      | some sp =>
        simp only
        split
        · refine disc_subscript _ _ (fun lo => ?_)
          refine ds_set (List.cons_ne_nil _ _) hE rfl rfl ?_
          refine disc_subscript _ _ (fun hi => ?_)
          refine ds_set' (List.cons_ne_nil _ _) hE rfl rfl ?_
          exact h
        · exact h
    | _ => simp only; split <;> first | trivial | exact h

theorem disc_body (u : String) (sp : Option Val) (i : Nat) (s : Unit) :
    Disc ((fun i (_ : Unit) => decodeBody u sp i) i s) [[.s "body"]] (fun _ _ => True) := by
  simp only [decodeBody]
  disc_step
  disc_step
  disc_step
  refine disc_copySetpoints _ _ _ List.mem_cons_self ?_
  repeat disc_step

theorem disc_statusCircuit (i : Nat) (s : Unit) :
    Disc ((fun i (_ : Unit) => decodeStatusCircuit i) i s) [[.s "circuit"]] (fun _ _ => True) := by
  simp only [decodeStatusCircuit]
  repeat disc_step

theorem disc_status : Disc decodeStatus [[]] (fun _ _ => True) := by
  unfold decodeStatus
  refine ds_seq disc_statusHead (fun _ F hF => ?_)
  disc_step
  disc_step
  refine ds_group (List.cons_ne_nil _ _) (hF _ (by mem_tac)) rfl ?_
  refine ds_seq (E' := [.s "body"] :: F) ?_ (fun _ F1 hF1 => ?_)
  · exact disc_mono (disc_loop (E := [[.s "body"]]) (disc_body _ _) _ 0 ()) (fun e he => by simp at he; simp [he])
      (fun _ _ _ _ h _ => h)
  disc_step
  refine ds_group (List.cons_ne_nil _ _) (hF1 _ (List.mem_cons_of_mem _ (hF _ (by mem_tac)))) rfl ?_
  refine ds_seq (E' := [.s "circuit"] :: F1) ?_ (fun _ F2 hF2 => ?_)
  · exact disc_mono (disc_loop (E := [[.s "circuit"]]) disc_statusCircuit _ 0 ()) (fun e he => by simp at he; simp [he])
      (fun _ _ _ _ h _ => h)
  exact ds_weaken disc_statusTail (fun e he =>
    hF2 _ (List.mem_cons_of_mem _ (hF1 _ (List.mem_cons_of_mem _ (hF e he)))))

/-! ### Configuration -/

theorem disc_setpoints (i : Nat) (s : Unit) :
    Disc ((fun i (_ : Unit) => decodeSetpoints i) i s) [[.s "controller", .s "configuration", .s "body_type"]]
      (fun _ _ => True) := by
  simp only [decodeSetpoints]
  repeat disc_step

theorem disc_maskFlags {α : Type} {E : List Path} {Q : List Path → α → Prop} (m : Option Val) (f : Int)
    {c : Int → Prog α} (h : ∀ x, Disc (c x) E Q) : Disc (maskFlags m f >>= c) E Q := by
  unfold maskFlags
  refine disc_bind ?_
  split <;> first | exact h _ | trivial

theorem disc_true {α : Type} {p : Prog α} {E : List Path} {Q : List Path → α → Prop} (h : Disc p E Q) :
    Disc p E (fun _ _ => True) := disc_mono h (fun _ he => he) (fun _ _ _ _ _ _ => trivial)

/-- Groups used by the configuration decoder. -/
abbrev configGroups : List Path := [[], [.s "controller"], [.s "controller", .s "configuration"]]

theorem disc_configHead : Disc decodeConfigHead [[]] (fun F _ => ∀ e ∈ configGroups, e ∈ F) := by
  unfold decodeConfigHead
  disc_step; disc_step; disc_step; disc_step; disc_step
  refine ds_mid (disc_true (disc_loop disc_setpoints 2 0 ())) (fun e he => by simp at he; simp [he])
    (fun _ _ _ h1 h2 e he => h1 e (h2 e he)) (fun _ => ?_)
  disc_step; disc_step; disc_step; disc_step; disc_step; disc_step; disc_step; disc_step; disc_step; disc_step
  disc_step; disc_step
  refine disc_maskFlags _ _ (fun _ => ?_)
  repeat disc_step
  have_groups

theorem disc_configCircuit (i : Nat) (s : Unit) :
    Disc ((fun i (_ : Unit) => decodeConfigCircuit i) i s) [[.s "circuit"]] (fun _ _ => True) := by
  simp only [decodeConfigCircuit]
  repeat disc_step

theorem disc_color (i : Nat) (s : List Val) : Disc (decodeColor i s) [] (fun _ _ => True) := by
  simp only [decodeColor]
  repeat disc_step

theorem disc_pumpData (i : Nat) (s : Unit) :
    Disc ((fun i (_ : Unit) => decodePumpData i) i s) [[.s "pump"]] (fun _ _ => True) := by
  simp only [decodePumpData]
  repeat disc_step

theorem disc_config : Disc decodeConfig [[]] (fun _ _ => True) := by
  unfold decodeConfig
  refine ds_seq disc_configHead (fun _ F hF => disc_mono (E := configGroups) (Q := fun _ _ => True) ?_ hF
    (fun _ _ _ _ _ _ => trivial))
  disc_step; disc_step; disc_step
  refine ds_mid (disc_true (disc_loop disc_configCircuit _ 0 ())) (fun e he => by simp at he; simp [he])
    (fun _ _ _ _ _ => trivial) (fun _ => ?_)
  disc_step; disc_step
  refine ds_mid (disc_true (disc_loop disc_color _ 0 [])) (fun e he => by simp at he)
    (fun _ _ _ _ _ => trivial) (fun _ => ?_)
  disc_step; disc_step
  refine ds_mid (disc_true (disc_loop disc_pumpData 8 0 ())) (fun e he => by simp at he; simp [he])
    (fun _ _ _ _ _ => trivial) (fun _ => ?_)
  repeat disc_step

/-! ### Pump and the others -/

theorem disc_nameFromCircuits {α : Type} {E : List Path} {Q : List Path → α → Prop} (dev : Int) (kv : List (Key × Val))
    (n : String) {c : String → Prog α} (h : ∀ x, Disc (c x) E Q) : Disc (nameFromCircuits dev kv n >>= c) E Q := by
  refine disc_bind ?_
  induction kv with
  | nil => exact h n
  | cons a rest ih =>
    unfold nameFromCircuits
    refine disc_subscript _ _ (fun d => ?_)
    split
    · refine disc_subscript _ _ (fun x => ?_)
      cases x with
      | str s => exact h s
      | _ => trivial
    · exact ih

theorem disc_pumpName {α : Type} {E : List Path} {Q : List Path → α → Prop} (dev : Int) (v : Option Val)
    (n : String) {c : String → Prog α} (h : ∀ x, Disc (c x) E Q) : Disc (pumpName dev v n >>= c) E Q := by
  unfold pumpName
  cases v with
  | none => exact h n
  | some v =>
    cases v with
    | dict kv => exact disc_nameFromCircuits _ _ _ h
    | _ => trivial

theorem disc_preset (pump : Int) (i : Nat) (name : String) :
    Disc (decodePreset pump i name) [[.s "pump", .i pump, .s "preset"]] (fun _ _ => True) := by
  simp only [decodePreset]
  disc_step; disc_step; disc_step
  refine ds_get (okGet_of _ (.inl rfl)) (fun v => ?_)
  refine disc_pumpName _ _ _ (fun x => ?_)
  repeat disc_step

theorem disc_pumpTail (pump a b c : Int) (n : String) :
    Disc (decodePumpTail pump a b c n) [[.s "pump", .i pump, .s "state"], [.s "pump", .i pump]] (fun _ _ => True) := by
  simp only [decodePumpTail]
  repeat disc_step

theorem okDef_state (pump : Int) : okDef [.s "pump", .i pump, .s "state"] (.dict [(.s "name", .str ""), (.s "value", .int 0)]) := by
  unfold okDef
  rw [if_pos (show isNode [.s "pump", .i pump, .s "state"] = true from rfl)]
  refine ⟨_, rfl, fun k v hk => ?_⟩
  have hm := mem_of_aget hk
  simp only [List.mem_cons, Prod.mk.injEq, List.not_mem_nil, or_false] at hm
  rcases hm with ⟨rfl, -⟩ | ⟨rfl, -⟩ <;> exact ⟨rfl, rfl⟩

theorem disc_setPumpState (pump state : Int) :
    Disc (setPumpState pump state) [[.s "pump", .i pump, .s "state"]] (fun _ _ => True) := by
  unfold setPumpState
  split <;> repeat disc_step

theorem disc_pump (pump : Int) : Disc (decodePump pump) [[]] (fun _ _ => True) := by
  unfold decodePump
  disc_step; disc_step; disc_step; disc_step; disc_step
  refine ds_groupx (List.cons_ne_nil _ _) (by mem_tac) rfl (okDef_state pump) ?_
  refine ds_mid (disc_setPumpState pump _) (fun e he => by simp at he; simp [he]) (fun _ _ _ _ _ => trivial) (fun _ => ?_)
  disc_step; disc_step; disc_step; disc_step; disc_step; disc_step; disc_step; disc_step; disc_step; disc_step
  disc_step; disc_step; disc_step
  refine ds_mid (disc_true (disc_loop (disc_preset pump) 8 0 "Default")) (fun e he => by simp at he; simp [he])
    (fun _ _ _ _ _ => trivial) (fun _ => ?_)
  exact ds_weaken (disc_pumpTail pump _ _ _ _) (fun e he => by simp at he; rcases he with rfl | rfl <;> simp)

theorem disc_colorUpdate : Disc decodeColorUpdate [[]] (fun _ _ => True) := by
  unfold decodeColorUpdate
  repeat disc_step

theorem disc_floatPart {α : Type} {E : List Path} {Q : List Path → α → Prop} (f : String → Except PyErr Rat)
    (parts : List String) (i : Nat) {c : Rat → Prog α} (h : ∀ x, Disc (c x) E Q) :
    Disc (floatPart f parts i >>= c) E Q := by
  unfold floatPart
  refine disc_bind ?_
  split
  · trivial
  · split
    · exact h _
    · trivial

theorem disc_version (f : String → Except PyErr Rat) : Disc (decodeVersion f) [[]] (fun _ _ => True) := by
  unfold decodeVersion
  disc_step; disc_step
  refine disc_floatPart _ _ _ (fun _ => ?_)
  refine disc_floatPart _ _ _ (fun _ => ?_)
  repeat disc_step

theorem disc_dateTime (now : Rat) : Disc (decodeDateTime now) [[]] (fun _ _ => True) := by
  unfold decodeDateTime
  repeat disc_step

theorem disc_equipArray (k : String) : Disc (decodeEquipArray k) [[.s "equipment"]] (fun _ _ => True) := by
  unfold decodeEquipArray
  repeat disc_step

theorem disc_equipment : Disc decodeEquipment [[]] (fun _ _ => True) := by
  unfold decodeEquipment
  disc_step; disc_step; disc_step; disc_step; disc_step; disc_step; disc_step; disc_step; disc_step; disc_step
  disc_step; disc_step; disc_step
  iterate 11 (refine ds_mid (disc_equipArray _) (fun e he => by simp at he; simp [he]) (fun _ _ _ _ _ => trivial) (fun _ => ?_))
  exact ds_weaken (disc_equipArray _) (fun e he => by simp at he; simp [he])

end SL
