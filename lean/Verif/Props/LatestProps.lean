import Verif.Lemmas.Latest
import Verif.Props.FreshProps
/-!
# C110: a reading changes only because a message about it was read in between
-/
set_option linter.unusedVariables false
set_option maxRecDepth 20000
namespace SL

theorem acts_grow {E : Env} {g g' : Gw} (h : Star (MicroA E False) g g') (t : Nat) : ∃ l, g'.acts t = g.acts t ++ l := by
  refine h.inv (I := fun x => ∃ l, x.acts t = g.acts t ++ l) ?_ ⟨[], by simp⟩
  intro a b ⟨l, hl⟩ m
  have key : b.log = a.log ∨ ∃ t' x, b.log = a.log ++ [(t', x)] := by
    cases m with
    | base _ _ _ hl => exact hl.imp id (fun ⟨t, a, _, e⟩ => ⟨t, a, e⟩)
    | got t o _ c r ho ha => exact .inr ⟨t, .got o, rfl⟩
  rcases key with e | ⟨t', x, e⟩
  · exact ⟨l, by rw [show b.acts t = a.acts t by rw [Gw.acts, e]; rfl, hl]⟩
  · exact ⟨l ++ _, by rw [acts_log e t, hl, List.append_assoc]⟩

section
variable (E : Env) (clientId maxRetries : Int)

theorem after_acts (es es2 : List Ev) (t : Nat) :
    ∃ l, (after E clientId maxRetries (es ++ es2)).g.acts t = (after E clientId maxRetries es).g.acts t ++ l := by
  refine snoc_ind (P := fun l => ∃ l', (after E clientId maxRetries (es ++ l)).g.acts t = (after E clientId maxRetries es).g.acts t ++ l') ?_ ?_ es2
  · exact ⟨[], by simp⟩
  · intro l ev ⟨l', ih⟩
    show ∃ l2, (after E clientId maxRetries (es ++ (l ++ [ev]))).g.acts t = _
    rw [← List.append_assoc, after_snoc]
    have hok : SysOk E False (after E clientId maxRetries (es ++ l)) := (SysOk.init E False clientId maxRetries).run _ (fun u => u.elim)
    obtain ⟨l2, h⟩ := acts_grow (step_microA hok
      (reach_waiting E clientId maxRetries (es ++ l)) ev (fun u => u.elim)) t
    exact ⟨l' ++ l2, by rw [h, ih, List.append_assoc]⟩

theorem reach_prompt (es : List Ev) : (after E clientId maxRetries es).Prompt := by
  refine snoc_ind (P := fun l => (after E clientId maxRetries l).Prompt) ?_ ?_ es
  · intro t x hx
    simp [after, Sys.run, Sys.init] at hx
  · intro l ev ih
    rw [after_snoc]
    exact (ih.step ((SysOk.init E False clientId maxRetries).run _ (fun u => u.elim)) ev).1

/-- **C110** (data).  What a part of a history does to the data is reading the messages that are read in it: replies handed to calls in that part, each
read with the decoder of the query it answers, and pushed messages whose handlers run in it. -/
theorem C110_data (es es2 : List Ev) : MadeOn E.pyFloat (ReadIn E clientId maxRetries es es2)
    (after E clientId maxRetries es).g.data (after E clientId maxRetries (es ++ es2)).g.data := by
  refine snoc_ind (P := fun l => MadeOn E.pyFloat (ReadIn E clientId maxRetries es l)
    (after E clientId maxRetries es).g.data (after E clientId maxRetries (es ++ l)).g.data) ?_ ?_ es2
  · rw [List.append_nil]; exact .refl
  · intro l ev ih
    have hok : SysOk E False (after E clientId maxRetries (es ++ l)) := (SysOk.init E False clientId maxRetries).run _ (fun u => u.elim)
    have hst := ((reach_prompt E clientId maxRetries (es ++ l)).step hok ev).2
    rw [← after_snoc] at hst
    have e0 : es ++ (l ++ [ev]) = (es ++ l) ++ [ev] := by simp
    refine (ih.mono ?_).trans ?_
    · rintro D m (⟨t, c, code, p, b, l', hq, e, hn⟩ | ⟨es1, c, es3, code, e, hk, hp⟩)
      · obtain ⟨l2, h2⟩ := after_acts E clientId maxRetries (es ++ l) [ev] t
        refine .inl ⟨t, c, code, p, b, l' ++ l2, hq, ?_, hn⟩
        rw [e0, h2, e]; simp
      · exact .inr ⟨es1, c, es3 ++ [ev], code, by rw [e]; simp, hk, hp⟩
    · rw [e0]
      refine hst.mono ?_
      rintro D m (⟨t, c, code, p, b, l', hq, e, hn⟩ | ⟨c, code, rfl, hk, hp⟩)
      · refine .inl ⟨t, c, code, p, b, l', hq, by rw [e0]; exact e, ?_⟩
        obtain ⟨l2, h2⟩ := after_acts E clientId maxRetries es l t
        rw [h2] at hn
        simp at hn
        omega
      · exact .inr ⟨l, c, [], code, rfl, hk, hp⟩

/-- What is found at a told place is as it was, or was read. -/
theorem made_latest {f : String → Except PyErr Rat} {M : Decoder → Bytes → Prop} {d0 d : Val} (h : MadeOn f M d0 d) :
    KnownAs (fun q v => (∃ x, d0.look q = some x ∧ valOf q x = some v) ∨ ∃ D m, M D m ∧ Tells D m q v) d := by
  induction h with
  | refl => exact fun q ht x hx v hv => .inl ⟨x, hx, hv⟩
  | step D b hm _ ih =>
    exact shown_run (fun q v h => .inr ⟨D, b, hm, h⟩) (allOps_and (D.fits f) (D.sheeted f)) (D.shown f b) ih

end

/-! ## Where a reading of a pump is set -/
open Prog (rd rdString rdArray rdTime rdMsgString offset store setdefault lookup throw loop forRange)

/-- Nothing is set at the path. -/
def Away (q : Path) {α : Type} (p : Prog α) : Prop := AllOps (fun op => match op with | .set p _ => p ≠ q | _ => True) p

section
variable {q : Path} {α : Type}
theorem aw_rd {g : Fmt} {k : Int → Prog α} (h : ∀ x, Away q (k x)) : Away q (rd g >>= k) := h
theorem aw_rdString {k : String → Prog α} (h : ∀ x, Away q (k x)) : Away q (rdString >>= k) := h
theorem aw_rdArray {k : List Int → Prog α} (h : ∀ x, Away q (k x)) : Away q (rdArray >>= k) := ⟨trivial, h⟩
theorem aw_offset {k : Nat → Prog α} (h : ∀ x, Away q (k x)) : Away q (offset >>= k) := h
theorem aw_store {p : Path} {x : Val} {k : Unit → Prog α} (h : p ≠ q) (hk : Away q (k ())) : Away q (store p x >>= k) := ⟨h, hk⟩
theorem aw_store' {p : Path} {x : Val} (h : p ≠ q) : Away q (store p x) := ⟨h, trivial⟩
theorem aw_setdefault {p : Path} {x : Val} {k : Unit → Prog α} (hk : Away q (k ())) : Away q (setdefault p x >>= k) := ⟨trivial, hk⟩
theorem aw_setdefault' {p : Path} {x : Val} : Away q (setdefault p x) := ⟨trivial, trivial⟩
theorem aw_lookup {p : Path} {k : Option Val → Prog α} (hk : ∀ v, Away q (k v)) : Away q (lookup p >>= k) := ⟨trivial, hk⟩
theorem aw_bind {β : Type} {p : Prog β} {k : β → Prog α} (h : Away q p) (hk : ∀ a, Away q (k a)) : Away q (p >>= k) := allOps_bind h hk
end

macro "aw_op" : tactic => `(tactic| (intro h; simp_all [ctlConfig]))
macro "aw_step" : tactic =>
  `(tactic| first
    | (refine aw_rd (fun _ => ?_))
    | (refine aw_rdString (fun _ => ?_))
    | (refine aw_rdArray (fun _ => ?_))
    | (refine aw_offset (fun _ => ?_))
    | (refine aw_store (by aw_op) ?_)
    | (refine aw_store' (by aw_op))
    | (refine aw_setdefault ?_)
    | exact aw_setdefault'
    | exact True.intro)

theorem away_config (i : Key) (k : String) (hk : k ≠ "data") : Away [.s "pump", i, .s k] decodeConfig := by
  unfold decodeConfig
  refine aw_bind ?_ (fun _ => ?_)
  · unfold decodeConfigHead
    aw_step; aw_step; aw_step; aw_step; aw_step
    refine aw_bind (allOps_loop (fun i _ => show Away _ (decodeSetpoints i) by unfold decodeSetpoints; repeat aw_step) _ _ _) (fun _ => ?_)
    repeat aw_step
    refine aw_lookup (fun _ => ?_)
    refine aw_bind (by unfold maskFlags; split <;> trivial) (fun _ => ?_)
    repeat aw_step
  aw_step; aw_step; aw_step
  refine aw_bind (allOps_loop (fun i _ => show Away _ (decodeConfigCircuit i) by unfold decodeConfigCircuit; repeat aw_step) _ _ _) (fun _ => ?_)
  aw_step; aw_step
  refine aw_bind (allOps_loop (fun i s => show Away _ (decodeColor i s) by unfold decodeColor; repeat aw_step) _ _ _) (fun _ => ?_)
  aw_step; aw_step
  refine aw_bind (allOps_loop (fun i _ => show Away _ (decodePumpData i) by unfold decodePumpData; repeat aw_step) _ _ _) (fun _ => ?_)
  repeat aw_step

theorem away_names {q : Path} (dev : Int) (kv : List (Key × Val)) (n : String) : Away q (nameFromCircuits dev kv n) := by
  have hsub : ∀ v key, Away q (subscript v key) := by
    intro v key
    unfold subscript
    split
    · split <;> trivial
    · trivial
  induction kv with
  | nil => exact True.intro
  | cons a rest ih =>
    unfold nameFromCircuits
    refine aw_bind (hsub _ _) (fun d => ?_)
    split
    · refine aw_bind (hsub _ _) (fun x => ?_)
      split <;> first | exact ih | trivial
    · exact ih

theorem away_pump (pump : Int) (i : Key) (k : String) (hi : i ≠ .i pump) : Away [.s "pump", i, .s k] (decodePump pump) := by
  have hi' := hi.symm
  unfold decodePump
  aw_step; aw_step; aw_step; aw_step; aw_step; aw_step
  refine aw_bind (by unfold setPumpState; split <;> repeat aw_step) (fun _ => ?_)
  repeat aw_step
  refine aw_bind (allOps_loop (fun b s => show Away _ (decodePreset pump b s) from ?_) _ _ _) (fun _ => ?_)
  · unfold decodePreset
    aw_step; aw_step; aw_step
    refine aw_lookup (fun v => ?_)
    refine aw_bind ?_ (fun _ => ?_)
    · unfold pumpName
      split
      · exact True.intro
      · exact away_names _ _ _
      · exact True.intro
    repeat aw_step
  · unfold decodePumpTail
    repeat aw_step

/-- Only the messages about a pump set its readings. -/
theorem away_of (f : String → Except PyErr Rat) (D : Decoder) (i : Key) (k : String) (hk : k ≠ "data") (hD : ∀ j, D = .pump j → i ≠ .i j) :
    Away [.s "pump", i, .s k] (D.prog f) := by
  have far : ("pump" ∈ D.profile.top → False) → Away [.s "pump", i, .s k] (D.prog f) := fun h =>
    allOps_mono (fun op ho => by
      cases op with
      | set p x =>
        obtain ⟨t, ht, r, rfl⟩ := ho
        intro e
        cases e
        exact h ht
      | _ => trivial) (fits_within (D.fits f))
  cases D with
  | config => exact away_config i k hk
  | pump j => exact away_pump j i k (hD j rfl)
  | _ => exact far (fun h => by rw [profile_branches] at h; simp [Spec.branches] at h)

/-- The reading of a pump is emptied only by a message about that pump. -/
theorem made_filled {f : String → Except PyErr Rat} {M : Decoder → Bytes → Prop} {d0 d : Val} (h : MadeOn f M d0 d) {i : Key} {k : String} {s : Sheet}
    (hs : sheet [.s "pump", i, .s k] = some s) (h0 : d0.look [.s "pump", i, .s k] ≠ some (.dict [])) :
    d.look [.s "pump", i, .s k] ≠ some (.dict []) ∨ ∃ j m, i = .i j ∧ M (.pump j) m := by
  have hk : k ≠ "data" := by rintro rfl; cases hs
  induction h with
  | refl => exact .inl h0
  | step D b hm _ ih =>
    rcases ih with ih | ih
    · by_cases hD : ∃ j, D = .pump j ∧ i = .i j
      · obtain ⟨j, rfl, rfl⟩ := hD
        exact .inr ⟨j, b, rfl, hm⟩
      · refine .inl (filled_at_run hs (allOps_and (D.fits f) (D.sheeted f)) (allOps_mono (fun op ho => ?_)
          (away_of f D i k hk (fun j e ei => hD ⟨j, e, ei⟩))) b 0 ih)
        cases op with
        | set p x => exact fun e => absurd e ho
        | _ => trivial
    · exact .inr ih


/-- A documented reading outside the pumps. -/
theorem sheet_reading {q : Path} {s : Sheet} (hs : sheet q = some s) : isReading q = true ∨ ∃ i k, q = [.s "pump", i, .s k] := by
  unfold sheet at hs
  split at hs
  · rename_i i k
    have : ∀ e ∈ bodySheets, readingNames.contains e.1 = true := by decide
    exact .inl (this _ (mem_of_aget hs))
  · exact .inr ⟨_, _, rfl⟩
  · have : ∀ e ∈ ctlSheets ++ scgSheets ++ chemSheets, isReading e.1 = true := by decide +kernel
    exact .inl (this _ (mem_of_aget hs))

/-- The value of a reading is where it is looked for. -/
theorem value_look {f : String → Except PyErr Rat} {d : Val} (hd : Reachable f d) {q : Path} (hn : isNode q.dropLast = true) (hq : q ≠ []) {v : Val}
    (hv : v ≠ .null) (h : getValue false q d = .ok v) : ∃ kv, d.look q = some (.dict kv) ∧ aget (.s "value") kv = some v := by
  rw [C35_value _ _ _ (tree_look (p := []) (reachable_tree hd) rfl)] at h
  have hl := place_look hd hn hq hv (r := [.s "value"]) (by simp) h
  rw [look_append] at hl
  cases hw : d.look q with
  | none => rw [hw] at hl; cases hl
  | some w =>
    rw [hw] at hl
    cases w with
    | dict kv =>
      refine ⟨kv, rfl, ?_⟩
      simp only [Option.bind_some, Val.look] at hl
      cases ha : aget (.s "value") kv with
      | none => rw [ha] at hl; cases hl
      | some y => rw [ha] at hl; exact hl
    | _ => simp [Val.look] at hl

theorem look_value {f : String → Except PyErr Rat} {d : Val} (hd : Reachable f d) {q : Path} {v : Val} (h : d.look (q ++ [.s "value"]) = some v) :
    getValue false q d = .ok v := by
  have ht := reachable_tree hd
  rw [C35_value _ _ _ (tree_look (p := []) ht rfl)]
  exact look_getData (fun r w _ hl => tree_look ht hl) h

theorem valOf_sheet {q : Path} {s : Sheet} (hs : sheet q = some s) (kv : List (Key × Val)) : valOf q (.dict kv) = aget (.s "value") kv := by
  rw [valOf.eq_def]
  split
  · rename_i h1 _
    cases hs
  · rename_i e; cases e; rfl
  · rename_i h2 h1; exact absurd rfl (h1 kv)

section
variable (E : Env) (clientId maxRetries : Int)

/-- **C110** What a documented reading shows changes only because a message about it was read in between: over any part of a history `get_value`
gives what it gave before, or what a message read in that part tells, or (the readings of a pump are emptied before the rest of the message is
read) None after a message about that pump was read in that part. -/
theorem C110_reading (es es2 : List Ev) (q : Path) (s : Sheet) (hs : sheet q = some s) :
    getValue false q (after E clientId maxRetries (es ++ es2)).g.data = getValue false q (after E clientId maxRetries es).g.data ∨
    (∃ D m v, ReadIn E clientId maxRetries es es2 D m ∧ Tells D m q v ∧ getValue false q (after E clientId maxRetries (es ++ es2)).g.data = .ok v) ∨
    (∃ i k m, q = [.s "pump", .i i, .s k] ∧ ReadIn E clientId maxRetries es es2 (.pump i) m ∧
      getValue false q (after E clientId maxRetries (es ++ es2)).g.data = .ok .null) := by
  have hr := C83_reachable E clientId maxRetries es
  have hr2 := C83_reachable E clientId maxRetries (es ++ es2)
  have hm := C110_data E clientId maxRetries es es2
  have hn := (sheet_place hs).1
  have hq0 : q ≠ [] := by rintro rfl; rw [show sheet [] = none from rfl] at hs; cases hs
  have hvals : ∀ d, Reachable E.pyFloat d → ∃ v, getValue false q d = .ok v := by
    intro d hd
    rw [C35_value _ _ _ (tree_look (p := []) (reachable_tree hd) rfl)]
    exact getData_lax _ d
  obtain ⟨v, hv⟩ := hvals _ hr2
  obtain ⟨u, hu⟩ := hvals _ hr
  by_cases hv0 : v = .null
  · subst hv0
    by_cases hu0 : u = .null
    · exact .inl (by rw [hv, hu, hu0])
    obtain ⟨kv, hl, ha⟩ := value_look hr hn hq0 hu0 hu
    have hlv : (after E clientId maxRetries es).g.data.look (q ++ [.s "value"]) = some u := by
      rw [look_append, hl]
      simp [Val.look, ha]
    -- the reading is still there, unless emptied
    have stays : ((after E clientId maxRetries (es ++ es2)).g.data.look (q ++ [.s "value"])).isSome →
        False := by
      intro h
      obtain ⟨w, hw⟩ := Option.isSome_iff_exists.1 h
      have := look_value hr2 hw
      rw [hv] at this
      cases this
      exact tree_look (reachable_tree hr2) hw rfl
    rcases sheet_reading hs with hrd | ⟨i, k, rfl⟩
    · exfalso
      refine stays ?_
      exact later_data E clientId maxRetries (R := fun a b => (a.look (q ++ [.s "value"])).isSome → (b.look (q ++ [.s "value"])).isSome) (fun _ h => h)
        (fun _ _ _ h1 h2 h => h2 (h1 h)) (fun D b d h => reading_stays E.pyFloat D b d q hrd hn h) es es2 (by rw [hlv]; rfl)
    · have hne : (after E clientId maxRetries es).g.data.look [.s "pump", i, .s k] ≠ some (.dict []) := by
        rw [hl]
        rintro e
        cases e
        cases ha
      rcases made_filled hm hs hne with h | ⟨j, m, rfl, h⟩
      · exfalso
        have hsome := later_data E clientId maxRetries (R := fun a b => (a.look [.s "pump", i, .s k]).isSome → (b.look [.s "pump", i, .s k]).isSome)
          (fun _ h => h) (fun _ _ _ h1 h2 h => h2 (h1 h)) (fun D b d h => present_stays E.pyFloat D b d [.s "pump", i, .s k] hn h) es es2 (by rw [hl]; rfl)
        obtain ⟨w, hw⟩ := Option.isSome_iff_exists.1 hsome
        refine stays ?_
        rcases reachable_sheets hr2 _ s hs w hw with ⟨-, rfl⟩ | ⟨kv', rfl, h1, -⟩
        · exact absurd hw h
        · rw [look_append, hw]
          obtain ⟨y, hy⟩ := Option.isSome_iff_exists.1 h1
          simp [Val.look, hy]
      · exact .inr (.inr ⟨j, k, m, rfl, h, hv⟩)
  · obtain ⟨kv, hl, ha⟩ := value_look hr2 hn hq0 hv0 hv
    rcases made_latest hm q (.inl ⟨s, hs⟩) _ hl v (by rw [valOf_sheet hs, ha]) with ⟨x, hx, hxv⟩ | ⟨D, m, h1, h2⟩
    · left
      rw [hv]
      symm
      cases x with
      | dict kv' =>
        rw [valOf_sheet hs] at hxv
        exact look_value hr (by rw [look_append, hx]; simp [Val.look, hxv])
      | _ =>
        exfalso
        rcases reachable_sheets hr _ s hs _ hx with ⟨-, e⟩ | ⟨_, e, -⟩ <;> cases e
    · exact .inr (.inl ⟨D, m, v, h1, h2, hv⟩)

/-- **C110** (circuits).  Whether a circuit is shown as on changes only because a status message about a circuit of that number was read in between. -/
theorem C110_circuit (es es2 : List Ev) (id : Int) :
    getValue false [.s "circuit", .i id] (after E clientId maxRetries (es ++ es2)).g.data = getValue false [.s "circuit", .i id] (after E clientId maxRetries es).g.data ∨
    ∃ m v, ReadIn E clientId maxRetries es es2 .status m ∧ Tells .status m [.s "circuit", .i id, .s "value"] v ∧
      getValue false [.s "circuit", .i id] (after E clientId maxRetries (es ++ es2)).g.data = .ok v := by
  have hr := C83_reachable E clientId maxRetries es
  have hr2 := C83_reachable E clientId maxRetries (es ++ es2)
  have hm := C110_data E clientId maxRetries es es2
  have hvals : ∀ d, Reachable E.pyFloat d → ∃ v, getValue false [.s "circuit", .i id] d = .ok v := by
    intro d hd
    rw [C35_value _ _ _ (tree_look (p := []) (reachable_tree hd) rfl)]
    exact getData_lax _ d
  have hplace : ∀ d v, Reachable E.pyFloat d → v ≠ .null → getValue false [.s "circuit", .i id] d = .ok v →
      d.look [.s "circuit", .i id, .s "value"] = some v := by
    intro d v hd h0 hv
    rw [C35_value _ _ _ (tree_look (p := []) (reachable_tree hd) rfl)] at hv
    exact place_look hd (q := [.s "circuit", .i id, .s "value"]) rfl (by simp) h0 (r := []) (by simp) hv
  obtain ⟨v, hv⟩ := hvals _ hr2
  obtain ⟨u, hu⟩ := hvals _ hr
  by_cases hv0 : v = .null
  · left
    by_cases hu0 : u = .null
    · rw [hv, hu, hv0, hu0]
    exfalso
    have hl := hplace _ _ hr hu0 hu
    have := later_data E clientId maxRetries (R := fun a b => (a.look [.s "circuit", .i id, .s "value"]).isSome → (b.look [.s "circuit", .i id, .s "value"]).isSome)
      (fun _ h => h) (fun _ _ _ h1 h2 h => h2 (h1 h)) (fun D b d h => present_stays E.pyFloat D b d [.s "circuit", .i id, .s "value"] rfl h) es es2 (by rw [hl]; rfl)
    obtain ⟨w, hw⟩ := Option.isSome_iff_exists.1 this
    have h2 := look_value hr2 (q := [.s "circuit", .i id]) hw
    rw [hv, hv0] at h2
    cases h2
    exact tree_look (reachable_tree hr2) hw rfl
  · have hl := hplace _ _ hr2 hv0 hv
    rcases made_latest hm [.s "circuit", .i id, .s "value"] (.inr ⟨id, rfl⟩) _ hl v rfl with ⟨x, hx, hxv⟩ | ⟨D, m, h1, h2⟩
    · left
      have : x = v := Option.some.inj hxv
      subst this
      rw [hv, look_value hr (q := [.s "circuit", .i id]) hx]
    · refine .inr ⟨m, v, ?_, ?_, hv⟩ <;>
      · have key : D = .status := by
          generalize hp : ([.s "circuit", .i id, .s "value"] : Path) = p at h2
          cases h2 with
          | fixed _ _ _ f _ hf _ =>
            subst hp
            exfalso
            cases D <;> simp [places, statusPlaces, configPlaces, scgPlaces, chemPlaces, timePlaces] at hf
          | body => rfl
          | circuit => rfl
          | tail => rfl
          | pump => simp at hp
          | model => simp at hp
          | chemFirmware => simp at hp
          | firmware => simp at hp
        subst key
        assumption

/-- **C110** (nothing read, nothing changed).  While no message that says something about a documented reading is read (for a pump: no message about that
pump), `get_value` gives the same. -/
theorem C110_same (es es2 : List Ev) (q : Path) (s : Sheet) (hs : sheet q = some s)
    (h : ∀ D m v, ReadIn E clientId maxRetries es es2 D m → ¬ Tells D m q v)
    (hp : ∀ i k m, q = [.s "pump", .i i, .s k] → ¬ ReadIn E clientId maxRetries es es2 (.pump i) m) :
    getValue false q (after E clientId maxRetries (es ++ es2)).g.data = getValue false q (after E clientId maxRetries es).g.data := by
  rcases C110_reading E clientId maxRetries es es2 q s hs with e | ⟨D, m, v, h1, h2, -⟩ | ⟨i, k, m, e, h1, -⟩
  · exact e
  · exact absurd h2 (h D m v h1)
  · exact absurd h1 (hp i k m e)
end

theorem no_salt {f : String → Except PyErr Rat} {d : Val} (hd : Reachable f d)
    (h : (match Val.look [.s "scg", .s "sensor", .s "salt_ppm", .s "value"] d with | none => true | _ => false) = true) :
    getValue false [.s "scg", .s "sensor", .s "salt_ppm"] d = .ok .null := by
  rw [C35_value _ _ _ (tree_look (p := []) (reachable_tree hd) rfl)]
  have := getData_strings ["scg", "sensor", "salt_ppm", "value"] d
  simp only [List.map_cons, List.map_nil] at this
  refine this.trans ?_
  split at h
  · rename_i e; rw [e]; rfl
  · cases h

theorem some_model {f : String → Except PyErr Rat} {d : Val} (hd : Reachable f d)
    (h : (match Val.look [.s "controller", .s "model", .s "value"] d with | some (.str _) => true | _ => false) = true) :
    getValue false [.s "controller", .s "model"] d ≠ .ok .null := by
  split at h
  · rename_i t ht
    rw [look_value hd ht]
    simp
  · cases h

/-- A chlorinator poll: the answer is read in it, the salt reading changes from None to 3000 and the model stays. -/
theorem C110_witness :
    ReadIn sampleEnv 1 1 connectEvs (.call .getScg :: (reply 0 4 12573 sampleScg.enc ++ [.resume 1])) .scg sampleScg.enc ∧
    Tells .scg sampleScg.enc [.s "scg", .s "sensor", .s "salt_ppm"] (.int 3000) ∧
    getValue false [.s "scg", .s "sensor", .s "salt_ppm"] (after sampleEnv 1 1 connectEvs).g.data = .ok .null ∧
    Displays (after sampleEnv 1 1 (connectEvs ++ .call .getScg :: (reply 0 4 12573 sampleScg.enc ++ [.resume 1]))).g.data
      [.s "scg", .s "sensor", .s "salt_ppm"] (.int 3000) ∧
    getValue false [.s "controller", .s "model"] (after sampleEnv 1 1 connectEvs).g.data ≠ .ok .null := by
  obtain ⟨-, h1, h2, h3, h4⟩ := C109_witness
  refine ⟨.inl ?_, h3, ?_, h4, ?_⟩
  · obtain ⟨h0, c, e⟩ := h1
    refine ⟨callTask sampleEnv 1 1 connectEvs, c, _, _, h0, [], h2, e, ?_⟩
    have : ((after sampleEnv 1 1 connectEvs).g.acts (callTask sampleEnv 1 1 connectEvs)).length = 0 := by decide +kernel
    omega
  · exact no_salt (C83_reachable sampleEnv 1 1 connectEvs) (by decide +kernel)
  · exact some_model (C83_reachable sampleEnv 1 1 connectEvs) (by decide +kernel)

end SL
