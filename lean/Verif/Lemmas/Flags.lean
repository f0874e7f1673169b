import Verif.Lemmas.Valued
import Verif.Props.GrowthProps
/-!
# The equipment flags

Only the configuration's decoder writes them: a whole number, after the model.
-/
set_option linter.unusedVariables false
namespace SL
open Prog (rd rdString rdArray rdTime rdMsgString offset store setdefault lookup throw loop forRange)

/-- Where the equipment flags are. -/
def flagsAt : Path := [.s "controller", .s "equipment", .s "flags"]

/-- Where their names are. -/
def flagNamesAt : Path := [.s "controller", .s "equipment", .s "list"]

/-- Nothing is stored there or below. -/
def opF : Op → Bool
  | .set p _ => p.length < 3 || (!flagsAt.isPrefixOf p && !flagNamesAt.isPrefixOf p)
  | .setdef p x => (p.length < 3 || (!flagsAt.isPrefixOf p && !flagNamesAt.isPrefixOf p)) &&
      (x.isEmptyDict || (!p.isPrefixOf flagsAt && !p.isPrefixOf flagNamesAt))
  | _ => true

/-- No operation does. -/
def Unflagged {α : Type} (p : Prog α) : Prop := AllOps (fun op => opF op = true) p

section
variable {α : Type}
theorem fl_rd {g : Fmt} {k : Int → Prog α} (h : ∀ x, Unflagged (k x)) : Unflagged (rd g >>= k) := h
theorem fl_rdString {k : String → Prog α} (h : ∀ x, Unflagged (k x)) : Unflagged (rdString >>= k) := h
theorem fl_rdArray {k : List Int → Prog α} (h : ∀ x, Unflagged (k x)) : Unflagged (rdArray >>= k) := ⟨rfl, h⟩
theorem fl_rdTime {k : DateTime → Prog α} (h : ∀ x, Unflagged (k x)) : Unflagged (rdTime >>= k) := h
theorem fl_rdMsgString {k : String → Prog α} (h : ∀ x, Unflagged (k x)) : Unflagged (rdMsgString >>= k) := ⟨rfl, h⟩
theorem fl_offset {k : Nat → Prog α} (h : ∀ x, Unflagged (k x)) : Unflagged (offset >>= k) := h
theorem fl_store {p : Path} {x : Val} {k : Unit → Prog α} (h : opF (.set p x) = true) (hk : Unflagged (k ())) :
    Unflagged (store p x >>= k) := ⟨h, hk⟩
theorem fl_store' {p : Path} {x : Val} (h : opF (.set p x) = true) : Unflagged (store p x) := ⟨h, trivial⟩
theorem fl_setdefault {p : Path} {x : Val} {k : Unit → Prog α} (h : opF (.setdef p x) = true) (hk : Unflagged (k ())) :
    Unflagged (setdefault p x >>= k) := ⟨h, hk⟩
theorem fl_lookup {p : Path} {k : Option Val → Prog α} (hk : ∀ v, Unflagged (k v)) :
    Unflagged (lookup p >>= k) := ⟨rfl, hk⟩
theorem fl_pure {a : α} : Unflagged (pure a : Prog α) := trivial
theorem fl_throw {e : PyErr} : Unflagged (throw (α := α) e) := trivial
theorem fl_bind {β : Type} {p : Prog β} {k : β → Prog α} (h : Unflagged p) (hk : ∀ a, Unflagged (k a)) : Unflagged (p >>= k) :=
  allOps_bind h hk
theorem fl_loop {σ : Type} {body : Nat → σ → Prog σ} (h : ∀ i s, Unflagged (body i s)) (n i : Nat) (s : σ) :
    Unflagged (loop body n i s) := allOps_loop h n i s
theorem fl_forRange {body : Nat → Prog Unit} (h : ∀ i, Unflagged (body i)) (n : Nat) : Unflagged (forRange n body) :=
  allOps_loop (fun i _ => h i) n 0 ()
end

macro "fl_op" : tactic => `(tactic| rfl)
macro "fl_step" : tactic =>
  `(tactic| first
    | (refine fl_rd (fun _ => ?_))
    | (refine fl_rdString (fun _ => ?_))
    | (refine fl_rdArray (fun _ => ?_))
    | (refine fl_rdTime (fun _ => ?_))
    | (refine fl_rdMsgString (fun _ => ?_))
    | (refine fl_offset (fun _ => ?_))
    | (refine fl_store (by fl_op) ?_)
    | (refine fl_store' (by fl_op))
    | (refine fl_setdefault (by fl_op) ?_)
    | exact fl_throw
    | exact fl_pure)

theorem unflagged_unit : Unflagged getTemperatureUnit := by
  unfold getTemperatureUnit
  refine fl_lookup (fun v => ?_)
  cases v <;> exact fl_pure

theorem unflagged_subscript (v : Val) (k : Key) : Unflagged (subscript v k) := by
  unfold subscript
  split
  · split <;> trivial
  · trivial

theorem unflagged_scg : Unflagged decodeScg := by unfold decodeScg; repeat fl_step

theorem unflagged_chemistry : Unflagged decodeChemistry := by
  unfold decodeChemistry
  refine fl_bind (by unfold decodeChemistryA; repeat fl_step) (fun _ => ?_)
  refine fl_bind ?_ (fun _ => ?_)
  · unfold decodeChemistryB
    repeat fl_step
    refine fl_bind unflagged_unit (fun _ => ?_)
    repeat fl_step
  refine fl_bind (by unfold decodeChemistryC; repeat fl_step) (fun _ => ?_)
  unfold decodeChemistryD
  repeat fl_step

theorem unflagged_copySetpoints (i : Int) (o : Option Val) (t : Int) : Unflagged (copySetpoints i o t) := by
  unfold copySetpoints
  split
  · split
    · split
      · refine fl_bind (unflagged_subscript _ _) (fun _ => ?_)
        fl_step
        refine fl_bind (unflagged_subscript _ _) (fun _ => ?_)
        repeat fl_step
      · exact fl_pure
    · exact fl_pure
  · split
    · exact fl_throw
    · exact fl_pure
  · exact fl_pure

theorem unflagged_status : Unflagged decodeStatus := by
  unfold decodeStatus
  refine fl_bind ?_ (fun _ => ?_)
  · unfold decodeStatusHead
    repeat fl_step
    refine fl_bind unflagged_unit (fun _ => ?_)
    repeat fl_step
  fl_step
  refine fl_lookup (fun _ => ?_)
  fl_step
  refine fl_bind (fl_forRange (fun i => ?_) _) (fun _ => ?_)
  · unfold decodeBody
    fl_step; fl_step; fl_step
    refine fl_bind (unflagged_copySetpoints _ _ _) (fun _ => ?_)
    repeat fl_step
  fl_step; fl_step
  refine fl_bind (fl_forRange (fun i => ?_) _) (fun _ => ?_)
  · unfold decodeStatusCircuit
    repeat fl_step
  unfold decodeStatusTail
  repeat fl_step

theorem unflagged_nameFromCircuits (dev : Int) (kv : List (Key × Val)) (n : String) : Unflagged (nameFromCircuits dev kv n) := by
  induction kv with
  | nil => exact fl_pure
  | cons a rest ih =>
    unfold nameFromCircuits
    refine fl_bind (unflagged_subscript _ _) (fun d => ?_)
    split
    · refine fl_bind (unflagged_subscript _ _) (fun x => ?_)
      cases x <;> first | exact fl_pure | exact fl_throw
    · exact ih

theorem unflagged_pump (pump : Int) : Unflagged (decodePump pump) := by
  unfold decodePump
  fl_step; fl_step; fl_step; fl_step; fl_step; fl_step
  refine fl_bind (by unfold setPumpState; split <;> repeat fl_step) (fun _ => ?_)
  repeat fl_step
  refine fl_bind (fl_loop (fun i s => ?_) _ _ _) (fun _ => ?_)
  · unfold decodePreset
    fl_step; fl_step; fl_step
    refine fl_lookup (fun v => ?_)
    refine fl_bind ?_ (fun _ => ?_)
    · unfold pumpName
      split
      · exact fl_pure
      · exact unflagged_nameFromCircuits _ _ _
      · exact fl_throw
    repeat fl_step
  · unfold decodePumpTail
    repeat fl_step

theorem unflagged_colorUpdate : Unflagged decodeColorUpdate := by unfold decodeColorUpdate; repeat fl_step
theorem unflagged_dateTime (now : Rat) : Unflagged (decodeDateTime now) := by unfold decodeDateTime; repeat fl_step

theorem unflagged_floatPart (g : String → Except PyErr Rat) (parts : List String) (i : Nat) : Unflagged (floatPart g parts i) := by
  unfold floatPart
  split
  · trivial
  · split <;> trivial
theorem unflagged_version (g : String → Except PyErr Rat) : Unflagged (decodeVersion g) := by
  unfold decodeVersion
  fl_step; fl_step
  refine fl_bind (unflagged_floatPart _ _ _) (fun _ => ?_)
  refine fl_bind (unflagged_floatPart _ _ _) (fun _ => ?_)
  repeat fl_step

theorem unflagged_equipArray (k : String) : Unflagged (decodeEquipArray k) := by
  unfold decodeEquipArray
  fl_step
  exact fl_store' rfl
theorem unflagged_equipment : Unflagged decodeEquipment := by
  unfold decodeEquipment
  fl_step; fl_step; fl_step; fl_step; fl_step; fl_step; fl_step; fl_step; fl_step; fl_step
  fl_step; fl_step; fl_step
  iterate 11 (refine fl_bind (unflagged_equipArray _) (fun _ => ?_))
  exact unflagged_equipArray _

theorem Decoder.unflagged (f : String → Except PyErr Rat) (D : Decoder) (h : D ≠ .config) : Unflagged (D.prog f) := by
  cases D with
  | status => exact unflagged_status
  | config => exact absurd rfl h
  | scg => exact unflagged_scg
  | chemistry => exact unflagged_chemistry
  | pump i => exact unflagged_pump i
  | colorUpdate => exact unflagged_colorUpdate
  | version => exact unflagged_version f
  | dateTime now => exact unflagged_dateTime now
  | equipment => exact unflagged_equipment

/-! ## The configuration -/

/-- Where the model is. -/
def modelPath : Path := [.s "controller", .s "model", .s "value"]

/-- The flags are set to a whole number, and only after the model has been set (`b`). -/
def Prog.Orders {α : Type} : Bool → Prog α → Prop
  | _, .pure _ => True
  | _, .raise _ => True
  | b, .num _ k => ∀ x, (k x).Orders b
  | b, .str k => ∀ x, (k x).Orders b
  | b, .arr k => ∀ x, (k x).Orders b
  | b, .time k => ∀ x, (k x).Orders b
  | b, .msgStr k => ∀ x, (k x).Orders b
  | b, .off k => ∀ x, (k x).Orders b
  | b, .set p x k => (opF (.set p x) = true ∨ p = flagNamesAt ∨ (b = true ∧ p = flagsAt ∧ ∃ n, x = .int n)) ∧ k.Orders (b || p == [.s "controller", .s "model"])
  | b, .setdef p x k => opF (.setdef p x) = true ∧ k.Orders b
  | b, .get _ k => ∀ x, (k x).Orders b

theorem orders_of {α : Type} {p : Prog α} : ∀ {b : Bool}, Unflagged p → p.Orders b := by
  induction p with
  | pure a => exact fun _ => trivial
  | raise e => exact fun _ => trivial
  | num f k ih => exact fun h x => ih x (h x)
  | str k ih => exact fun h x => ih x (h x)
  | arr k ih => exact fun h x => ih x (h.2 x)
  | time k ih => exact fun h x => ih x (h x)
  | msgStr k ih => exact fun h x => ih x (h.2 x)
  | off k ih => exact fun h x => ih x (h x)
  | set p x k ih => exact fun h => ⟨.inl h.1, ih h.2⟩
  | setdef p x k ih => exact fun h => ⟨h.1, ih h.2⟩
  | get p k ih => exact fun h x => ih x (h.2 x)

theorem orders_mono {α : Type} {p : Prog α} : p.Orders false → p.Orders true := by
  have key : ∀ {b b' : Bool}, (b = true → b' = true) → p.Orders b → p.Orders b' := by
    induction p with
    | pure a => exact fun _ _ => trivial
    | raise e => exact fun _ _ => trivial
    | num f k ih => exact fun hb h x => ih x hb (h x)
    | str k ih => exact fun hb h x => ih x hb (h x)
    | arr k ih => exact fun hb h x => ih x hb (h x)
    | time k ih => exact fun hb h x => ih x hb (h x)
    | msgStr k ih => exact fun hb h x => ih x hb (h x)
    | off k ih => exact fun hb h x => ih x hb (h x)
    | set p x k ih => exact fun hb h => ⟨h.1.imp id (Or.imp id (fun y => ⟨hb y.1, y.2⟩)), ih (fun y => by
        rcases Bool.or_eq_true _ _ ▸ y with z | z
        · rw [hb z]; rfl
        · rw [z, Bool.or_true]) h.2⟩
    | setdef p x k ih => exact fun hb h => ⟨h.1, ih hb h.2⟩
    | get p k ih => exact fun hb h x => ih x hb (h x)
  exact key (fun _ => rfl)

theorem orders_bind {α β : Type} {p : Prog α} {k : α → Prog β} : ∀ {b : Bool}, p.Orders b → (∀ a, (k a).Orders false) → (p >>= k).Orders b := by
  show ∀ {b : Bool}, p.Orders b → (∀ a, (k a).Orders false) → (p.bind k).Orders b
  have w : ∀ {b : Bool} (a : α), (∀ a, (k a).Orders false) → (k a).Orders b := by
    intro b a h
    cases b
    · exact h a
    · exact orders_mono (h a)
  induction p with
  | pure a => exact fun _ h => w a h
  | raise e => exact fun _ _ => trivial
  | num f k ih => exact fun h hk x => ih x (h x) hk
  | str k ih => exact fun h hk x => ih x (h x) hk
  | arr k ih => exact fun h hk x => ih x (h x) hk
  | time k ih => exact fun h hk x => ih x (h x) hk
  | msgStr k ih => exact fun h hk x => ih x (h x) hk
  | off k ih => exact fun h hk x => ih x (h x) hk
  | set p x k ih => exact fun h hk => ⟨h.1, ih h.2 hk⟩
  | setdef p x k ih => exact fun h hk => ⟨h.1, ih h.2 hk⟩
  | get p k ih => exact fun h hk x => ih x (h x) hk

/-- A part that leaves the flags alone, in front. -/
theorem orders_skip {α β : Type} {p : Prog α} {k : α → Prog β} : ∀ {b : Bool}, Unflagged p → (∀ a, (k a).Orders b) → (p >>= k).Orders b := by
  show ∀ {b : Bool}, Unflagged p → (∀ a, (k a).Orders b) → (p.bind k).Orders b
  have t : ∀ {b : Bool} {q : Prog β}, q.Orders b → ∀ c : Bool, q.Orders (b || c) := by
    intro b q h c
    cases b
    · cases c
      · exact h
      · exact orders_mono h
    · exact h
  have t' : ∀ {b : Bool} (c : Bool), (∀ a, (k a).Orders b) → ∀ a, (k a).Orders (b || c) := fun c h a => t (h a) c
  induction p with
  | pure a => exact fun _ h => h a
  | raise e => exact fun _ _ => trivial
  | num f k ih => exact fun h hk x => ih x (h x) hk
  | str k ih => exact fun h hk x => ih x (h x) hk
  | arr k ih => exact fun h hk x => ih x (h.2 x) hk
  | time k ih => exact fun h hk x => ih x (h x) hk
  | msgStr k ih => exact fun h hk x => ih x (h.2 x) hk
  | off k ih => exact fun h hk x => ih x (h x) hk
  | set p x k ih => exact fun h hk => ⟨.inl h.1, ih h.2 (t' _ hk)⟩
  | setdef p x k ih => exact fun h hk => ⟨h.1, ih h.2 hk⟩
  | get p k ih => exact fun h hk x => ih x (h.2 x) hk

theorem orders_config : decodeConfig.Orders false := by
  unfold decodeConfig
  refine orders_bind ?_ (fun _ => orders_of ?_)
  · unfold decodeConfigHead
    refine ⟨rfl, fun _ => ⟨.inl rfl, rfl, rfl, ?_⟩⟩
    show Prog.Orders false (forRange 2 decodeSetpoints >>= _)
    refine orders_skip (p := forRange 2 decodeSetpoints) (fl_forRange (fun i => by unfold decodeSetpoints; repeat fl_step) _) (fun _ => ?_)
    refine fun _ => ⟨.inl rfl, fun _ => ⟨.inl rfl, fun _ => ⟨.inl rfl, .inl rfl, fun _ => ⟨.inl rfl, rfl, fun e v => ?_⟩⟩⟩⟩
    show Prog.Orders true (maskFlags v e >>= _)
    refine orders_skip (p := maskFlags v e) (by unfold maskFlags; split <;> first | exact fl_pure | exact fl_throw) (fun _ => ?_)
    exact ⟨.inr (.inr ⟨rfl, rfl, _, rfl⟩), .inr (.inl rfl), fun _ => ⟨.inl rfl, trivial⟩⟩
  fl_step; fl_step; fl_step
  refine fl_bind (fl_forRange (fun i => by unfold decodeConfigCircuit; repeat fl_step) _) (fun _ => ?_)
  fl_step; fl_step
  refine fl_bind (fl_loop (fun i s => by unfold decodeColor; repeat fl_step) _ _ _) (fun _ => ?_)
  fl_step; fl_step
  refine fl_bind (fl_forRange (fun i => by unfold decodePumpData; repeat fl_step) _) (fun _ => ?_)
  repeat fl_step


/-! ## What the order gives -/

/-- Flags are whole numbers, and the model is there when they are. -/
def FlagsOk (d : Val) : Prop := ∀ v, d.look flagsAt = some v → (∃ n, v = .int n) ∧ (d.look modelPath).isSome

theorem pre_of_prefix {p q : Path} (hq : isNode q.dropLast = true) (hp : p <+: q) (hne : p ≠ q) : isNode p = true := by
  refine isNode_prefix hq ?_
  obtain ⟨r, rfl⟩ := hp
  have : r ≠ [] := by rintro rfl; simp at hne
  rw [List.dropLast_append_of_ne_nil this]
  exact List.prefix_append _ _

/-- A store keeps the value of the model. -/
theorem model_put {p : Path} {x d : Val} (hx : opV (.set p x) = true) (hn : isNode p = false) (h : (d.look modelPath).isSome) :
    ((Val.put p x d).look modelPath).isSome := by
  by_cases h1 : p <+: modelPath
  · rcases List.prefix_concat_iff.1 (show p <+: [.s "controller", .s "model"] ++ [.s "value"] from h1) with h2 | h2
    · rw [show modelPath = p from h2.symm, look_put_same]; rfl
    · by_cases h3 : p = [.s "controller", .s "model"]
      · subst h3
        rw [show modelPath = [.s "controller", .s "model"] ++ [.s "value"] from rfl, look_append, look_put_same, Option.bind_some]
        have : hasValue x = true := by simpa [opV, show isReading [.s "controller", .s "model"] = true from rfl] using hx
        cases x with
        | dict kv =>
          simp only [hasValue] at this
          obtain ⟨v, hv⟩ := Option.isSome_iff_exists.1 this
          simp [Val.look, hv]
        | _ => cases this
      · rw [pre_of_prefix (q := [.s "controller", .s "model"]) rfl h2 h3] at hn; cases hn
  · by_cases h2 : modelPath <+: p
    · obtain ⟨kv, hkv⟩ := look_put_above x d h2 (by rintro rfl; exact h1 h2)
      rw [hkv]; rfl
    · rw [look_put_other x d h1 h2]; exact h

/-- Storing the model. -/
theorem model_set {x d : Val} (hx : opV (.set [.s "controller", .s "model"] x) = true) : ((Val.put [.s "controller", .s "model"] x d).look modelPath).isSome := by
  rw [show modelPath = [.s "controller", .s "model"] ++ [.s "value"] from rfl, look_append, look_put_same, Option.bind_some]
  have : hasValue x = true := by simpa [opV, show isReading [.s "controller", .s "model"] = true from rfl] using hx
  cases x with
  | dict kv =>
    simp only [hasValue] at this
    obtain ⟨v, hv⟩ := Option.isSome_iff_exists.1 this
    simp [Val.look, hv]
  | _ => cases this

theorem model_putNew {p : Path} {x d : Val} (h : (d.look modelPath).isSome) : ((Val.putNew p x d).look modelPath).isSome := by
  cases hp : Val.look p d with
  | some y => rw [putNew_of_some hp]; exact h
  | none =>
    rw [putNew_of_none hp]
    by_cases h1 : p <+: modelPath
    · obtain ⟨y, hy⟩ := Option.isSome_iff_exists.1 h
      obtain ⟨z, hz⟩ := look_prefix_some h1 hy
      rw [hp] at hz; simp at hz
    · by_cases h2 : modelPath <+: p
      · obtain ⟨kv, hkv⟩ := look_put_above x d h2 (by rintro rfl; exact h1 h2)
        rw [hkv]; rfl
      · rw [look_put_other x d h1 h2]; exact h

/-- A store that is not about the flags or their names. -/
theorem off_put {q p : Path} {x d : Val} (hq : q = flagsAt ∨ q = flagNamesAt) (hf : opF (.set p x) = true) (hn : isNode p = false) :
    (Val.put p x d).look q = d.look q := by
  have h2 : ¬ q <+: p := by
    intro h
    simp only [opF, Bool.or_eq_true, Bool.and_eq_true, decide_eq_true_eq, Bool.not_eq_true', ← Bool.not_eq_true, List.isPrefixOf_iff_prefix] at hf
    rcases hf with hf | hf
    · have := h.length_le
      rcases hq with rfl | rfl <;> simp [flagsAt, flagNamesAt] at this <;> omega
    · rcases hq with rfl | rfl
      · exact hf.1 h
      · exact hf.2 h
  refine look_put_other x d (fun h => ?_) h2
  by_cases h3 : p = q
  · exact h2 (h3 ▸ List.prefix_rfl)
  · rw [pre_of_prefix (q := q) (by rcases hq with rfl | rfl <;> rfl) h h3] at hn; cases hn

theorem off_putNew {q p : Path} {x d : Val} (hq : q = flagsAt ∨ q = flagNamesAt) (hf : opF (.setdef p x) = true) :
    (Val.putNew p x d).look q = d.look q := by
  cases hp : Val.look p d with
  | some y => rw [putNew_of_some hp]
  | none =>
    rw [putNew_of_none hp]
    simp only [opF, Bool.and_eq_true, Bool.or_eq_true, decide_eq_true_eq, Bool.not_eq_true', ← Bool.not_eq_true, List.isPrefixOf_iff_prefix] at hf
    have h2 : ¬ q <+: p := by
      intro h
      rcases hf.1 with hf | hf
      · have := h.length_le
        rcases hq with rfl | rfl <;> simp [flagsAt, flagNamesAt] at this <;> omega
      · rcases hq with rfl | rfl
        · exact hf.1 h
        · exact hf.2 h
    by_cases h1 : p <+: q
    · have hx : x = .dict [] := by
        have := hf.2.resolve_right (fun h => by
          rcases hq with rfl | rfl
          · exact h.1 h1
          · exact h.2 h1)
        cases x with
        | dict kv => cases kv with
          | nil => rfl
          | cons a l => cases this
        | _ => cases this
      obtain ⟨r, hr⟩ := h1
      rw [← hr, look_append, look_append, hp, look_put_same, hx]
      cases r with
      | nil => rw [List.append_nil] at hr; exact absurd (hr ▸ List.prefix_rfl) h2
      | cons k r => rfl
    · exact look_put_other x d h1 h2

theorem flags_put {p : Path} {x d : Val} (hf : opF (.set p x) = true) (hn : isNode p = false) : (Val.put p x d).look flagsAt = d.look flagsAt :=
  off_put (.inl rfl) hf hn
theorem flags_putNew {p : Path} {x d : Val} (hf : opF (.setdef p x) = true) : (Val.putNew p x d).look flagsAt = d.look flagsAt :=
  off_putNew (.inl rfl) hf

/-- Running a program that keeps the order. -/
theorem orders_run {α : Type} {f : Profile} {p : Prog α} : ∀ {b : Bool}, p.Orders b → AllOps (fun op => opOK f op = true ∧ opV op = true) p →
    ∀ (m : Bytes) (o : Nat) (d : Val), (b = true → (d.look modelPath).isSome) → FlagsOk d → FlagsOk (p.run m o d).2 := by
  have node : ∀ {q : Path} {x : Val}, opOK f (.set q x) = true → isNode q = false := by
    intro q x hop
    simp only [opOK, Bool.and_eq_true, Bool.not_eq_true', defaulted, Bool.or_eq_false_iff] at hop
    exact hop.2.2.1
  induction p with
  | pure a => exact fun _ _ _ _ _ _ h => h
  | raise e => exact fun _ _ _ _ _ _ h => h
  | num g k ih => exact fun w hp m o d hb h => andThen_snd h (fun a o => ih a (w a) (hp a) m o d hb h)
  | str k ih => exact fun w hp m o d hb h => andThen_snd h (fun a o => ih a (w a) (hp a) m o d hb h)
  | arr k ih => exact fun w hp m o d hb h => andThen_snd h (fun a o => ih a (w a) (hp.2 a) m o d hb h)
  | time k ih => exact fun w hp m o d hb h => andThen_snd h (fun a o => ih a (w a) (hp a) m o d hb h)
  | msgStr k ih =>
    intro b w hp m o d hb h
    simp only [Prog.run]
    split
    · exact ih _ (w _) (hp.2 _) m o d hb h
    · exact h
  | off k ih => exact fun w hp m o d hb h => ih o (w o) (hp o) m o d hb h
  | get q k ih =>
    intro b w hp m o d hb h
    simp only [Prog.run]
    split
    · exact ih _ (w _) (hp.2 _) m o d hb h
    · exact h
  | setdef q x k ih =>
    intro b w hp m o d hb h
    simp only [Prog.run]
    split
    · refine ih w.2 hp.2 m o _ (fun e => model_putNew (hb e)) ?_
      intro v hv
      rw [flags_putNew w.1] at hv
      obtain ⟨h1, h2⟩ := h v hv
      exact ⟨h1, model_putNew h2⟩
    · exact h
  | set q x k ih =>
    intro b w hp m o d hb h
    simp only [Prog.run]
    split
    · refine ih w.2 hp.2 m o _ ?_ ?_
      · intro e
        rw [Bool.or_eq_true] at e
        rcases e with e | e
        · exact model_put hp.1.2 (node hp.1.1) (hb e)
        · have hq := eq_of_beq e
          subst hq
          exact model_set hp.1.2
      · intro v hv
        rcases w.1 with w1 | rfl | ⟨w1, rfl, n, rfl⟩
        · rw [flags_put w1 (node hp.1.1)] at hv
          obtain ⟨h1, h2⟩ := h v hv
          exact ⟨h1, model_put hp.1.2 (node hp.1.1) h2⟩
        · rw [look_put_other _ _ (by decide) (by decide)] at hv
          obtain ⟨h1, h2⟩ := h v hv
          exact ⟨h1, model_put hp.1.2 (node hp.1.1) h2⟩
        · rw [look_put_same] at hv
          cases hv
          exact ⟨⟨n, rfl⟩, model_put hp.1.2 (node hp.1.1) (hb w1)⟩
    · exact h

theorem decoder_orders (f : String → Except PyErr Rat) (D : Decoder) : (D.prog f).Orders false := by
  by_cases h : D = .config
  · subst h
    exact orders_config
  · exact orders_of (D.unflagged f h)

/-- Whatever is decoded. -/
theorem flagsOk_decode (f : String → Except PyErr Rat) (D : Decoder) (m : Bytes) {d : Val} (h : FlagsOk d) : FlagsOk (decodeWith (D.prog f) m d).2 :=
  orders_run (decoder_orders f D) (allOps_and (D.fits f) (D.valued f)) m 0 d (fun e => by cases e) h

/-- Only configurations bring flags. -/
theorem flagsAt_only_config (f : String → Except PyErr Rat) {D : Decoder} (hD : D ≠ .config) (m : Bytes) (d : Val) :
    (decodeWith (D.prog f) m d).2.look flagsAt = d.look flagsAt := by
  refine run_rel (R := fun a b => Val.look flagsAt b = Val.look flagsAt a) (fun _ => rfl)
    (fun a b c h1 h2 => by rw [h2, h1]) ?_ ?_ (allOps_and (D.fits f) (D.unflagged f hD)) m 0 d
  · rintro p x d ⟨hop, hf⟩
    simp only [opOK, Bool.and_eq_true, Bool.not_eq_true', defaulted, Bool.or_eq_false_iff] at hop
    exact flags_put hf hop.2.2.1
  · rintro p x d ⟨-, hf⟩
    exact flags_putNew hf

end SL
