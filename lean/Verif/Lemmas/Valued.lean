import Verif.Lemmas.Profile
/-! # Readings are stored with their values -/
set_option linter.unusedVariables false
namespace SL
open Prog (rd rdString rdArray rdTime rdMsgString offset store setdefault lookup throw loop forRange)

/-- The names of readings outside the pumps. -/
def readingNames : List String :=
  ["last_temperature", "heat_state", "heat_setpoint", "cool_setpoint", "heat_mode",
   "state", "freeze_mode", "pool_delay", "spa_delay", "cleaner_delay", "air_temperature", "ph", "orp", "saturation", "salt_ppm",
   "ph_supply_level", "orp_supply_level", "active_alert", "is_celsius", "model",
   "pool_setpoint", "spa_setpoint", "super_chlorinate", "super_chlor_timer",
   "ph_now", "orp_now", "ph_setpoint", "orp_setpoint", "ph_last_dose_time", "orp_last_dose_time", "ph_last_dose_volume",
   "orp_last_dose_volume", "calcium_hardness", "cya", "total_alkalinity", "salt_tds_ppm", "ph_probe_water_temp",
   "flow_alarm", "ph_high_alarm", "ph_low_alarm", "orp_high_alarm", "orp_low_alarm", "ph_supply_alarm", "orp_supply_alarm", "probe_fault_alarm",
   "ph_lockout", "ph_limit", "orp_limit", "ph_dosing_state", "orp_dosing_state", "firmware", "corrosive", "scaling", "auto_dst"]

/-- The key is the name of a reading. -/
def isReadingKey : Key → Bool
  | .s k => readingNames.contains k
  | .i _ => false

/-- The path is that of a reading outside the pumps. -/
def isReading : Path → Bool
  | .s "pump" :: _ => false
  | p => match p.getLast? with
    | some k => isReadingKey k
    | none => false

/-- A dict with a value. -/
def hasValue : Val → Bool
  | .dict kv => (aget (.s "value") kv).isSome
  | _ => false

/-- Readings are set with a value. -/
def opV : Op → Bool
  | .set p x => !isReading p || hasValue x
  | _ => true

/-- Every operation does so. -/
def Valued {α : Type} (p : Prog α) : Prop := AllOps (fun op => opV op = true) p

theorem reading_unknown (o : Nat) : isReadingKey (.s (unknownAt o)) = false := by
  rw [isReadingKey, ← Bool.not_eq_true, List.contains_iff_mem]
  intro h
  have : ∀ s ∈ readingNames, s.toList.take 18 ≠ "unknown_at_offset_".toList := by decide
  exact unknownAt_ne o _ (this _ h) rfl

theorem opV_unknown1 (a : String) (o : Nat) (x : Val) : opV (.set [.s a, .s (unknownAt o)] x) = true := by
  have : isReading [.s a, .s (unknownAt o)] = false := by
    unfold isReading
    split
    · rfl
    · simp [reading_unknown]
  simp [opV, this]
theorem opV_unknown2 (a b : Key) (o : Nat) (x : Val) : opV (.set [a, b, .s (unknownAt o)] x) = true := by
  have : isReading [a, b, .s (unknownAt o)] = false := by
    unfold isReading
    split
    · rfl
    · simp [reading_unknown]
  simp [opV, this]

section
variable {α : Type}
theorem va_rd {g : Fmt} {k : Int → Prog α} (h : ∀ x, Valued (k x)) : Valued (rd g >>= k) := h
theorem va_rdString {k : String → Prog α} (h : ∀ x, Valued (k x)) : Valued (rdString >>= k) := h
theorem va_rdArray {k : List Int → Prog α} (h : ∀ x, Valued (k x)) : Valued (rdArray >>= k) := ⟨rfl, h⟩
theorem va_rdTime {k : DateTime → Prog α} (h : ∀ x, Valued (k x)) : Valued (rdTime >>= k) := h
theorem va_rdMsgString {k : String → Prog α} (h : ∀ x, Valued (k x)) : Valued (rdMsgString >>= k) := ⟨rfl, h⟩
theorem va_offset {k : Nat → Prog α} (h : ∀ x, Valued (k x)) : Valued (offset >>= k) := h
theorem va_store {p : Path} {x : Val} {k : Unit → Prog α} (h : opV (.set p x) = true) (hk : Valued (k ())) :
    Valued (store p x >>= k) := ⟨h, hk⟩
theorem va_store' {p : Path} {x : Val} (h : opV (.set p x) = true) : Valued (store p x) := ⟨h, trivial⟩
theorem va_setdefault {p : Path} {x : Val} {k : Unit → Prog α} (hk : Valued (k ())) :
    Valued (setdefault p x >>= k) := ⟨rfl, hk⟩
theorem va_lookup {p : Path} {k : Option Val → Prog α} (hk : ∀ v, Valued (k v)) :
    Valued (lookup p >>= k) := ⟨rfl, hk⟩
theorem va_pure {a : α} : Valued (pure a : Prog α) := trivial
theorem va_throw {e : PyErr} : Valued (throw (α := α) e) := trivial
theorem va_bind {β : Type} {p : Prog β} {k : β → Prog α} (h : Valued p) (hk : ∀ a, Valued (k a)) : Valued (p >>= k) :=
  allOps_bind h hk
theorem va_loop {σ : Type} {body : Nat → σ → Prog σ} (h : ∀ i s, Valued (body i s)) (n i : Nat) (s : σ) :
    Valued (loop body n i s) := allOps_loop h n i s
theorem va_forRange {body : Nat → Prog Unit} (h : ∀ i, Valued (body i)) (n : Nat) : Valued (forRange n body) :=
  allOps_loop (fun i _ => h i) n 0 ()
end

macro "va_op" : tactic => `(tactic| first | rfl | exact opV_unknown1 _ _ _ | exact opV_unknown2 _ _ _ _)
macro "va_step" : tactic =>
  `(tactic| first
    | (refine va_rd (fun _ => ?_))
    | (refine va_rdString (fun _ => ?_))
    | (refine va_rdArray (fun _ => ?_))
    | (refine va_rdTime (fun _ => ?_))
    | (refine va_rdMsgString (fun _ => ?_))
    | (refine va_offset (fun _ => ?_))
    | (refine va_store (by va_op) ?_)
    | (refine va_store' (by va_op))
    | (refine va_setdefault ?_)
    | exact va_throw
    | exact va_pure)

theorem valued_unit : Valued getTemperatureUnit := by
  unfold getTemperatureUnit
  refine va_lookup (fun v => ?_)
  cases v <;> exact va_pure

theorem valued_subscript (v : Val) (k : Key) : Valued (subscript v k) := by
  unfold subscript
  split
  · split <;> trivial
  · trivial

theorem valued_scg : Valued decodeScg := by unfold decodeScg; repeat va_step

theorem valued_chemistry : Valued decodeChemistry := by
  unfold decodeChemistry
  refine va_bind (by unfold decodeChemistryA; repeat va_step) (fun _ => ?_)
  refine va_bind ?_ (fun _ => ?_)
  · unfold decodeChemistryB
    repeat va_step
    refine va_bind valued_unit (fun _ => ?_)
    repeat va_step
  refine va_bind (by unfold decodeChemistryC; repeat va_step) (fun _ => ?_)
  unfold decodeChemistryD
  repeat va_step

theorem valued_copySetpoints (i : Int) (o : Option Val) (t : Int) : Valued (copySetpoints i o t) := by
  unfold copySetpoints
  split
  · split
    · split
      · refine va_bind (valued_subscript _ _) (fun _ => ?_)
        va_step
        refine va_bind (valued_subscript _ _) (fun _ => ?_)
        repeat va_step
      · exact va_pure
    · exact va_pure
  · split
    · exact va_throw
    · exact va_pure
  · exact va_pure

theorem valued_status : Valued decodeStatus := by
  unfold decodeStatus
  refine va_bind ?_ (fun _ => ?_)
  · unfold decodeStatusHead
    repeat va_step
    refine va_bind valued_unit (fun _ => ?_)
    repeat va_step
  va_step
  refine va_lookup (fun _ => ?_)
  va_step
  refine va_bind (va_forRange (fun i => ?_) _) (fun _ => ?_)
  · unfold decodeBody
    va_step; va_step; va_step
    refine va_bind (valued_copySetpoints _ _ _) (fun _ => ?_)
    repeat va_step
  va_step; va_step
  refine va_bind (va_forRange (fun i => ?_) _) (fun _ => ?_)
  · unfold decodeStatusCircuit
    repeat va_step
  unfold decodeStatusTail
  repeat va_step

theorem valued_config : Valued decodeConfig := by
  unfold decodeConfig
  refine va_bind ?_ (fun _ => ?_)
  · unfold decodeConfigHead
    va_step; va_step; va_step; va_step; va_step
    refine va_bind (va_forRange (fun i => by unfold decodeSetpoints; repeat va_step) _) (fun _ => ?_)
    repeat va_step
    refine va_lookup (fun _ => ?_)
    refine va_bind (by unfold maskFlags; split <;> first | exact va_pure | exact va_throw) (fun _ => ?_)
    repeat va_step
  va_step; va_step; va_step
  refine va_bind (va_forRange (fun i => by unfold decodeConfigCircuit; repeat va_step) _) (fun _ => ?_)
  va_step; va_step
  refine va_bind (va_loop (fun i s => by unfold decodeColor; repeat va_step) _ _ _) (fun _ => ?_)
  va_step; va_step
  refine va_bind (va_forRange (fun i => by unfold decodePumpData; repeat va_step) _) (fun _ => ?_)
  repeat va_step

theorem valued_nameFromCircuits (dev : Int) (kv : List (Key × Val)) (n : String) : Valued (nameFromCircuits dev kv n) := by
  induction kv with
  | nil => exact va_pure
  | cons a rest ih =>
    unfold nameFromCircuits
    refine va_bind (valued_subscript _ _) (fun d => ?_)
    split
    · refine va_bind (valued_subscript _ _) (fun x => ?_)
      cases x <;> first | exact va_pure | exact va_throw
    · exact ih

theorem valued_pump (pump : Int) : Valued (decodePump pump) := by
  unfold decodePump
  va_step; va_step; va_step; va_step; va_step; va_step
  refine va_bind (by unfold setPumpState; split <;> repeat va_step) (fun _ => ?_)
  repeat va_step
  refine va_bind (va_loop (fun i s => ?_) _ _ _) (fun _ => ?_)
  · unfold decodePreset
    va_step; va_step; va_step
    refine va_lookup (fun v => ?_)
    refine va_bind ?_ (fun _ => ?_)
    · unfold pumpName
      split
      · exact va_pure
      · exact valued_nameFromCircuits _ _ _
      · exact va_throw
    repeat va_step
  · unfold decodePumpTail
    repeat va_step

theorem valued_colorUpdate : Valued decodeColorUpdate := by unfold decodeColorUpdate; repeat va_step
theorem valued_dateTime (now : Rat) : Valued (decodeDateTime now) := by unfold decodeDateTime; repeat va_step

theorem valued_floatPart (g : String → Except PyErr Rat) (parts : List String) (i : Nat) : Valued (floatPart g parts i) := by
  unfold floatPart
  split
  · trivial
  · split <;> trivial
theorem valued_version (g : String → Except PyErr Rat) : Valued (decodeVersion g) := by
  unfold decodeVersion
  va_step; va_step
  refine va_bind (valued_floatPart _ _ _) (fun _ => ?_)
  refine va_bind (valued_floatPart _ _ _) (fun _ => ?_)
  repeat va_step

theorem valued_equipArray (k : String) (h : isReadingKey (.s k) = false) : Valued (decodeEquipArray k) := by
  unfold decodeEquipArray
  va_step
  refine va_store' ?_
  have : isReading [.s "equipment", .s k] = false := h
  simp [opV, this]
theorem valued_equipment : Valued decodeEquipment := by
  unfold decodeEquipment
  va_step; va_step; va_step; va_step; va_step; va_step; va_step; va_step; va_step; va_step
  va_step; va_step; va_step
  iterate 11 (refine va_bind (valued_equipArray _ rfl) (fun _ => ?_))
  exact valued_equipArray _ rfl

theorem Decoder.valued (f : String → Except PyErr Rat) (D : Decoder) : Valued (D.prog f) := by
  cases D with
  | status => exact valued_status
  | config => exact valued_config
  | scg => exact valued_scg
  | chemistry => exact valued_chemistry
  | pump i => exact valued_pump i
  | colorUpdate => exact valued_colorUpdate
  | version => exact valued_version f
  | dateTime now => exact valued_dateTime now
  | equipment => exact valued_equipment

end SL
