import Verif.Lemmas.Valued
import Verif.Spec.Sheets
/-! # Readings are stored with their documented attributes -/
set_option linter.unusedVariables false
namespace SL
open Prog (rd rdString rdArray rdTime rdMsgString offset store setdefault lookup throw loop forRange)

/-- A stored reading has a value and its documented attributes, or is (for a pump) still empty. -/
def Meets (s : Sheet) (v : Val) : Prop :=
  (s.blank = true ∧ v = .dict []) ∨
  ∃ kv, v = .dict kv ∧ (aget (.s "value") kv).isSome = true ∧ Carries s (fun a => .ok ((aget (.s a) kv).getD .null))

/-- No reading above the path. -/
def clear (p : Path) : Bool := (List.range p.length).all (fun k => (sheet (p.take k)).isNone)

/-- Readings are set as documented, and only as a whole. -/
def opM : Op → Prop
  | .set p x => clear p = true ∧ ∀ s, sheet p = some s → Meets s x
  | .setdef p x => clear p = true ∧ sheet p = none ∧ (x = .dict [] ∨ 3 ≤ p.length)
  | _ => True

/-- Every operation does so. -/
def Sheeted {α : Type} (p : Prog α) : Prop := AllOps opM p

/-- Every result of the program satisfies `Q`. -/
def AllRes {α : Type} (Q : α → Prop) : Prog α → Prop
  | .pure a => Q a
  | .raise _ => True
  | .num _ k => ∀ x, AllRes Q (k x)
  | .str k => ∀ x, AllRes Q (k x)
  | .arr k => ∀ x, AllRes Q (k x)
  | .time k => ∀ x, AllRes Q (k x)
  | .msgStr k => ∀ x, AllRes Q (k x)
  | .off k => ∀ x, AllRes Q (k x)
  | .set _ _ k => AllRes Q k
  | .setdef _ _ k => AllRes Q k
  | .get _ k => ∀ v, AllRes Q (k v)

theorem allOps_bindR {α β : Type} {P : Op → Prop} {Q : α → Prop} {p : Prog α} {k : α → Prog β} (hp : AllOps P p) (hr : AllRes Q p)
    (hk : ∀ a, Q a → AllOps P (k a)) : AllOps P (p.bind k) := by
  induction p with
  | pure a => exact hk a hr
  | raise e => trivial
  | num f k' ih => exact fun x => ih x (hp x) (hr x)
  | str k' ih => exact fun x => ih x (hp x) (hr x)
  | time k' ih => exact fun x => ih x (hp x) (hr x)
  | off k' ih => exact fun x => ih x (hp x) (hr x)
  | arr k' ih => exact ⟨hp.1, fun x => ih x (hp.2 x) (hr x)⟩
  | msgStr k' ih => exact ⟨hp.1, fun x => ih x (hp.2 x) (hr x)⟩
  | set q x k' ih => exact ⟨hp.1, ih hp.2 hr⟩
  | setdef q x k' ih => exact ⟨hp.1, ih hp.2 hr⟩
  | get q k' ih => exact ⟨hp.1, fun x => ih x (hp.2 x) (hr x)⟩

theorem allRes_bind {α β : Type} {Q : β → Prop} {R : α → Prop} {p : Prog α} {k : α → Prog β} (hp : AllRes R p)
    (hk : ∀ a, R a → AllRes Q (k a)) : AllRes Q (p.bind k) := by
  induction p with
  | pure a => exact hk a hp
  | raise e => trivial
  | set q x k' ih => exact ih hp
  | setdef q x k' ih => exact ih hp
  | num f k' ih => exact fun x => ih x (hp x)
  | str k' ih => exact fun x => ih x (hp x)
  | time k' ih => exact fun x => ih x (hp x)
  | off k' ih => exact fun x => ih x (hp x)
  | arr k' ih => exact fun x => ih x (hp x)
  | msgStr k' ih => exact fun x => ih x (hp x)
  | get q k' ih => exact fun x => ih x (hp x)

section
variable {α : Type}
theorem sh_rd {g : Fmt} {k : Int → Prog α} (h : ∀ x, Sheeted (k x)) : Sheeted (rd g >>= k) := h
theorem sh_rdString {k : String → Prog α} (h : ∀ x, Sheeted (k x)) : Sheeted (rdString >>= k) := h
theorem sh_rdArray {k : List Int → Prog α} (h : ∀ x, Sheeted (k x)) : Sheeted (rdArray >>= k) := ⟨trivial, h⟩
theorem sh_rdTime {k : DateTime → Prog α} (h : ∀ x, Sheeted (k x)) : Sheeted (rdTime >>= k) := h
theorem sh_rdMsgString {k : String → Prog α} (h : ∀ x, Sheeted (k x)) : Sheeted (rdMsgString >>= k) := ⟨trivial, h⟩
theorem sh_offset {k : Nat → Prog α} (h : ∀ x, Sheeted (k x)) : Sheeted (offset >>= k) := h
theorem sh_store {p : Path} {x : Val} {k : Unit → Prog α} (h : opM (.set p x)) (hk : Sheeted (k ())) :
    Sheeted (store p x >>= k) := ⟨h, hk⟩
theorem sh_store' {p : Path} {x : Val} (h : opM (.set p x)) : Sheeted (store p x) := ⟨h, trivial⟩
theorem sh_setdefault {p : Path} {x : Val} {k : Unit → Prog α} (h : opM (.setdef p x)) (hk : Sheeted (k ())) :
    Sheeted (setdefault p x >>= k) := ⟨h, hk⟩
theorem sh_lookup {p : Path} {k : Option Val → Prog α} (hk : ∀ v, Sheeted (k v)) :
    Sheeted (lookup p >>= k) := ⟨trivial, hk⟩
theorem sh_pure {a : α} : Sheeted (pure a : Prog α) := trivial
theorem sh_throw {e : PyErr} : Sheeted (throw (α := α) e) := trivial
theorem sh_bind {β : Type} {p : Prog β} {k : β → Prog α} (h : Sheeted p) (hk : ∀ a, Sheeted (k a)) : Sheeted (p >>= k) :=
  allOps_bind h hk
theorem sh_loop {σ : Type} {body : Nat → σ → Prog σ} (h : ∀ i s, Sheeted (body i s)) (n i : Nat) (s : σ) :
    Sheeted (loop body n i s) := allOps_loop h n i s
theorem sh_forRange {body : Nat → Prog Unit} (h : ∀ i, Sheeted (body i)) (n : Nat) : Sheeted (forRange n body) :=
  allOps_loop (fun i _ => h i) n 0 ()
end

/-- Where no reading is documented, anything may be stored. -/
theorem opM_plain {p : Path} {x : Val} (h1 : clear p = true) (h2 : sheet p = none) : opM (.set p x) :=
  ⟨h1, fun s h => by rw [h2] at h; cases h⟩
theorem opM_sheet {p : Path} {x : Val} (s : Sheet) (h1 : clear p = true) (h2 : sheet p = some s) (h : Meets s x) : opM (.set p x) :=
  ⟨h1, fun s' h' => by rw [h2] at h'; cases h'; exact h⟩
theorem meets_entry {s : Sheet} {kv : List (Key × Val)} (h1 : (aget (.s "value") kv).isSome = true)
    (h2 : Carries s (fun a => .ok ((aget (.s a) kv).getD .null))) : Meets s (.dict kv) := .inr ⟨kv, rfl, h1, h2⟩

theorem aget_unknown (o : Nat) (q : Path) (l : List (Path × Sheet))
    (hl : ∀ e ∈ l, (match e.1.getLast? with | some (.s s) => decide (s.toList.take 18 = "unknown_at_offset_".toList) | _ => false) = false) :
    aget (q ++ [.s (unknownAt o)]) l = none := by
  induction l with
  | nil => rfl
  | cons e l ih =>
    rw [aget, if_neg, ih (fun e' he' => hl e' (List.mem_cons_of_mem _ he'))]
    intro h
    have h2 := hl e List.mem_cons_self
    rw [h] at h2
    simp only [List.getLast?_append, List.getLast?_singleton, Option.some_or, decide_eq_false_iff_not] at h2
    exact unknownAt_ne o _ h2 rfl

theorem sheets_named : ∀ e ∈ ctlSheets ++ scgSheets ++ chemSheets,
    (match e.1.getLast? with | some (.s s) => decide (s.toList.take 18 = "unknown_at_offset_".toList) | _ => false) = false := by
  decide +kernel

theorem opM_unknown2 (a : String) (o : Nat) (x : Val) (h : clear [.s a, .s (unknownAt o)] = true) : opM (.set [.s a, .s (unknownAt o)] x) :=
  opM_plain h (by
    unfold sheet
    split
    · rename_i e; cases e
    · rename_i e; cases e
    · exact aget_unknown o [.s a] _ sheets_named)
theorem opM_unknown3 (a b : String) (o : Nat) (x : Val) (h : clear [.s a, .s b, .s (unknownAt o)] = true)
    (ha : a ≠ "body") (hb : a ≠ "pump") : opM (.set [.s a, .s b, .s (unknownAt o)] x) := by
  refine opM_plain h ?_
  unfold sheet
  split
  · rename_i e; cases e; exact absurd rfl ha
  · rename_i e; cases e; exact absurd rfl hb
  · exact aget_unknown o [.s a, .s b] _ sheets_named
theorem opM_unknownPump (i : Key) (o : Nat) (x : Val) : opM (.set [.s "pump", i, .s (unknownAt o)] x) := by
  refine opM_plain rfl ?_
  show aget (unknownAt o) pumpSheets = none
  have h : ∀ s : String, s.toList.take 18 ≠ "unknown_at_offset_".toList → ¬ s = unknownAt o :=
    fun s hs e => unknownAt_ne o s hs e.symm
  simp only [pumpSheets, aget]
  rw [if_neg (h _ (by decide)), if_neg (h _ (by decide)), if_neg (h _ (by decide))]
theorem opM_unknownCircuit (i : Key) (o : Nat) (x : Val) :
    opM (.set [.s "circuit", i, .s "configuration", .s (unknownAt o)] x) :=
  opM_plain rfl (aget_unknown o [.s "circuit", i, .s "configuration"] _ sheets_named)

macro "sh_field" : tactic => `(tactic| first
  | rfl
  | exact ⟨_, rfl, _, rfl⟩
  | (intro h; first | rfl | exact absurd rfl h | exact absurd h (List.cons_ne_nil _ _) | exact ⟨_, .head _, rfl⟩ | exact ⟨_, .tail _ (.head _), rfl⟩))
macro "sh_op" : tactic => `(tactic| first
  | exact opM_plain rfl rfl
  | exact opM_sheet _ rfl rfl (.inl ⟨rfl, rfl⟩)
  | (refine opM_sheet _ rfl rfl (meets_entry rfl ?_); constructor <;> sh_field)
  | exact opM_unknown2 _ _ _ rfl | exact opM_unknown3 _ _ _ _ rfl (by decide) (by decide)
  | exact opM_unknownPump _ _ _ | exact opM_unknownCircuit _ _ _)
macro "sh_step" : tactic =>
  `(tactic| first
    | (refine sh_rd (fun _ => ?_))
    | (refine sh_rdString (fun _ => ?_))
    | (refine sh_rdArray (fun _ => ?_))
    | (refine sh_rdTime (fun _ => ?_))
    | (refine sh_rdMsgString (fun _ => ?_))
    | (refine sh_offset (fun _ => ?_))
    | (refine sh_store (by sh_op) ?_)
    | (refine sh_store' (by sh_op))
    | (refine sh_setdefault ⟨rfl, rfl, .inl rfl⟩ ?_)
    | (refine sh_setdefault ⟨rfl, rfl, .inr (Nat.le_refl 3)⟩ ?_)
    | exact sh_throw
    | exact sh_pure)

/-- A temperature unit. -/
def IsUnit (u : String) : Prop := u = "°F" ∨ u = "°C"

theorem sheeted_unit : Sheeted getTemperatureUnit := by
  unfold getTemperatureUnit
  refine sh_lookup (fun v => ?_)
  cases v <;> exact sh_pure
theorem unit_res : AllRes IsUnit getTemperatureUnit := by
  unfold getTemperatureUnit
  intro v
  cases v with
  | none => exact .inl rfl
  | some v =>
    show IsUnit (if v.truthy then "°C" else "°F")
    split
    · exact .inr rfl
    · exact .inl rfl

theorem sheeted_subscript (v : Val) (k : Key) : Sheeted (subscript v k) := by
  unfold subscript
  split
  · split <;> trivial
  · trivial

theorem sheeted_scg : Sheeted decodeScg := by unfold decodeScg; repeat sh_step

theorem sheeted_chemistryA : Sheeted decodeChemistryA := by unfold decodeChemistryA; repeat sh_step
theorem sheeted_chemistryB : Sheeted decodeChemistryB := by
  unfold decodeChemistryB
  repeat sh_step
  refine allOps_bindR sheeted_unit unit_res (fun u hu => ?_)
  rcases hu with rfl | rfl
  · repeat sh_step
  · repeat sh_step
theorem sheeted_chemistryC : Sheeted decodeChemistryC := by unfold decodeChemistryC; repeat sh_step
theorem sheeted_chemistryD : Sheeted decodeChemistryD := by unfold decodeChemistryD; repeat sh_step
theorem sheeted_chemistry : Sheeted decodeChemistry :=
  sh_bind sheeted_chemistryA fun _ => sh_bind sheeted_chemistryB fun _ => sh_bind sheeted_chemistryC fun _ => sheeted_chemistryD

theorem sheeted_copySetpoints (i : Int) (o : Option Val) (t : Int) : Sheeted (copySetpoints i o t) := by
  unfold copySetpoints
  split
  · split
    · split
      · refine sh_bind (sheeted_subscript _ _) (fun _ => ?_)
        sh_step
        refine sh_bind (sheeted_subscript _ _) (fun _ => ?_)
        repeat sh_step
      · exact sh_pure
    · exact sh_pure
  · split
    · exact sh_throw
    · exact sh_pure
  · exact sh_pure

theorem sheeted_statusHead : Sheeted decodeStatusHead := by
  unfold decodeStatusHead
  repeat sh_step
  refine allOps_bindR sheeted_unit unit_res (fun u hu => ?_)
  rcases hu with rfl | rfl
  · repeat sh_step
  · repeat sh_step

theorem statusHead_res : AllRes IsUnit decodeStatusHead := by
  unfold decodeStatusHead
  show ∀ _ _ _ _ _ _ _ _ _ _ _ _, AllRes IsUnit (Prog.bind getTemperatureUnit _)
  intro _ _ _ _ _ _ _ _ _ _ _ _
  exact allRes_bind unit_res (fun u hu _ => hu)

theorem bodyTitle (t : Int) : enBodyType.title ((enBodyType.nameOf ((enBodyType.parseInt t).getD 0)).getD "") = "Pool" ∨
    enBodyType.title ((enBodyType.nameOf ((enBodyType.parseInt t).getD 0)).getD "") = "Spa" := by
  have h : (enBodyType.parseInt t).getD 0 = 0 ∨ (enBodyType.parseInt t).getD 0 = 1 := by
    unfold EnumDef.parseInt
    split
    · rename_i h
      simp only [EnumDef.nameOf, enBodyType, List.find?] at h
      split at h
      · rename_i e; left; simpa using (beq_iff_eq.1 e).symm
      · split at h
        · rename_i e; right; simpa using (beq_iff_eq.1 e).symm
        · simp at h
    · exact .inl rfl
  rcases h with h | h
  · rw [h]; exact .inl (by decide)
  · rw [h]; exact .inr (by decide)

theorem sheeted_body (u : String) (hu : IsUnit u) (o : Option Val) (i : Nat) : Sheeted (decodeBody u o i) := by
  unfold decodeBody
  sh_step
  refine sh_rd (fun t => ?_)
  sh_step
  refine sh_bind (sheeted_copySetpoints _ _ _) (fun _ => ?_)
  have hb := bodyTitle t
  revert hb
  generalize enBodyType.title ((enBodyType.nameOf ((enBodyType.parseInt t).getD 0)).getD "") = n
  intro hb
  rcases hu with rfl | rfl
  · rcases hb with rfl | rfl
    · repeat sh_step
    · repeat sh_step
  · rcases hb with rfl | rfl
    · repeat sh_step
    · repeat sh_step

theorem sheeted_status : Sheeted decodeStatus := by
  unfold decodeStatus
  refine allOps_bindR sheeted_statusHead statusHead_res (fun u hu => ?_)
  refine sh_rd (fun _ => ?_)
  refine sh_lookup (fun _ => ?_)
  sh_step
  refine sh_bind (sh_forRange (fun i => sheeted_body _ hu _ _) _) (fun _ => ?_)
  sh_step; sh_step
  refine sh_bind (sh_forRange (fun i => ?_) _) (fun _ => ?_)
  · unfold decodeStatusCircuit
    repeat sh_step
  unfold decodeStatusTail
  repeat sh_step

theorem sheeted_config : Sheeted decodeConfig := by
  unfold decodeConfig
  refine sh_bind ?_ (fun _ => ?_)
  · unfold decodeConfigHead
    sh_step; sh_step; sh_step; sh_step; sh_step
    refine sh_bind (sh_forRange (fun i => by unfold decodeSetpoints; repeat sh_step) _) (fun _ => ?_)
    repeat sh_step
    refine sh_lookup (fun _ => ?_)
    refine sh_bind (by unfold maskFlags; split <;> first | exact sh_pure | exact sh_throw) (fun _ => ?_)
    repeat sh_step
  sh_step; sh_step; sh_step
  refine sh_bind (sh_forRange (fun i => by unfold decodeConfigCircuit; repeat sh_step) _) (fun _ => ?_)
  sh_step; sh_step
  refine sh_bind (sh_loop (fun i s => by unfold decodeColor; repeat sh_step) _ _ _) (fun _ => ?_)
  sh_step; sh_step
  refine sh_bind (sh_forRange (fun i => by unfold decodePumpData; repeat sh_step) _) (fun _ => ?_)
  repeat sh_step

theorem sheeted_nameFromCircuits (dev : Int) (kv : List (Key × Val)) (n : String) : Sheeted (nameFromCircuits dev kv n) := by
  induction kv with
  | nil => exact sh_pure
  | cons a rest ih =>
    unfold nameFromCircuits
    refine sh_bind (sheeted_subscript _ _) (fun d => ?_)
    split
    · refine sh_bind (sheeted_subscript _ _) (fun x => ?_)
      cases x <;> first | exact sh_pure | exact sh_throw
    · exact ih

theorem sheeted_pump (pump : Int) : Sheeted (decodePump pump) := by
  unfold decodePump
  sh_step; sh_step; sh_step; sh_step; sh_step; sh_step
  refine sh_bind (by unfold setPumpState; split <;> repeat sh_step) (fun _ => ?_)
  repeat sh_step
  refine sh_bind (sh_loop (fun i s => ?_) _ _ _) (fun _ => ?_)
  · unfold decodePreset
    sh_step; sh_step; sh_step
    refine sh_lookup (fun v => ?_)
    refine sh_bind ?_ (fun _ => ?_)
    · unfold pumpName
      split
      · exact sh_pure
      · exact sheeted_nameFromCircuits _ _ _
      · exact sh_throw
    repeat sh_step
  · unfold decodePumpTail
    repeat sh_step

theorem sheeted_colorUpdate : Sheeted decodeColorUpdate := by unfold decodeColorUpdate; repeat sh_step
theorem sheeted_dateTime (now : Rat) : Sheeted (decodeDateTime now) := by unfold decodeDateTime; repeat sh_step

theorem sheeted_floatPart (g : String → Except PyErr Rat) (parts : List String) (i : Nat) : Sheeted (floatPart g parts i) := by
  unfold floatPart
  split
  · trivial
  · split <;> trivial
theorem sheeted_version (g : String → Except PyErr Rat) : Sheeted (decodeVersion g) := by
  unfold decodeVersion
  sh_step; sh_step
  refine sh_bind (sheeted_floatPart _ _ _) (fun _ => ?_)
  refine sh_bind (sheeted_floatPart _ _ _) (fun _ => ?_)
  repeat sh_step

theorem sheeted_equipArray (k : String) (h : sheet [.s "equipment", .s k] = none) : Sheeted (decodeEquipArray k) := by
  unfold decodeEquipArray
  sh_step
  exact sh_store' (opM_plain rfl h)
theorem sheeted_equipment : Sheeted decodeEquipment := by
  unfold decodeEquipment
  sh_step; sh_step; sh_step; sh_step; sh_step; sh_step; sh_step; sh_step; sh_step; sh_step
  sh_step; sh_step; sh_step
  iterate 11 (refine sh_bind (sheeted_equipArray _ rfl) (fun _ => ?_))
  exact sheeted_equipArray _ rfl

theorem Decoder.sheeted (f : String → Except PyErr Rat) (D : Decoder) : Sheeted (D.prog f) := by
  cases D with
  | status => exact sheeted_status
  | config => exact sheeted_config
  | scg => exact sheeted_scg
  | chemistry => exact sheeted_chemistry
  | pump i => exact sheeted_pump i
  | colorUpdate => exact sheeted_colorUpdate
  | version => exact sheeted_version f
  | dateTime now => exact sheeted_dateTime now
  | equipment => exact sheeted_equipment

end SL
