import Verif.Lemmas.Discipline
/-! What each decoder can do to the data: one check per operation. -/
namespace SL
open Prog (rd rdString rdArray rdTime rdMsgString offset store setdefault lookup throw loop forRange)

/-- What a decoder may do. -/
structure Profile where
  /-- paths it asks for -/
  gets : List Path
  /-- top-level keys it stores under -/
  top : List String
  /-- whether `circuit/<id>/circuit_id` is only defaulted, never set -/
  cid : Bool := false
  arrays : Bool := false
  msgs : Bool := false

/-- The path starts with one of these keys. -/
def topIn (S : List String) : Path → Bool
  | .s k :: _ => S.contains k
  | _ => false

/-- Paths that are defaulted. -/
def defaulted (c : Bool) (p : Path) : Bool :=
  isNode p || (c && pathMatches [.k "circuit", .any, .k "circuit_id"] p)

/-- The operation is within the profile. -/
def opOK (f : Profile) : Op → Bool
  | .set p _ => f.gets.all (fun g => !p.isPrefixOf g && !g.isPrefixOf p) && (topIn f.top p && !defaulted f.cid p)
  | .setdef p x =>
    f.gets.all (fun g => !g.isPrefixOf p && (x.isEmptyDict || !p.isPrefixOf g)) && (topIn f.top p && defaulted f.cid p)
  | .get p => f.gets.contains p
  | .arr => f.arrays
  | .msgStr => f.msgs

/-- Every operation of the program is within the profile. -/
def Conforms {α : Type} (f : Profile) (p : Prog α) : Prop := AllOps (fun op => opOK f op = true) p

section
variable {α : Type} {f : Profile}
theorem ft_rd {g : Fmt} {k : Int → Prog α} (h : ∀ x, Conforms f (k x)) : Conforms f (rd g >>= k) := h
theorem ft_rdString {k : String → Prog α} (h : ∀ x, Conforms f (k x)) : Conforms f (rdString >>= k) := h
theorem ft_rdArray {k : List Int → Prog α} (h0 : f.arrays = true) (h : ∀ x, Conforms f (k x)) : Conforms f (rdArray >>= k) := ⟨h0, h⟩
theorem ft_rdTime {k : DateTime → Prog α} (h : ∀ x, Conforms f (k x)) : Conforms f (rdTime >>= k) := h
theorem ft_rdMsgString {k : String → Prog α} (h0 : f.msgs = true) (h : ∀ x, Conforms f (k x)) : Conforms f (rdMsgString >>= k) := ⟨h0, h⟩
theorem ft_offset {k : Nat → Prog α} (h : ∀ x, Conforms f (k x)) : Conforms f (offset >>= k) := h
theorem ft_store {p : Path} {x : Val} {k : Unit → Prog α} (h : opOK f (.set p x) = true) (hk : Conforms f (k ())) :
    Conforms f (store p x >>= k) := ⟨h, hk⟩
theorem ft_store' {p : Path} {x : Val} (h : opOK f (.set p x) = true) : Conforms f (store p x) := ⟨h, trivial⟩
theorem ft_setdefault {p : Path} {x : Val} {k : Unit → Prog α} (h : opOK f (.setdef p x) = true) (hk : Conforms f (k ())) :
    Conforms f (setdefault p x >>= k) := ⟨h, hk⟩
theorem ft_lookup {p : Path} {k : Option Val → Prog α} (h : opOK f (.get p) = true) (hk : ∀ v, Conforms f (k v)) :
    Conforms f (lookup p >>= k) := ⟨h, hk⟩
theorem ft_pure {a : α} : Conforms f (pure a) := trivial
theorem ft_throw {e : PyErr} : Conforms f (throw (α := α) e) := trivial
theorem ft_bind {β : Type} {p : Prog β} {k : β → Prog α} (h : Conforms f p) (hk : ∀ a, Conforms f (k a)) : Conforms f (p >>= k) :=
  allOps_bind h hk
theorem ft_loop {σ : Type} {body : Nat → σ → Prog σ} (h : ∀ i s, Conforms f (body i s)) (n i : Nat) (s : σ) :
    Conforms f (loop body n i s) := allOps_loop h n i s
theorem ft_forRange {body : Nat → Prog Unit} (h : ∀ i, Conforms f (body i)) (n : Nat) : Conforms f (forRange n body) :=
  allOps_loop (fun i _ => h i) n 0 ()
end

theorem ne_unknown {o : Nat} {s : String} (h : s.toList.take 18 ≠ "unknown_at_offset_".toList) :
    (Key.s (unknownAt o) == Key.s s) = false := by
  rw [beq_eq_false_iff_ne]; intro h'; injection h' with h'; exact unknownAt_ne o s h h'
theorem ne_unknown' {o : Nat} {s : String} (h : s.toList.take 18 ≠ "unknown_at_offset_".toList) :
    (Key.s s == Key.s (unknownAt o)) = false := by
  rw [beq_eq_false_iff_ne]; intro h'; injection h' with h'; exact unknownAt_ne o s h h'.symm

/-- Check one operation. -/
macro "op_tac" : tactic =>
  `(tactic| first
    | rfl
    | (simp only [opOK, defaulted, isNode, nodePats, List.any_cons, List.any_nil, pathMatches, ctlConfig, ctlSensor,
        List.all_cons, List.all_nil, List.isPrefixOf];
       (repeat rw [ne_unknown (by decide)]); (repeat rw [ne_unknown' (by decide)]);
       (repeat rw [beq_unknownAt _ _ (by decide)]); rfl))

/-- One step of a profile proof. -/
macro "fit_step" : tactic =>
  `(tactic| first
    | (refine ft_rd (fun _ => ?_))
    | (refine ft_rdString (fun _ => ?_))
    | (refine ft_rdArray rfl (fun _ => ?_))
    | (refine ft_rdTime (fun _ => ?_))
    | (refine ft_rdMsgString rfl (fun _ => ?_))
    | (refine ft_offset (fun _ => ?_))
    | (refine ft_store (by op_tac) ?_)
    | (refine ft_store' (by op_tac))
    | (refine ft_setdefault (by op_tac) ?_)
    | exact ft_throw
    | exact ft_pure)

/-- Path of the temperature unit flag. -/
abbrev unitPath : Path := [.s "controller", .s "configuration", .s "is_celsius", .s "value"]

theorem fits_unit {f : Profile} (h : opOK f (.get unitPath) = true) : Conforms f getTemperatureUnit := by
  unfold getTemperatureUnit
  refine ft_lookup h (fun v => ?_)
  cases v <;> exact ft_pure

theorem fits_subscript {f : Profile} (v : Val) (k : Key) : Conforms f (subscript v k) := by
  unfold subscript
  split
  · split <;> trivial
  · trivial

/-- Chlorinator. -/
abbrev pfScg : Profile := { gets := [], top := ["scg"] }
theorem fits_scg : Conforms pfScg decodeScg := by unfold decodeScg; repeat fit_step

/-- Chemistry. -/
abbrev pfChem : Profile := { gets := [unitPath], top := ["intellichem"] }
theorem fits_chemistry : Conforms pfChem decodeChemistry := by
  unfold decodeChemistry
  refine ft_bind (by unfold decodeChemistryA; repeat fit_step) (fun _ => ?_)
  refine ft_bind ?_ (fun _ => ?_)
  · unfold decodeChemistryB
    repeat fit_step
    refine ft_bind (fits_unit rfl) (fun _ => ?_)
    repeat fit_step
  refine ft_bind (by unfold decodeChemistryC; repeat fit_step) (fun _ => ?_)
  unfold decodeChemistryD
  repeat fit_step

/-- Status. -/
abbrev pfStatus : Profile :=
  { gets := [unitPath, [.s "controller", .s "configuration", .s "body_type"], [.s "controller", .s "equipment", .s "flags"]], top := ["controller", "body", "circuit"],
    cid := true }
theorem fits_copySetpoints (i : Int) (o : Option Val) (t : Int) : Conforms pfStatus (copySetpoints i o t) := by
  unfold copySetpoints
  split
  · split
    · split
      · refine ft_bind (fits_subscript _ _) (fun _ => ?_)
        fit_step
        refine ft_bind (fits_subscript _ _) (fun _ => ?_)
        repeat fit_step
      · exact ft_pure
    · exact ft_pure
  · split
    · exact ft_throw
    · exact ft_pure
  · exact ft_pure

theorem fits_status : Conforms pfStatus decodeStatus := by
  unfold decodeStatus
  refine ft_bind ?_ (fun _ => ?_)
  · unfold decodeStatusHead
    repeat fit_step
    refine ft_bind (fits_unit rfl) (fun _ => ?_)
    repeat fit_step
  fit_step
  refine ft_lookup rfl (fun _ => ?_)
  fit_step
  refine ft_bind (ft_forRange (fun i => ?_) _) (fun _ => ?_)
  · unfold decodeBody
    fit_step; fit_step; fit_step
    refine ft_bind (fits_copySetpoints _ _ _) (fun _ => ?_)
    repeat fit_step
  fit_step; fit_step
  refine ft_bind (ft_forRange (fun i => ?_) _) (fun _ => ?_)
  · unfold decodeStatusCircuit
    repeat fit_step
  unfold decodeStatusTail
  repeat fit_step

/-- Configuration. -/
abbrev pfConfig : Profile :=
  { gets := [[.s "adapter", .s "firmware", .s "minor"]], top := ["controller", "circuit", "pump"] }
theorem fits_config : Conforms pfConfig decodeConfig := by
  unfold decodeConfig
  refine ft_bind ?_ (fun _ => ?_)
  · unfold decodeConfigHead
    fit_step; fit_step; fit_step; fit_step; fit_step
    refine ft_bind (ft_forRange (fun i => by unfold decodeSetpoints; repeat fit_step) _) (fun _ => ?_)
    repeat fit_step
    refine ft_lookup rfl (fun _ => ?_)
    refine ft_bind (by unfold maskFlags; split <;> first | exact ft_pure | exact ft_throw) (fun _ => ?_)
    repeat fit_step
  fit_step; fit_step; fit_step
  refine ft_bind (ft_forRange (fun i => by unfold decodeConfigCircuit; repeat fit_step) _) (fun _ => ?_)
  fit_step; fit_step
  refine ft_bind (ft_loop (fun i s => by unfold decodeColor; repeat fit_step) _ _ _) (fun _ => ?_)
  fit_step; fit_step
  refine ft_bind (ft_forRange (fun i => by unfold decodePumpData; repeat fit_step) _) (fun _ => ?_)
  repeat fit_step

/-- Pump. -/
abbrev pfPump : Profile := { gets := [[.s "circuit"]], top := ["pump"] }
theorem fits_nameFromCircuits (dev : Int) (kv : List (Key × Val)) (n : String) :
    Conforms pfPump (nameFromCircuits dev kv n) := by
  induction kv with
  | nil => exact ft_pure
  | cons a rest ih =>
    unfold nameFromCircuits
    refine ft_bind (fits_subscript _ _) (fun d => ?_)
    split
    · refine ft_bind (fits_subscript _ _) (fun x => ?_)
      cases x <;> first | exact ft_pure | exact ft_throw
    · exact ih

theorem fits_pump (pump : Int) : Conforms pfPump (decodePump pump) := by
  unfold decodePump
  fit_step; fit_step; fit_step; fit_step; fit_step; fit_step
  refine ft_bind (by unfold setPumpState; split <;> repeat fit_step) (fun _ => ?_)
  repeat fit_step
  refine ft_bind (ft_loop (fun i s => ?_) _ _ _) (fun _ => ?_)
  · unfold decodePreset
    fit_step; fit_step; fit_step
    refine ft_lookup rfl (fun v => ?_)
    refine ft_bind ?_ (fun _ => ?_)
    · unfold pumpName
      split
      · exact ft_pure
      · exact fits_nameFromCircuits _ _ _
      · exact ft_throw
    repeat fit_step
  · unfold decodePumpTail
    repeat fit_step

/-- Colour update and date/time. -/
abbrev pfController : Profile :=
  { gets := [[.s "controller", .s "configuration", .s "body_type"], [.s "controller", .s "equipment", .s "flags"]], top := ["controller"] }
theorem fits_colorUpdate : Conforms pfController decodeColorUpdate := by unfold decodeColorUpdate; repeat fit_step
theorem fits_dateTime (now : Rat) : Conforms pfController (decodeDateTime now) := by unfold decodeDateTime; repeat fit_step

/-- Version. -/
abbrev pfVersion : Profile := { gets := [], top := ["adapter"], msgs := true }
theorem fits_floatPart {f : Profile} (g : String → Except PyErr Rat) (parts : List String) (i : Nat) :
    Conforms f (floatPart g parts i) := by
  unfold floatPart
  split
  · trivial
  · split <;> trivial
theorem fits_version (g : String → Except PyErr Rat) : Conforms pfVersion (decodeVersion g) := by
  unfold decodeVersion
  fit_step; fit_step
  refine ft_bind (fits_floatPart _ _ _) (fun _ => ?_)
  refine ft_bind (fits_floatPart _ _ _) (fun _ => ?_)
  repeat fit_step

/-- Equipment configuration. -/
abbrev pfEquipment : Profile := { gets := [], top := ["equipment"], arrays := true }
theorem fits_equipArray (k : String) : Conforms pfEquipment (decodeEquipArray k) := by
  unfold decodeEquipArray; repeat fit_step
theorem fits_equipment : Conforms pfEquipment decodeEquipment := by
  unfold decodeEquipment
  fit_step; fit_step; fit_step; fit_step; fit_step; fit_step; fit_step; fit_step; fit_step; fit_step
  fit_step; fit_step; fit_step
  iterate 11 (refine ft_bind (fits_equipArray _) (fun _ => ?_))
  exact fits_equipArray _

/-! ## Consequences -/

theorem fits_within {α : Type} {f : Profile} {p : Prog α} (h : Conforms f p) : AllOps (Within f.top) p := by
  have top : ∀ q, topIn f.top q = true → ∃ k ∈ f.top, ∃ r, q = Key.s k :: r := by
    intro q hq
    match q, hq with
    | .s k :: r, hq => exact ⟨k, by simpa [topIn] using hq, r, rfl⟩
  refine allOps_mono (fun op hop => ?_) h
  cases op with
  | set q x => simp only [opOK, Bool.and_eq_true] at hop; exact top q hop.2.1
  | setdef q x => simp only [opOK, Bool.and_eq_true] at hop; exact top q hop.2.1
  | _ => trivial

theorem isEmptyDict_eq {x : Val} (h : x.isEmptyDict = true) : x = .dict [] := by
  cases x with
  | dict kv => cases kv with
    | nil => rfl
    | cons a b => simp [Val.isEmptyDict] at h
  | _ => simp [Val.isEmptyDict] at h

theorem fits_tame {α : Type} {f : Profile} (hm : f.msgs = false) {p : Prog α} (h : Conforms f p) :
    AllOps (Tame f.gets) p := by
  refine allOps_mono (fun op hop => ?_) h
  cases op with
  | set q x =>
    simp only [opOK, Bool.and_eq_true, List.all_eq_true] at hop
    intro g hg
    have := hop.1 g hg
    simp only [Bool.not_eq_true', ← Bool.not_eq_true, List.isPrefixOf_iff_prefix] at this
    exact this
  | setdef q x =>
    simp only [opOK, Bool.and_eq_true, List.all_eq_true] at hop
    intro g hg
    have := hop.1 g hg
    simp only [Bool.not_eq_true', ← Bool.not_eq_true, List.isPrefixOf_iff_prefix, Bool.or_eq_true] at this
    exact ⟨this.1, this.2.imp isEmptyDict_eq id⟩
  | get q => simpa [opOK, Tame] using hop
  | arr => trivial
  | msgStr => simp [opOK, hm] at hop

theorem fits_noArr {α : Type} {f : Profile} (ha : f.arrays = false) {p : Prog α} (h : Conforms f p) :
    AllOps NoArr p := by
  refine allOps_mono (fun op hop => ?_) h
  cases op with
  | arr => simp [opOK, ha] at hop
  | _ => trivial

end SL
