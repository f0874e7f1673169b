import Verif.Lemmas.Frail
import Verif.Lemmas.Deeds
/-!
# Decoders raise no communication errors
-/
set_option linter.unusedVariables false

namespace SL

/-- No communication error. -/
def PyErr.raw (e : PyErr) : Bool := !e.isComm

/-- If it raises, then such an exception. -/
def RawE {α : Type} (x : Except PyErr α) : Prop := ∀ e, x = .error e → e.raw = true

section
variable {α β : Type}

theorem rawE_ok (a : α) : RawE (.ok a : Except PyErr α) := fun e h => by cases h
theorem rawE_pure (a : α) : RawE (pure a : Except PyErr α) := fun e h => by cases h
theorem rawE_error {e : PyErr} (h : e.raw = true) : RawE (.error e : Except PyErr α) := fun e' h' => by cases h'; exact h
theorem rawE_bind {x : Except PyErr α} {f : α → Except PyErr β} (hx : RawE x) (hf : ∀ a, RawE (f a)) : RawE (x >>= f) := by
  cases x with
  | ok a => exact hf a
  | error e => exact fun e' h' => by cases h'; exact hx e rfl
theorem rawE_map {x : Except PyErr α} {f : α → β} (hx : RawE x) : RawE (x.map f) := by
  cases x with
  | ok a => exact rawE_ok _
  | error e => exact fun e' h' => by cases h'; exact hx e rfl
theorem rawE_ite {c : Prop} [Decidable c] {x y : Except PyErr α} (hx : RawE x) (hy : RawE y) : RawE (if c then x else y) := by
  split
  · exact hx
  · exact hy

end

theorem rawE_unpackRaw (n : Nat) (b : Bytes) (o : Nat) : RawE (unpackRaw n b o) := rawE_ite (rawE_ok _) (rawE_error rfl)
theorem rawE_unpackFrom (f : Fmt) (b : Bytes) (o : Nat) : RawE (unpackFrom f b o) := rawE_bind (rawE_unpackRaw _ _ _) (fun _ => rawE_pure _)
theorem rawE_packU (n : Nat) (v : Int) : RawE (packU n v) := rawE_ite (rawE_ok _) (rawE_error rfl)
theorem rawE_getSome (f : Fmt) (b : Bytes) (o : Nat) : RawE (getSome f b o) := rawE_bind (rawE_unpackFrom _ _ _) (fun _ => rawE_pure _)
theorem rawE_decodeText (u : Bool) (b : Bytes) : RawE (decodeText u b) := by
  unfold decodeText
  split
  · exact rawE_ok _
  · exact rawE_error rfl
theorem rawE_decodeMessageString (b : Bytes) : RawE (decodeMessageString b) :=
  rawE_bind (rawE_unpackFrom _ _ _) (fun _ => rawE_bind (rawE_unpackRaw _ _ _) (fun _ => rawE_bind (rawE_decodeText _ _) (fun _ => rawE_pure _)))
theorem rawE_getString (b : Bytes) (o : Nat) : RawE (getString b o) :=
  rawE_bind (rawE_unpackFrom _ _ _) (fun _ => rawE_bind (rawE_unpackRaw _ _ _) (fun _ => rawE_bind (rawE_decodeText _ _) (fun _ => rawE_pure _)))
theorem rawE_getArrayItems (b : Bytes) (a : Nat) : ∀ n, RawE (getArrayItems b a n)
  | 0 => rawE_ok _
  | n + 1 => rawE_bind (rawE_getArrayItems b a n) (fun _ => rawE_bind (rawE_getSome _ _ _) (fun _ => rawE_pure _))
theorem rawE_getArray (b : Bytes) (o : Nat) : RawE (getArray b o) :=
  rawE_bind (rawE_getSome _ _ _) (fun _ => rawE_bind (rawE_getArrayItems _ _ _) (fun _ => rawE_pure _))
theorem rawE_timeOfBlock (b : Bytes) : RawE (timeOfBlock b) := by
  unfold timeOfBlock mkDateTime
  repeat' (first | exact rawE_ok _ | exact rawE_pure _ | exact rawE_error rfl | refine rawE_bind ?_ (fun _ => ?_) | split | exact rawE_unpackFrom _ _ _)
theorem rawE_getTime (b : Bytes) (o : Nat) : RawE (getTime b o) :=
  rawE_bind (rawE_unpackRaw _ _ _) (fun _ => rawE_bind (rawE_timeOfBlock _) (fun _ => rawE_pure _))
theorem rawE_chain : ∀ (p : Path) (d : Val), RawE (d.chain p) := by
  intro p
  induction p with
  | nil => intro d; unfold Val.chain; exact rawE_ok _
  | cons k ks ih =>
    intro d
    cases d with
    | dict kv =>
      simp only [Val.chain]
      split
      · exact ih _
      · exact rawE_ok _
    | _ => exact rawE_error rfl

/-- If the decoder raises, then such an exception. -/
def Prog.Raw {α : Type} : Prog α → Prop
  | .pure _ => True
  | .raise e => e.raw = true
  | .num _ k => ∀ x, (k x).Raw
  | .str k => ∀ x, (k x).Raw
  | .arr k => ∀ x, (k x).Raw
  | .time k => ∀ x, (k x).Raw
  | .msgStr k => ∀ x, (k x).Raw
  | .off k => ∀ x, (k x).Raw
  | .set _ _ k => k.Raw
  | .setdef _ _ k => k.Raw
  | .get _ k => ∀ x, (k x).Raw

namespace Prog

theorem raw_andThen {α γ : Type} {r : Except PyErr (γ × Nat)} {d : Val} {k : γ → Nat → Res α} (hr : RawE r) (hk : ∀ x o, RawE (k x o).1) :
    RawE (andThen r d k).1 := by
  unfold andThen
  split
  · exact hk _ _
  · exact rawE_error (hr _ rfl)

theorem raw_run {α : Type} (b : Bytes) {p : Prog α} (h : p.Raw) (o : Nat) (d : Val) : RawE (p.run b o d).1 := by
  induction p generalizing o d with
  | pure a => exact rawE_ok _
  | raise e => exact rawE_error h
  | num f k ih => exact raw_andThen (rawE_getSome _ _ _) (fun x o => ih x (h x) o d)
  | str k ih => exact raw_andThen (rawE_getString _ _) (fun x o => ih x (h x) o d)
  | arr k ih => exact raw_andThen (rawE_getArray _ _) (fun x o => ih x (h x) o d)
  | time k ih => exact raw_andThen (rawE_getTime _ _) (fun x o => ih x (h x) o d)
  | msgStr k ih =>
    simp only [run]
    split
    · exact ih _ (h _) o d
    · rename_i e he
      exact rawE_error (rawE_decodeMessageString b e he)
  | off k ih => exact ih o (h o) o d
  | set p x k ih =>
    simp only [run]
    split
    · exact ih h o _
    · exact rawE_error rfl
  | setdef p x k ih =>
    simp only [run]
    split
    · exact ih h o _
    · exact rawE_error rfl
  | get p k ih =>
    simp only [run]
    split
    · exact ih _ (h _) o d
    · rename_i e he
      exact rawE_error (rawE_chain _ _ e he)

theorem raw_bind {α β : Type} {p : Prog α} {k : α → Prog β} (hp : p.Raw) (hk : ∀ a, (k a).Raw) : (p >>= k).Raw := by
  show (p.bind k).Raw
  induction p with
  | pure a => exact hk a
  | raise e => exact hp
  | num f k' ih => exact fun x => ih x (hp x)
  | str k' ih => exact fun x => ih x (hp x)
  | arr k' ih => exact fun x => ih x (hp x)
  | time k' ih => exact fun x => ih x (hp x)
  | msgStr k' ih => exact fun x => ih x (hp x)
  | off k' ih => exact fun x => ih x (hp x)
  | set p x k' ih => exact ih hp
  | setdef p x k' ih => exact ih hp
  | get p k' ih => exact fun x => ih x (hp x)

theorem raw_rd (f : Fmt) : (rd f).Raw := fun _ => trivial
theorem raw_rdString : rdString.Raw := fun _ => trivial
theorem raw_rdArray : rdArray.Raw := fun _ => trivial
theorem raw_rdTime : rdTime.Raw := fun _ => trivial
theorem raw_rdMsgString : rdMsgString.Raw := fun _ => trivial
theorem raw_offset : offset.Raw := fun _ => trivial
theorem raw_store (p : Path) (x : Val) : (store p x).Raw := trivial
theorem raw_setdefault (p : Path) (x : Val) : (setdefault p x).Raw := trivial
theorem raw_lookup (p : Path) : (lookup p).Raw := fun _ => trivial
theorem raw_pure {α : Type} (a : α) : (pure a : Prog α).Raw := trivial
theorem raw_throw {α : Type} {e : PyErr} (h : e.raw = true) : (throw e : Prog α).Raw := h
theorem raw_ite {α : Type} {c : Prop} [Decidable c] {x y : Prog α} (hx : x.Raw) (hy : y.Raw) : (if c then x else y).Raw := by
  split
  · exact hx
  · exact hy
theorem raw_loop {σ : Type} {body : Nat → σ → Prog σ} (h : ∀ i s, (body i s).Raw) : ∀ n i s, (loop body n i s).Raw
  | 0, _, _ => trivial
  | n + 1, i, s => raw_bind (h i s) (fun s => raw_loop h n (i + 1) s)
theorem raw_forRange {n : Nat} {body : Nat → Prog Unit} (h : ∀ i, (body i).Raw) : (forRange n body).Raw := raw_loop (fun i _ => h i) _ _ _

end Prog

open Prog

macro "raw_tac" : tactic =>
  `(tactic| repeat' (first
    | exact raw_rd _ | exact raw_rdString | exact raw_rdArray | exact raw_rdTime | exact raw_rdMsgString | exact raw_offset
    | exact raw_store _ _ | exact raw_setdefault _ _ | exact raw_lookup _ | exact raw_pure _ | exact raw_throw rfl
    | (refine raw_bind ?_ (fun _ => ?_))
    | split))

theorem raw_subscript (v : Val) (k : Key) : (subscript v k).Raw := by unfold subscript; raw_tac
theorem raw_unit : getTemperatureUnit.Raw := by unfold getTemperatureUnit; raw_tac
theorem raw_copySetpoints (i : Int) (v : Option Val) (t : Int) : (copySetpoints i v t).Raw := by
  unfold copySetpoints
  repeat' (first | exact raw_subscript _ _ | exact raw_store _ _ | exact raw_pure _ | exact raw_throw rfl | (refine raw_bind ?_ (fun _ => ?_)) | split)
theorem raw_body (u : String) (v : Option Val) (i : Nat) : (decodeBody u v i).Raw := by
  unfold decodeBody
  repeat' (first | exact raw_rd _ | exact raw_copySetpoints _ _ _ | exact raw_store _ _ | exact raw_setdefault _ _ | exact raw_pure _ | (refine raw_bind ?_ (fun _ => ?_)) | split)
theorem raw_statusCircuit (i : Nat) : (decodeStatusCircuit i).Raw := by unfold decodeStatusCircuit; raw_tac
theorem raw_statusHead : decodeStatusHead.Raw := by
  unfold decodeStatusHead
  repeat' (first | exact raw_unit | exact raw_rd _ | exact raw_store _ _ | exact raw_setdefault _ _ | exact raw_offset | exact raw_pure _ | (refine raw_bind ?_ (fun _ => ?_)) | split)
theorem raw_statusTail : decodeStatusTail.Raw := by unfold decodeStatusTail; raw_tac
theorem raw_status : decodeStatus.Raw := by
  unfold decodeStatus
  repeat' (first | exact raw_statusHead | exact raw_statusTail | exact raw_rd _ | exact raw_setdefault _ _ | exact raw_lookup _ | exact raw_store _ _
                  | exact raw_pure _ | exact raw_forRange (fun i => raw_body _ _ i) | exact raw_forRange (fun i => raw_statusCircuit i) | (refine raw_bind ?_ (fun _ => ?_)) | split)

theorem raw_setpoints (i : Nat) : (decodeSetpoints i).Raw := by unfold decodeSetpoints; raw_tac
theorem raw_maskFlags (m : Option Val) (f : Int) : (maskFlags m f).Raw := by unfold maskFlags; raw_tac
theorem raw_configCircuit (i : Nat) : (decodeConfigCircuit i).Raw := by unfold decodeConfigCircuit; raw_tac
theorem raw_color (i : Nat) (s : List Val) : (decodeColor i s).Raw := by unfold decodeColor; raw_tac
theorem raw_pumpData (i : Nat) : (decodePumpData i).Raw := by unfold decodePumpData; raw_tac
theorem raw_configHead : decodeConfigHead.Raw := by
  unfold decodeConfigHead
  repeat' (first | exact raw_rd _ | exact raw_rdString | exact raw_setdefault _ _ | exact raw_lookup _ | exact raw_store _ _ | exact raw_offset | exact raw_unit
                  | exact raw_pure _ | exact raw_forRange (fun i => raw_setpoints i) | exact raw_maskFlags _ _ | (refine raw_bind ?_ (fun _ => ?_)) | split)
theorem raw_config : decodeConfig.Raw := by
  unfold decodeConfig
  repeat' (first | exact raw_configHead | exact raw_rd _ | exact raw_rdString | exact raw_setdefault _ _ | exact raw_lookup _ | exact raw_store _ _ | exact raw_offset
                  | exact raw_pure _ | exact raw_forRange (fun i => raw_configCircuit i) | exact raw_forRange (fun i => raw_pumpData i)
                  | exact raw_loop (fun i s => raw_color i s) _ _ _ | (refine raw_bind ?_ (fun _ => ?_)) | split)
theorem raw_scg : decodeScg.Raw := by unfold decodeScg; raw_tac
theorem raw_chemA : decodeChemistryA.Raw := by unfold decodeChemistryA; raw_tac
theorem raw_chemB : decodeChemistryB.Raw := by unfold decodeChemistryB; raw_tac
theorem raw_chemC : decodeChemistryC.Raw := by unfold decodeChemistryC; raw_tac
theorem raw_chemD : decodeChemistryD.Raw := by unfold decodeChemistryD; raw_tac
theorem raw_chemistry : decodeChemistry.Raw := by
  unfold decodeChemistry
  repeat' (first | exact raw_chemA | exact raw_chemB | exact raw_chemC | exact raw_chemD | exact raw_pure _ | (refine raw_bind ?_ (fun _ => ?_)))
theorem raw_nameFromCircuits (dev : Int) : ∀ (l : List (Key × Val)) (n : String), (nameFromCircuits dev l n).Raw := by
  intro l
  induction l with
  | nil => intro n; unfold nameFromCircuits; raw_tac
  | cons x l ih =>
    intro n
    unfold nameFromCircuits
    repeat' (first | exact ih _ | exact raw_subscript _ _ | exact raw_pure _ | exact raw_throw rfl | (refine raw_bind ?_ (fun _ => ?_)) | split)
theorem raw_pumpName (dev : Int) (c : Option Val) (n : String) : (pumpName dev c n).Raw := by
  unfold pumpName
  repeat' (first | exact raw_nameFromCircuits _ _ _ | exact raw_pure _ | exact raw_throw rfl | split)
theorem raw_preset (p : Int) (i : Nat) (n : String) : (decodePreset p i n).Raw := by
  unfold decodePreset
  repeat' (first | exact raw_pumpName _ _ _ | exact raw_rd _ | exact raw_setdefault _ _ | exact raw_lookup _ | exact raw_store _ _ | exact raw_pure _ | (refine raw_bind ?_ (fun _ => ?_)) | split)
theorem raw_pumpTail (p a b c : Int) (n : String) : (decodePumpTail p a b c n).Raw := by unfold decodePumpTail; raw_tac
theorem raw_setPumpState (p s : Int) : (setPumpState p s).Raw := by unfold setPumpState; raw_tac
theorem raw_pump (p : Int) : (decodePump p).Raw := by
  unfold decodePump
  repeat' (first | exact raw_offset | exact raw_pumpTail _ _ _ _ _ | exact raw_setPumpState _ _ | exact raw_rd _ | exact raw_setdefault _ _ | exact raw_lookup _ | exact raw_store _ _
                  | exact raw_pure _ | exact raw_loop (fun i s => raw_preset _ i s) _ _ _ | (refine raw_bind ?_ (fun _ => ?_)) | split)
theorem raw_colorUpdate : decodeColorUpdate.Raw := by unfold decodeColorUpdate; raw_tac
theorem raw_floatPart {f : String → Except PyErr Rat} (hf : ∀ s, RawE (f s)) (l : List String) (i : Nat) : (floatPart f l i).Raw := by
  unfold floatPart
  split
  · exact raw_throw rfl
  · split
    · exact raw_pure _
    · rename_i s _ _ e he
      exact raw_throw (hf s e he)
theorem raw_version {f : String → Except PyErr Rat} (hf : ∀ s, RawE (f s)) : (decodeVersion f).Raw := by
  unfold decodeVersion
  repeat' (first | exact raw_floatPart hf _ _ | exact raw_rdMsgString | exact raw_setdefault _ _ | exact raw_store _ _ | exact raw_pure _ | (refine raw_bind ?_ (fun _ => ?_)) | split)
theorem raw_dateTime (n : Rat) : (decodeDateTime n).Raw := by unfold decodeDateTime; raw_tac
theorem raw_equipArray (k : String) : (decodeEquipArray k).Raw := by unfold decodeEquipArray; raw_tac
theorem raw_equipment : decodeEquipment.Raw := by
  unfold decodeEquipment
  repeat' (first | exact raw_equipArray _ | exact raw_rd _ | exact raw_setdefault _ _ | exact raw_store _ _ | exact raw_offset | exact raw_pure _ | (refine raw_bind ?_ (fun _ => ?_)) | split)

theorem raw_decoder {f : String → Except PyErr Rat} (hf : ∀ s, RawE (f s)) (D : Decoder) : (D.prog f).Raw := by
  cases D with
  | _ => first | exact raw_status | exact raw_config | exact raw_scg | exact raw_chemistry | exact raw_pump _ | exact raw_colorUpdate | exact raw_version hf | exact raw_dateTime _ | exact raw_equipment

theorem rawE_decode {f : String → Except PyErr Rat} (hf : ∀ s, RawE (f s)) (D : Decoder) (b : Bytes) (d : Val) : RawE (decodeWith (D.prog f) b d).1 :=
  rawE_map (raw_run b (raw_decoder hf D) 0 d)

end SL
