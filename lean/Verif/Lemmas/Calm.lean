import Verif.Lemmas.Frail
import Verif.Lemmas.Deeds
/-!
# What the code can raise by itself

`PyErr.plain`: the exceptions that the library's own code, `struct` and the codecs raise.  A `CancelledError` is none of them: it only
comes out of an `await`.
-/
set_option linter.unusedVariables false

namespace SL

/-- The exceptions that arise in the library's own code. -/
def PyErr.plain : PyErr → Bool
  | .structError | .unicodeError | .valueError | .typeError | .keyError | .indexError | .attributeError => true
  | .slError | .slRequest | .slConnection | .slResponse | .slLogin => true
  | .cancelled | .runtimeError | .zeroDivision | .overflowError | .assertionError => false

/-- If it raises, then such an exception. -/
def PlainE {α : Type} (x : Except PyErr α) : Prop := ∀ e, x = .error e → e.plain = true

section
variable {α β : Type}

theorem plainE_ok (a : α) : PlainE (.ok a : Except PyErr α) := fun e h => by cases h
theorem plainE_pure (a : α) : PlainE (pure a : Except PyErr α) := fun e h => by cases h
theorem plainE_error {e : PyErr} (h : e.plain = true) : PlainE (.error e : Except PyErr α) := fun e' h' => by cases h'; exact h
theorem plainE_bind {x : Except PyErr α} {f : α → Except PyErr β} (hx : PlainE x) (hf : ∀ a, PlainE (f a)) : PlainE (x >>= f) := by
  cases x with
  | ok a => exact hf a
  | error e => exact fun e' h' => by cases h'; exact hx e rfl
theorem plainE_map {x : Except PyErr α} {f : α → β} (hx : PlainE x) : PlainE (x.map f) := by
  cases x with
  | ok a => exact plainE_ok _
  | error e => exact fun e' h' => by cases h'; exact hx e rfl
theorem plainE_ite {c : Prop} [Decidable c] {x y : Except PyErr α} (hx : PlainE x) (hy : PlainE y) : PlainE (if c then x else y) := by
  split
  · exact hx
  · exact hy

end

theorem plainE_unpackRaw (n : Nat) (b : Bytes) (o : Nat) : PlainE (unpackRaw n b o) := plainE_ite (plainE_ok _) (plainE_error rfl)
theorem plainE_unpackFrom (f : Fmt) (b : Bytes) (o : Nat) : PlainE (unpackFrom f b o) := plainE_bind (plainE_unpackRaw _ _ _) (fun _ => plainE_pure _)
theorem plainE_packU (n : Nat) (v : Int) : PlainE (packU n v) := plainE_ite (plainE_ok _) (plainE_error rfl)
theorem plainE_getSome (f : Fmt) (b : Bytes) (o : Nat) : PlainE (getSome f b o) := plainE_bind (plainE_unpackFrom _ _ _) (fun _ => plainE_pure _)
theorem plainE_decodeText (u : Bool) (b : Bytes) : PlainE (decodeText u b) := by
  unfold decodeText
  split
  · exact plainE_ok _
  · exact plainE_error rfl
theorem plainE_decodeMessageString (b : Bytes) : PlainE (decodeMessageString b) :=
  plainE_bind (plainE_unpackFrom _ _ _) (fun _ => plainE_bind (plainE_unpackRaw _ _ _) (fun _ => plainE_bind (plainE_decodeText _ _) (fun _ => plainE_pure _)))
theorem plainE_getString (b : Bytes) (o : Nat) : PlainE (getString b o) :=
  plainE_bind (plainE_unpackFrom _ _ _) (fun _ => plainE_bind (plainE_unpackRaw _ _ _) (fun _ => plainE_bind (plainE_decodeText _ _) (fun _ => plainE_pure _)))
theorem plainE_getArrayItems (b : Bytes) (a : Nat) : ∀ n, PlainE (getArrayItems b a n)
  | 0 => plainE_ok _
  | n + 1 => plainE_bind (plainE_getArrayItems b a n) (fun _ => plainE_bind (plainE_getSome _ _ _) (fun _ => plainE_pure _))
theorem plainE_getArray (b : Bytes) (o : Nat) : PlainE (getArray b o) :=
  plainE_bind (plainE_getSome _ _ _) (fun _ => plainE_bind (plainE_getArrayItems _ _ _) (fun _ => plainE_pure _))
theorem plainE_timeOfBlock (b : Bytes) : PlainE (timeOfBlock b) := by
  unfold timeOfBlock mkDateTime
  repeat' (first | exact plainE_ok _ | exact plainE_pure _ | exact plainE_error rfl | refine plainE_bind ?_ (fun _ => ?_) | split | exact plainE_unpackFrom _ _ _)
theorem plainE_getTime (b : Bytes) (o : Nat) : PlainE (getTime b o) :=
  plainE_bind (plainE_unpackRaw _ _ _) (fun _ => plainE_bind (plainE_timeOfBlock _) (fun _ => plainE_pure _))
theorem plainE_chain : ∀ (p : Path) (d : Val), PlainE (d.chain p) := by
  intro p
  induction p with
  | nil => intro d; unfold Val.chain; exact plainE_ok _
  | cons k ks ih =>
    intro d
    cases d with
    | dict kv =>
      simp only [Val.chain]
      split
      · exact ih _
      · exact plainE_ok _
    | _ => exact plainE_error rfl

/-- If the decoder raises, then such an exception. -/
def Prog.Plain {α : Type} : Prog α → Prop
  | .pure _ => True
  | .raise e => e.plain = true
  | .num _ k => ∀ x, (k x).Plain
  | .str k => ∀ x, (k x).Plain
  | .arr k => ∀ x, (k x).Plain
  | .time k => ∀ x, (k x).Plain
  | .msgStr k => ∀ x, (k x).Plain
  | .off k => ∀ x, (k x).Plain
  | .set _ _ k => k.Plain
  | .setdef _ _ k => k.Plain
  | .get _ k => ∀ x, (k x).Plain

namespace Prog

theorem plain_andThen {α γ : Type} {r : Except PyErr (γ × Nat)} {d : Val} {k : γ → Nat → Res α} (hr : PlainE r) (hk : ∀ x o, PlainE (k x o).1) :
    PlainE (andThen r d k).1 := by
  unfold andThen
  split
  · exact hk _ _
  · exact plainE_error (hr _ rfl)

theorem plain_run {α : Type} (b : Bytes) {p : Prog α} (h : p.Plain) (o : Nat) (d : Val) : PlainE (p.run b o d).1 := by
  induction p generalizing o d with
  | pure a => exact plainE_ok _
  | raise e => exact plainE_error h
  | num f k ih => exact plain_andThen (plainE_getSome _ _ _) (fun x o => ih x (h x) o d)
  | str k ih => exact plain_andThen (plainE_getString _ _) (fun x o => ih x (h x) o d)
  | arr k ih => exact plain_andThen (plainE_getArray _ _) (fun x o => ih x (h x) o d)
  | time k ih => exact plain_andThen (plainE_getTime _ _) (fun x o => ih x (h x) o d)
  | msgStr k ih =>
    simp only [run]
    split
    · exact ih _ (h _) o d
    · rename_i e he
      exact plainE_error (plainE_decodeMessageString b e he)
  | off k ih => exact ih o (h o) o d
  | set p x k ih =>
    simp only [run]
    split
    · exact ih h o _
    · exact plainE_error rfl
  | setdef p x k ih =>
    simp only [run]
    split
    · exact ih h o _
    · exact plainE_error rfl
  | get p k ih =>
    simp only [run]
    split
    · exact ih _ (h _) o d
    · rename_i e he
      exact plainE_error (plainE_chain _ _ e he)

theorem plain_bind {α β : Type} {p : Prog α} {k : α → Prog β} (hp : p.Plain) (hk : ∀ a, (k a).Plain) : (p >>= k).Plain := by
  show (p.bind k).Plain
  induction p with
  | pure a => exact hk a
  | raise e => exact hp
  | num f k' ih => exact fun x => ih x (hp x)
  | str k' ih => exact fun x => ih x (hp x)
  | arr k' ih => exact fun x => ih x (hp x)
  | time k' ih => exact fun x => ih x (hp x)
  | msgStr k' ih => exact fun x => ih x (hp x)
  | off k' ih => exact fun x => ih x (hp x)
  | set p x k' ih => exact ih hp
  | setdef p x k' ih => exact ih hp
  | get p k' ih => exact fun x => ih x (hp x)

theorem plain_rd (f : Fmt) : (rd f).Plain := fun _ => trivial
theorem plain_rdString : rdString.Plain := fun _ => trivial
theorem plain_rdArray : rdArray.Plain := fun _ => trivial
theorem plain_rdTime : rdTime.Plain := fun _ => trivial
theorem plain_rdMsgString : rdMsgString.Plain := fun _ => trivial
theorem plain_offset : offset.Plain := fun _ => trivial
theorem plain_store (p : Path) (x : Val) : (store p x).Plain := trivial
theorem plain_setdefault (p : Path) (x : Val) : (setdefault p x).Plain := trivial
theorem plain_lookup (p : Path) : (lookup p).Plain := fun _ => trivial
theorem plain_pure {α : Type} (a : α) : (pure a : Prog α).Plain := trivial
theorem plain_throw {α : Type} {e : PyErr} (h : e.plain = true) : (throw e : Prog α).Plain := h
theorem plain_ite {α : Type} {c : Prop} [Decidable c] {x y : Prog α} (hx : x.Plain) (hy : y.Plain) : (if c then x else y).Plain := by
  split
  · exact hx
  · exact hy
theorem plain_loop {σ : Type} {body : Nat → σ → Prog σ} (h : ∀ i s, (body i s).Plain) : ∀ n i s, (loop body n i s).Plain
  | 0, _, _ => trivial
  | n + 1, i, s => plain_bind (h i s) (fun s => plain_loop h n (i + 1) s)
theorem plain_forRange {n : Nat} {body : Nat → Prog Unit} (h : ∀ i, (body i).Plain) : (forRange n body).Plain := plain_loop (fun i _ => h i) _ _ _

end Prog

open Prog

macro "plain_tac" : tactic =>
  `(tactic| repeat' (first
    | exact plain_rd _ | exact plain_rdString | exact plain_rdArray | exact plain_rdTime | exact plain_rdMsgString | exact plain_offset
    | exact plain_store _ _ | exact plain_setdefault _ _ | exact plain_lookup _ | exact plain_pure _ | exact plain_throw rfl
    | (refine plain_bind ?_ (fun _ => ?_))
    | split))

theorem plain_subscript (v : Val) (k : Key) : (subscript v k).Plain := by unfold subscript; plain_tac
theorem plain_unit : getTemperatureUnit.Plain := by unfold getTemperatureUnit; plain_tac
theorem plain_copySetpoints (i : Int) (v : Option Val) (t : Int) : (copySetpoints i v t).Plain := by
  unfold copySetpoints
  repeat' (first | exact plain_subscript _ _ | exact plain_store _ _ | exact plain_pure _ | exact plain_throw rfl | (refine plain_bind ?_ (fun _ => ?_)) | split)
theorem plain_body (u : String) (v : Option Val) (i : Nat) : (decodeBody u v i).Plain := by
  unfold decodeBody
  repeat' (first | exact plain_rd _ | exact plain_copySetpoints _ _ _ | exact plain_store _ _ | exact plain_setdefault _ _ | exact plain_pure _ | (refine plain_bind ?_ (fun _ => ?_)) | split)
theorem plain_statusCircuit (i : Nat) : (decodeStatusCircuit i).Plain := by unfold decodeStatusCircuit; plain_tac
theorem plain_statusHead : decodeStatusHead.Plain := by
  unfold decodeStatusHead
  repeat' (first | exact plain_unit | exact plain_rd _ | exact plain_store _ _ | exact plain_setdefault _ _ | exact plain_offset | exact plain_pure _ | (refine plain_bind ?_ (fun _ => ?_)) | split)
theorem plain_statusTail : decodeStatusTail.Plain := by unfold decodeStatusTail; plain_tac
theorem plain_status : decodeStatus.Plain := by
  unfold decodeStatus
  repeat' (first | exact plain_statusHead | exact plain_statusTail | exact plain_rd _ | exact plain_setdefault _ _ | exact plain_lookup _ | exact plain_store _ _
                  | exact plain_pure _ | exact plain_forRange (fun i => plain_body _ _ i) | exact plain_forRange (fun i => plain_statusCircuit i) | (refine plain_bind ?_ (fun _ => ?_)) | split)

theorem plain_setpoints (i : Nat) : (decodeSetpoints i).Plain := by unfold decodeSetpoints; plain_tac
theorem plain_maskFlags (m : Option Val) (f : Int) : (maskFlags m f).Plain := by unfold maskFlags; plain_tac
theorem plain_configCircuit (i : Nat) : (decodeConfigCircuit i).Plain := by unfold decodeConfigCircuit; plain_tac
theorem plain_color (i : Nat) (s : List Val) : (decodeColor i s).Plain := by unfold decodeColor; plain_tac
theorem plain_pumpData (i : Nat) : (decodePumpData i).Plain := by unfold decodePumpData; plain_tac
theorem plain_configHead : decodeConfigHead.Plain := by
  unfold decodeConfigHead
  repeat' (first | exact plain_rd _ | exact plain_rdString | exact plain_setdefault _ _ | exact plain_lookup _ | exact plain_store _ _ | exact plain_offset | exact plain_unit
                  | exact plain_pure _ | exact plain_forRange (fun i => plain_setpoints i) | exact plain_maskFlags _ _ | (refine plain_bind ?_ (fun _ => ?_)) | split)
theorem plain_config : decodeConfig.Plain := by
  unfold decodeConfig
  repeat' (first | exact plain_configHead | exact plain_rd _ | exact plain_rdString | exact plain_setdefault _ _ | exact plain_lookup _ | exact plain_store _ _ | exact plain_offset
                  | exact plain_pure _ | exact plain_forRange (fun i => plain_configCircuit i) | exact plain_forRange (fun i => plain_pumpData i)
                  | exact plain_loop (fun i s => plain_color i s) _ _ _ | (refine plain_bind ?_ (fun _ => ?_)) | split)
theorem plain_scg : decodeScg.Plain := by unfold decodeScg; plain_tac
theorem plain_chemA : decodeChemistryA.Plain := by unfold decodeChemistryA; plain_tac
theorem plain_chemB : decodeChemistryB.Plain := by unfold decodeChemistryB; plain_tac
theorem plain_chemC : decodeChemistryC.Plain := by unfold decodeChemistryC; plain_tac
theorem plain_chemD : decodeChemistryD.Plain := by unfold decodeChemistryD; plain_tac
theorem plain_chemistry : decodeChemistry.Plain := by
  unfold decodeChemistry
  repeat' (first | exact plain_chemA | exact plain_chemB | exact plain_chemC | exact plain_chemD | exact plain_pure _ | (refine plain_bind ?_ (fun _ => ?_)))
theorem plain_nameFromCircuits (dev : Int) : ∀ (l : List (Key × Val)) (n : String), (nameFromCircuits dev l n).Plain := by
  intro l
  induction l with
  | nil => intro n; unfold nameFromCircuits; plain_tac
  | cons x l ih =>
    intro n
    unfold nameFromCircuits
    repeat' (first | exact ih _ | exact plain_subscript _ _ | exact plain_pure _ | exact plain_throw rfl | (refine plain_bind ?_ (fun _ => ?_)) | split)
theorem plain_pumpName (dev : Int) (c : Option Val) (n : String) : (pumpName dev c n).Plain := by
  unfold pumpName
  repeat' (first | exact plain_nameFromCircuits _ _ _ | exact plain_pure _ | exact plain_throw rfl | split)
theorem plain_preset (p : Int) (i : Nat) (n : String) : (decodePreset p i n).Plain := by
  unfold decodePreset
  repeat' (first | exact plain_pumpName _ _ _ | exact plain_rd _ | exact plain_setdefault _ _ | exact plain_lookup _ | exact plain_store _ _ | exact plain_pure _ | (refine plain_bind ?_ (fun _ => ?_)) | split)
theorem plain_pumpTail (p a b c : Int) (n : String) : (decodePumpTail p a b c n).Plain := by unfold decodePumpTail; plain_tac
theorem plain_setPumpState (p s : Int) : (setPumpState p s).Plain := by unfold setPumpState; plain_tac
theorem plain_pump (p : Int) : (decodePump p).Plain := by
  unfold decodePump
  repeat' (first | exact plain_offset | exact plain_pumpTail _ _ _ _ _ | exact plain_setPumpState _ _ | exact plain_rd _ | exact plain_setdefault _ _ | exact plain_lookup _ | exact plain_store _ _
                  | exact plain_pure _ | exact plain_loop (fun i s => plain_preset _ i s) _ _ _ | (refine plain_bind ?_ (fun _ => ?_)) | split)
theorem plain_colorUpdate : decodeColorUpdate.Plain := by unfold decodeColorUpdate; plain_tac
theorem plain_floatPart {f : String → Except PyErr Rat} (hf : ∀ s, PlainE (f s)) (l : List String) (i : Nat) : (floatPart f l i).Plain := by
  unfold floatPart
  split
  · exact plain_throw rfl
  · split
    · exact plain_pure _
    · rename_i s _ _ e he
      exact plain_throw (hf s e he)
theorem plain_version {f : String → Except PyErr Rat} (hf : ∀ s, PlainE (f s)) : (decodeVersion f).Plain := by
  unfold decodeVersion
  repeat' (first | exact plain_floatPart hf _ _ | exact plain_rdMsgString | exact plain_setdefault _ _ | exact plain_store _ _ | exact plain_pure _ | (refine plain_bind ?_ (fun _ => ?_)) | split)
theorem plain_dateTime (n : Rat) : (decodeDateTime n).Plain := by unfold decodeDateTime; plain_tac
theorem plain_equipArray (k : String) : (decodeEquipArray k).Plain := by unfold decodeEquipArray; plain_tac
theorem plain_equipment : decodeEquipment.Plain := by
  unfold decodeEquipment
  repeat' (first | exact plain_equipArray _ | exact plain_rd _ | exact plain_setdefault _ _ | exact plain_store _ _ | exact plain_offset | exact plain_pure _ | (refine plain_bind ?_ (fun _ => ?_)) | split)

theorem plain_decoder {f : String → Except PyErr Rat} (hf : ∀ s, PlainE (f s)) (D : Decoder) : (D.prog f).Plain := by
  cases D with
  | _ => first | exact plain_status | exact plain_config | exact plain_scg | exact plain_chemistry | exact plain_pump _ | exact plain_colorUpdate | exact plain_version hf | exact plain_dateTime _ | exact plain_equipment

theorem plainE_decode {f : String → Except PyErr Rat} (hf : ∀ s, PlainE (f s)) (D : Decoder) (b : Bytes) (d : Val) : PlainE (decodeWith (D.prog f) b d).1 :=
  plainE_map (plain_run b (plain_decoder hf D) 0 d)

/-! ## Payloads and validation -/

theorem plainE_packObj (v : Val) : PlainE (packObj v) := by
  unfold packObj
  split
  · exact plainE_packU _ _
  · exact plainE_error rfl
theorem plainE_packObjs : ∀ l : List Val, PlainE (packObjs l)
  | [] => plainE_ok _
  | v :: vs => plainE_bind (plainE_packObj v) (fun _ => plainE_bind (plainE_packObjs vs) (fun _ => plainE_pure _))
theorem plainE_encodeMessageString (s : String) (u : Bool) : PlainE (encodeMessageString s u) := plainE_bind (plainE_packU _ _) (fun _ => plainE_pure _)
theorem plainE_loginMessage : PlainE loginMessage := by
  unfold loginMessage
  exact plainE_bind (plainE_encodeMessageString _ _) (fun _ => plainE_bind (plainE_encodeMessageString _ _) (fun _ => plainE_pure _))
theorem plainE_pack8H (a b c d e f g h : Nat) : PlainE (pack8H a b c d e f g h) := by
  have p : ∀ n : Nat, PlainE (packU 2 n) := fun n => plainE_packU 2 n
  unfold pack8H
  generalize packU 2 = q at p
  exact plainE_bind (p _) (fun _ => plainE_bind (p _) (fun _ => plainE_bind (p _) (fun _ => plainE_bind (p _) (fun _ =>
    plainE_bind (p _) (fun _ => plainE_bind (p _) (fun _ => plainE_bind (p _) (fun _ => plainE_bind (p _) (fun _ => plainE_pure _))))))))
theorem plainE_encodeMessageTime (t : DateTime) : PlainE (encodeMessageTime t) := plainE_pack8H _ _ _ _ _ _ _ _
theorem plainE_dateTimePayload (t : DateTime) (v : Val) : PlainE (dateTimePayload t v) :=
  plainE_bind (plainE_encodeMessageTime t) (fun _ => plainE_bind (plainE_packObjs _) (fun _ => plainE_pure _))
theorem plainE_getData (strict : Bool) : ∀ (p : Path) (d : Val), PlainE (getData strict p d)
  | [], _ => plainE_ok _
  | k :: ks, v => plainE_ite (plainE_ite (plainE_error rfl) (plainE_ok _)) (plainE_getData strict ks _)
theorem plainE_getValue (strict : Bool) (p : Path) (d : Val) : PlainE (getValue strict p d) := by
  unfold getValue getAttr
  have h := plainE_getData strict p d
  split
  · rename_i e he
    exact plainE_error (h e he)
  · split
    · exact plainE_ite (plainE_error rfl) (plainE_ok _)
    · exact plainE_ite (plainE_error rfl) (plainE_ok _)
    · exact plainE_ok _
  · exact plainE_ite (plainE_error rfl) (plainE_ok _)
theorem plainE_equipmentFlags (d : Val) : PlainE (equipmentFlags d) := by
  unfold equipmentFlags
  have h := plainE_getData false [.s "controller", .s "equipment", .s "flags"] d
  split
  · exact plainE_ok _
  · exact plainE_error rfl
  · rename_i e he
    exact plainE_error (h e he)
theorem plainE_pyBetween (a : Rat) (v : Val) (b : Rat) : PlainE (pyBetween a v b) := by
  unfold pyBetween
  split
  · exact plainE_ok _
  · exact plainE_error rfl
theorem plainE_pyInDict (v : Val) (l : List (Key × Val)) : PlainE (pyInDict v l) := by
  unfold pyInDict
  split <;> first | exact plainE_ok _ | exact plainE_error rfl
theorem plainE_knownIn (s : String) (v d : Val) : PlainE (knownIn s v d) := by
  unfold knownIn
  repeat' (first | exact plainE_pyInDict _ _ | exact plainE_error rfl | split)
theorem plainE_pyInt (v : Val) : PlainE (pyInt v) := by
  unfold pyInt
  split <;> first | exact plainE_ok _ | exact plainE_error rfl
theorem plainE_validHeatTemp (a b d : Val) : PlainE (validHeatTemp a b d) := by
  unfold validHeatTemp
  refine plainE_bind (plainE_pyInt _) (fun _ => plainE_bind (plainE_getData _ _ _) (fun _ => plainE_bind (plainE_getData _ _ _) (fun _ => ?_)))
  repeat' (first | exact plainE_pure _ | exact plainE_error rfl | split)
theorem plainE_validHeatMode (v : Val) : PlainE (validHeatMode v) := by
  unfold validHeatMode
  split
  · exact plainE_ok _
  · exact plainE_error rfl
theorem plainE_orCached (v : Val) (p : Path) (d : Val) : PlainE (orCached v p d) := plainE_ite (plainE_getValue _ _ _) (plainE_ok _)
theorem plainE_checkRange (a b : Rat) (v : Val) : PlainE (checkRange a b v) :=
  plainE_bind (plainE_pyBetween _ _ _) (fun _ => plainE_ite (plainE_pure _) (plainE_error rfl))
theorem plainE_parseOnOff (U : UnicodeDb) (v : Val) : PlainE (parseOnOff U v) := by
  unfold parseOnOff
  split <;> first | exact plainE_ok _ | exact plainE_error rfl
theorem plainE_scgValues (E : Env) (a b c d x : Val) : PlainE (scgValues E a b c d x) := by
  unfold scgValues
  repeat' (first | exact plainE_orCached _ _ _ | exact plainE_checkRange _ _ _ | exact plainE_parseOnOff _ _ | exact plainE_pure _ | refine plainE_bind ?_ (fun _ => ?_))
theorem plainE_chemValues (a b c d e f x : Val) : PlainE (chemValues a b c d e f x) := by
  unfold chemValues
  repeat' (first | exact plainE_orCached _ _ _ | exact plainE_checkRange _ _ _ | exact plainE_pure _ | refine plainE_bind ?_ (fun _ => ?_))
theorem plainE_asScreenLogic {α : Type} {x : Except PyErr α} (h : PlainE x) : PlainE (asScreenLogic x) := by
  unfold asScreenLogic
  split
  · exact plainE_error rfl
  · exact plainE_error rfl
  · exact h
theorem plainE_phHundredths (v : Val) : PlainE (phHundredths v) := by
  unfold phHundredths
  split <;> first | exact plainE_ok _ | exact plainE_error rfl

/-- Python's `float(str)` and `datetime.fromtimestamp` raise plain exceptions (`ValueError`, and so on). -/
structure Env.Plain (E : Env) : Prop where
  float : ∀ s, PlainE (E.pyFloat s)
  stamp : ∀ q, PlainE (E.fromTimestamp q)

theorem plainE_dateOrCached {E : Env} (hE : E.Plain) (t : Option DateTime) (d : Val) : PlainE (dateOrCached E t d) := by
  unfold dateOrCached
  split
  · exact plainE_ok _
  · refine plainE_bind (plainE_getData _ _ _) (fun _ => ?_)
    split
    · exact hE.stamp _
    · exact plainE_error rfl

/-! ## Coroutines -/

open Co (state modify makeRequest pause closeConn withLock tryExcept ofExcept)

/-- If it is an exception, then one in `P`. -/
def Outcome.In {α : Type} (P : PyErr → Prop) (x : Except PyErr α) : Prop := ∀ e, x = .error e → P e

/-- Nobody was cancelled while waiting for the end of a connection. -/
def Gw.Unspoiled (g : Gw) : Prop := ∀ c, g.spoiled c = false

/-- A change of the state that does not count as such a cancellation. -/
def Calms (f : Gw → Gw) : Prop := ∀ g : Gw, g.Unspoiled → (f g).Unspoiled

theorem calms_same {f : Gw → Gw} (h : ∀ g, (f g).conns = g.conns) : Calms f := by
  intro g hg c
  have := hg c
  simpa only [Gw.spoiled, h] using this

theorem calms_modify {f : Conn → Conn} (c : Nat) (h : ∀ x, (f x).w.spoiled = x.w.spoiled) : Calms (fun g => { g with conns := g.conns.modify c f }) := by
  intro g hg i
  have := hg i
  simp only [Gw.spoiled, List.getElem?_modify] at this ⊢
  cases hx : g.conns[i]? with
  | none => rfl
  | some x =>
    rw [hx] at this
    by_cases e : c = i
    · simpa [e, h] using this
    · simpa [e] using this

theorem unspoiled_net {g : Gw} (hg : g.Unspoiled) (c : Nat) {e : Event} (he : ∀ i, e ≠ .closeCancel i) : (g.net c e).Unspoiled := by
  intro i
  have := hg i
  simp only [Gw.spoiled, Gw.net, List.getElem?_modify] at this ⊢
  cases hx : g.conns[i]? with
  | none => rfl
  | some x =>
    rw [hx] at this
    by_cases hc : c = i
    · simp only [hc, if_true, Option.map_some, Option.map_eq_map]
      cases hs : (x.w.step e).spoiled with
      | false => rfl
      | true =>
        rcases step_spoiled _ _ hs with h | ⟨j, h⟩
        · exact absurd (h.symm.trans this) (by simp)
        · exact absurd h (he j)
    · simpa [hc] using this

theorem calms_net (c : Nat) {e : Event} (he : ∀ i, e ≠ .closeCancel i) : Calms (·.net c e) := fun g hg => unspoiled_net hg c he

/-- The coroutine raises only exceptions in `P`, as long as what it awaits does. -/
def Co.Raises {α : Type} (P : PyErr → Prop) : Co α → Prop
  | .ret _ => True
  | .throw e => P e
  | .get k => ∀ g, (k g).Raises P
  | .upd f k => Calms f ∧ k.Raises P
  | .request _ _ _ _ k => ∀ o, Outcome.In P o → (k o).Raises P
  | .openConn _ k => ∀ o, Outcome.In P o → (k o).Raises P
  | .sleep k => ∀ o, Outcome.In P o → (k o).Raises P
  | .close _ _ k => ∀ o, Outcome.In P o → (k o).Raises P
  | .acquire k => ∀ o, Outcome.In P o → (k o).Raises P

section
variable {α β : Type} {P : PyErr → Prop}

theorem Co.rs_bindE {f : Except PyErr α → Co β} (hf : ∀ o, Outcome.In P o → (f o).Raises P) : ∀ x : Co α, x.Raises P → (x.bindE f).Raises P
  | .ret a, _ => hf _ (fun e h => by cases h)
  | .throw e, h => hf _ (fun e' h' => by cases h'; exact h)
  | .get k, h => fun g => rs_bindE hf (k g) (h g)
  | .upd u k, h => ⟨h.1, rs_bindE hf k h.2⟩
  | .request _ _ _ _ k, h => fun o ho => rs_bindE hf (k o) (h o ho)
  | .openConn _ k, h => fun o ho => rs_bindE hf (k o) (h o ho)
  | .sleep k, h => fun o ho => rs_bindE hf (k o) (h o ho)
  | .close _ _ k, h => fun o ho => rs_bindE hf (k o) (h o ho)
  | .acquire k, h => fun o ho => rs_bindE hf (k o) (h o ho)

theorem Co.rs_bind {x : Co α} {f : α → Co β} (hx : x.Raises P) (hf : ∀ a, (f a).Raises P) : (x >>= f).Raises P := by
  refine rs_bindE (f := fun o => match o with | .ok a => f a | .error e => .throw e) ?_ x hx
  intro o ho
  cases o with
  | ok a => exact hf a
  | error e => exact ho e rfl

theorem Co.rs_state {f : Gw → Co α} (hf : ∀ g, (f g).Raises P) : (state >>= f).Raises P := hf
theorem Co.rs_modify {f : Gw → Gw} (h : Calms f) : (modify f).Raises P := ⟨h, trivial⟩
/-- The connections stay. -/
theorem Co.rs_same {f : Gw → Gw} (h : ∀ g, (f g).conns = g.conns) : (modify f).Raises P := ⟨calms_same h, trivial⟩
theorem Co.rs_out {x : Except PyErr α} (h : Outcome.In P x) : (ofExcept x).Raises P := by
  cases x with
  | ok a => trivial
  | error e => exact h e rfl
theorem Co.rs_make (c : Nat) (code : Int) (data : Bytes) (r : Int) : (makeRequest c code data r).Raises P := fun o h => rs_out h
theorem Co.rs_pause : pause.Raises P := fun o h => rs_out h
theorem Co.rs_close (c : Nat) (force : Bool) : (closeConn c force).Raises P := fun o h => rs_out h
theorem Co.rs_try {x : Co α} {f : PyErr → Co α} (hx : x.Raises P) (hf : ∀ e, P e → (f e).Raises P) : (tryExcept x f).Raises P := by
  refine rs_bindE (f := fun o => match o with | .ok a => .ret a | .error e => f e) ?_ x hx
  intro o ho
  cases o with
  | ok a => trivial
  | error e => exact hf e (ho e rfl)
theorem Co.rs_lock {x : Co α} (hx : x.Raises P) : (withLock x).Raises P := by
  intro o ho
  cases o with
  | error e => exact ho e rfl
  | ok u => exact rs_bindE (f := fun r => .upd Gw.release (ofExcept r)) (fun o ho => ⟨calms_same (fun _ => rfl), rs_out ho⟩) x hx
theorem Co.rs_ite {c : Prop} [Decidable c] {x y : Co α} (hx : x.Raises P) (hy : y.Raises P) : (if c then x else y).Raises P := by
  split
  · exact hx
  · exact hy
theorem Co.rs_when {b : Bool} {x : Co Unit} (hx : x.Raises P) : (whenCo b x).Raises P := rs_ite hx trivial

end

section
variable (E : Env) {P : PyErr → Prop} (hP : ∀ e : PyErr, e.plain = true → P e)
include hP

open Co

theorem Co.rs_ofExcept {α : Type} {x : Except PyErr α} (h : PlainE x) : (ofExcept x).Raises P := rs_out (fun e he => hP e (h e he))

theorem rs_connect (a : ConnectArgs) : (asyncConnect a).Raises P := by
  intro g
  exact rs_ite trivial ⟨calms_same (fun _ => rfl), fun g => rs_ite (hP _ rfl) (fun o ho => rs_out ho)⟩

theorem rs_ack (code : Int) {payload : Except PyErr Bytes} (h : PlainE payload) (c : Nat) (r : Int) : (ackRequest code payload c r).Raises P :=
  rs_bind (rs_ofExcept hP h) (fun data => rs_bind (rs_make _ _ _ _) (fun v => rs_ite trivial (hP _ rfl)))

theorem rs_decode (hE : E.Plain) (D : Decoder) (b : Bytes) : (decodeCo E D b).Raises P :=
  rs_state (fun g => rs_bind (rs_same (fun _ => rfl)) (fun _ => rs_ofExcept hP (plainE_decode hE.float D b g.data)))

theorem rs_query (hE : E.Plain) (D : Gw → Decoder) (code : Int) {payload : Except PyErr Bytes} (h : PlainE payload) (c : Nat) (r : Int) :
    (queryRequest E D code payload c r).Raises P := by
  refine rs_bind (rs_ofExcept hP h) (fun data => rs_bind (rs_make _ _ _ _) (fun v => ?_))
  split
  · exact rs_state (fun g => rs_bind (rs_decode E hP hE _ _) (fun _ => trivial))
  · trivial

theorem rs_unsubscribeGateway : unsubscribeGateway.Raises P := by
  refine rs_state (fun g => rs_ite (rs_lock (rs_state (fun g => ?_))) trivial)
  split
  · exact rs_bind (rs_same (fun _ => rfl)) (fun _ => rs_bind (rs_modify (calms_net _ (by simp))) (fun _ =>
      rs_bind (rs_modify (calms_net _ (by simp))) (fun _ => rs_try (rs_ack hP _ (plainE_packObjs _) _ _) (fun e he => rs_ite trivial he))))
  · trivial

theorem rs_disconnect (force : Bool) : (asyncDisconnect force).Raises P := by
  refine rs_state (fun g => rs_bind (rs_when (rs_unsubscribeGateway hP)) (fun _ => rs_state (fun g => ?_)))
  split
  · exact rs_close _ _
  · exact hP .attributeError rfl

theorem rs_attempt {α : Type} (r : Int) {method : Nat → Int → Co α} (hm : ∀ c r, (method c r).Raises P) :
    (attemptRequest r method).Raises P := by
  refine rs_bind (rs_connect hP _) (fun ok => rs_ite (rs_state (fun g => ?_)) (hP _ rfl))
  split
  · exact hm _ _
  · exact hP _ rfl

theorem rs_connected {α : Type} {method : Nat → Int → Co α} (hm : ∀ c r, (method c r).Raises P) :
    (connectedRequest method).Raises P :=
  rs_state (fun g => rs_try (rs_attempt hP _ hm) (fun e he => rs_ite
    (rs_bind (rs_disconnect hP _) (fun _ => rs_bind rs_pause (fun _ => rs_attempt hP _ hm))) he))

theorem rs_subscribeGateway : subscribeGateway.Raises P := by
  refine rs_state (fun g => rs_ite (rs_lock (rs_state (fun g => rs_ite trivial ?_))) trivial)
  refine rs_bind (rs_connected hP (fun c r => rs_ack hP _ (plainE_packObjs _) _ _)) (fun _ => rs_bind (rs_same (fun _ => rfl)) (fun _ => rs_state (fun g => ?_)))
  split
  · exact rs_modify (calms_net _ (by simp))
  · exact hP _ rfl

theorem rs_registerAll (c : Nat) : ∀ l, (registerAll c l).Raises P
  | [] => trivial
  | (code, _) :: rest => rs_bind (rs_modify (calms_net _ (by simp))) (fun _ => rs_registerAll c rest)

theorem rs_attach (c : Nat) : (attach c).Raises P :=
  rs_bind (rs_same (fun _ => rfl)) (fun _ => rs_state (fun g => rs_ite
    (rs_bind (rs_modify (calms_net _ (by simp))) (fun _ => rs_bind (rs_registerAll hP c _) (fun _ => rs_subscribeGateway hP))) trivial))

theorem rs_poll {method : Nat → Int → Co (Option Bytes)} (key : Path) (hm : ∀ c r, (method c r).Raises P) : (poll key method).Raises P := by
  refine rs_bind (rs_connected hP hm) (fun raw => ?_)
  split
  · exact rs_same (fun _ => rfl)
  · trivial

theorem rs_requestPump (hE : E.Plain) (j : Int) (c : Nat) (r : Int) : (requestPump E j c r).Raises P :=
  rs_query E hP hE (fun _ => .pump j) 12584 (plainE_packObjs [.int 0, .int j]) c r

theorem rs_getPump (hE : E.Plain) (i : Nat) : (getPump E i).Raises P := by
  have q : ∀ c r, (requestPump E i c r).Raises P := by
    generalize (i : Int) = j
    exact rs_requestPump E hP hE j
  simp only [getPump]
  generalize requestPump E i = m at q
  refine rs_state (fun g => rs_bind (rs_ofExcept hP (plainE_equipmentFlags _)) (fun f => ?_))
  split
  · exact rs_bind (rs_same (fun _ => rfl)) (fun _ => rs_poll hP _ q)
  · trivial

theorem rs_getPumpsFrom (hE : E.Plain) : ∀ n i, (getPumpsFrom E n i).Raises P
  | 0, _ => trivial
  | n + 1, i => rs_bind (rs_getPump E hP hE i) (fun _ => rs_getPumpsFrom hE n (i + 1))

theorem rs_update (hE : E.Plain) : (asyncUpdate E).Raises P := by
  have q : ∀ (D : Gw → Decoder) code {payload}, PlainE payload → ∀ c r, (queryRequest E D code payload c r).Raises P :=
    fun D code payload h c r => rs_query E hP hE D _ h _ _
  exact rs_state (fun g => rs_ite (rs_bind (rs_poll hP _ (q _ _ (plainE_packObjs _))) (fun _ => rs_bind (rs_getPumpsFrom E hP hE 8 0) (fun _ =>
    rs_bind (rs_poll hP _ (q _ _ (plainE_packObjs _))) (fun _ => rs_bind (rs_poll hP _ (q _ _ (plainE_packObjs _))) (fun _ => rs_poll hP _ (q _ _ (plainE_ok _))))))) (hP _ rfl))

theorem rs_require {b : Except PyErr Bool} (h : PlainE b) : (require b).Raises P := by
  cases b with
  | error e => exact hP e (h e rfl)
  | ok b => cases b <;> first | trivial | exact hP _ rfl

theorem rs_subscribe (cb code : Nat) : (subscribe cb code).Raises P := by
  refine rs_state (fun g => ?_)
  split
  · exact rs_bind (rs_same (fun g => by simp only [Gw.addListener]; split <;> rfl)) (fun _ => rs_bind (rs_modify (calms_net _ (by simp))) (fun _ => rs_state (fun g' =>
      rs_bind (rs_when (rs_subscribeGateway hP)) (fun _ => trivial))))
  · trivial

/-- Every API call. -/
theorem rs_call (hE : E.Plain) (a : Call) : (a.co E).Raises P := by
  have q : ∀ (D : Gw → Decoder) code {payload}, PlainE payload → ∀ c r, (queryRequest E D code payload c r).Raises P :=
    fun D code payload h c r => rs_query E hP hE D _ h _ _
  have k : ∀ code {payload}, PlainE payload → ∀ c r, (ackRequest code payload c r).Raises P := fun code payload h c r => rs_ack hP _ h _ _
  cases a with
  | connect x => exact rs_bind (rs_connect hP x) (fun _ => trivial)
  | disconnect force => exact rs_bind (rs_disconnect hP force) (fun _ => trivial)
  | update => exact rs_bind (rs_update E hP hE) (fun _ => trivial)
  | getConfig => exact rs_bind (rs_poll hP _ (q _ _ (plainE_packObjs _))) (fun _ => trivial)
  | getStatus => exact rs_bind (rs_poll hP _ (q _ _ (plainE_packObjs _))) (fun _ => trivial)
  | getPumps => exact rs_bind (rs_getPumpsFrom E hP hE 8 0) (fun _ => trivial)
  | getChemistry => exact rs_bind (rs_poll hP _ (q _ _ (plainE_packObjs _))) (fun _ => trivial)
  | getScg => exact rs_bind (rs_poll hP _ (q _ _ (plainE_packObjs _))) (fun _ => trivial)
  | getDatetime => exact rs_bind (rs_poll hP _ (q _ _ (plainE_ok _))) (fun _ => trivial)
  | setCircuit x y =>
    exact rs_bind (rs_state (fun g => rs_bind (rs_require hP (plainE_knownIn _ _ _)) (fun _ => rs_bind (rs_require hP (plainE_ok _)) (fun _ => rs_connected hP (k _ (plainE_packObjs _)))))) (fun _ => trivial)
  | setHeatTemp x y =>
    exact rs_bind (rs_state (fun g => rs_bind (rs_require hP (plainE_knownIn _ _ _)) (fun _ => rs_bind (rs_require hP (plainE_validHeatTemp _ _ _)) (fun _ => rs_connected hP (k _ (plainE_packObjs _)))))) (fun _ => trivial)
  | setHeatMode x y =>
    exact rs_bind (rs_state (fun g => rs_bind (rs_require hP (plainE_knownIn _ _ _)) (fun _ => rs_bind (rs_require hP (plainE_validHeatMode _)) (fun _ => rs_connected hP (k _ (plainE_packObjs _)))))) (fun _ => trivial)
  | setColorLights x => exact rs_bind (rs_bind (rs_require hP (plainE_pyBetween _ _ _)) (fun _ => rs_connected hP (k _ (plainE_packObjs _)))) (fun _ => trivial)
  | setScg x y z w =>
    exact rs_bind (rs_state (fun g => rs_bind (rs_ofExcept hP (plainE_asScreenLogic (plainE_scgValues _ _ _ _ _ _))) (fun _ => rs_connected hP (k _ (plainE_packObjs _))))) (fun _ => trivial)
  | setChem x y z w u v =>
    exact rs_bind (rs_state (fun g => rs_bind (rs_ofExcept hP (plainE_asScreenLogic (plainE_chemValues _ _ _ _ _ _ _))) (fun _ =>
      rs_bind (rs_ofExcept hP (plainE_phHundredths _)) (fun _ => rs_connected hP (k _ (plainE_packObjs _)))))) (fun _ => trivial)
  | setDateTime x y =>
    have hs : ∀ t v c r, (requestSetDateTime t v c r).Raises P := by
      intro t v
      have h := plainE_dateTimePayload t v
      unfold requestSetDateTime
      generalize dateTimePayload t v = p at h
      exact k _ h
    simp only [Call.co, setDateTime]
    generalize requestSetDateTime = m at hs
    exact rs_bind (rs_ite (hP _ rfl) (rs_state (fun g => rs_bind (rs_ofExcept hP (plainE_dateOrCached hE _ _)) (fun _ =>
      rs_bind (rs_ofExcept hP (plainE_orCached _ _ _)) (fun _ => rs_connected hP (hs _ _)))))) (fun _ => trivial)
  | subscribe cb code => exact rs_bind (rs_subscribe hP cb code) (fun _ => trivial)
  | send code data => exact rs_bind (rs_connected hP (fun c r => rs_make _ _ _ _)) (fun _ => trivial)

theorem rs_ping : pingCo.Raises P := by
  refine rs_bind (rs_state (fun g => ?_)) (fun _ => trivial)
  split
  · exact rs_try (rs_ack hP _ (plainE_ok _) _ _) (fun e he => rs_ite trivial he)
  · exact hP _ rfl

theorem rs_unsub : unsubCo.Raises P := rs_bind (rs_unsubscribeGateway hP) (fun _ => trivial)

theorem rs_afterOpen (hE : E.Plain) (r : Int) (c : Nat) : (afterOpen E r c).Raises P := by
  refine rs_bind ?_ (fun mac => ?_)
  · have hl := plainE_loginMessage
    unfold connectToGateway
    generalize loginMessage = lm at hl ⊢
    refine rs_bind ?_ (fun mac => rs_bind (rs_ofExcept hP hl) (fun msg => rs_bind (rs_make _ _ _ _) (fun r => ?_)))
    · refine rs_bind (rs_modify (calms_modify _ (fun _ => rfl))) (fun _ => rs_bind rs_pause (fun _ => rs_state (fun g => rs_ite
        (rs_bind (rs_make _ _ _ _) (fun r => ?_)) (hP _ rfl))))
      split
      · exact rs_ofExcept hP (plainE_decodeMessageString _)
      · exact hP _ rfl
    · split <;> trivial
  · split
    · trivial
    · refine rs_bind (rs_same (fun _ => rfl)) (fun _ => rs_bind ?_ (fun _ => rs_state (fun g => rs_ite ?_ trivial)))
      · exact rs_state (fun g => rs_bind (rs_query E hP hE _ _ (plainE_ok _) _ _) (fun _ => rs_same (fun _ => rfl)))
      · refine rs_bind (rs_poll hP _ (fun c r => rs_query E hP hE _ _ (plainE_packObjs _) _ _)) (fun _ => rs_state (fun g => ?_))
        split
        · exact rs_bind (rs_attach hP _) (fun _ => trivial)
        · exact hP _ rfl

end

/-! ## Over a history -/

/-- The same for the rest of a task. -/
def Task.Raises (P : PyErr → Prop) : Task → Prop
  | .request _ _ k => ∀ o, Outcome.In P o → (k o).Raises P
  | .opening _ k => ∀ o, Outcome.In P o → (k o).Raises P
  | .sleeping k => ∀ o, Outcome.In P o → (k o).Raises P
  | .closing _ _ k => ∀ o, Outcome.In P o → (k o).Raises P
  | .locked k => ∀ o, Outcome.In P o → (k o).Raises P
  | .done o => Outcome.In P o

theorem makeMessage_plain (a b : Int) (d : Bytes) : PlainE (makeMessage a b d) := by
  unfold makeMessage
  exact plainE_bind (plainE_packU _ _) (fun _ => plainE_bind (plainE_packU _ _) (fun _ => plainE_bind (plainE_packU _ _) (fun _ => plainE_pure _)))

theorem sendMessage_plain (p : Proto) (n : Nat) (id code : Int) (data : Bytes) : PlainE (p.sendMessage n id code data) := by
  unfold Proto.sendMessage
  exact plainE_ite (plainE_bind (plainE_ok _) (fun _ => plainE_pure _)) (plainE_bind (makeMessage_plain _ _ _) (fun _ => plainE_bind (plainE_ok _) (fun _ => plainE_pure _)))

theorem awaitSend_plain (p : Proto) (code : Int) (data : Bytes) : PlainE (p.awaitSend code data).2 := by
  unfold Proto.awaitSend
  simp only []
  split
  · exact plainE_ok _
  · split
    · exact plainE_ok _
    · rename_i e he
      exact plainE_error (sendMessage_plain _ _ _ _ _ e he)

/-! ### How a request can end -/

theorem outcome_setReq {w : World} {t r : Nat} {q : Req} {x : PyErr} (h : (w.setReq t q).outcome r = some (.error x)) :
    w.outcome r = some (.error x) ∨ r = t ∧ q.phase = .done (.raised x) := by
  simp only [World.outcome, World.setReq, List.getElem?_set] at h
  by_cases e : t = r
  · right
    refine ⟨e.symm, ?_⟩
    simp only [e, if_true] at h
    split at h
    · rename_i q' hq
      split at hq
      · cases hq
        split at h
        · cases h
        · rename_i e' hp
          cases h
          exact hp
        · cases h
      · cases hq
    · cases h
  · left
    simp only [if_neg e] at h
    exact h

theorem endAttempt_plain {q : Req} {e x : PyErr} (he : e.plain = true) (h : (q.endAttempt e).phase = .done (.raised x)) : x.plain = true := by
  unfold Req.endAttempt at h
  split at h
  · cases h; exact he
  · cases h

theorem onCancelled_plain {q : Req} {b : Bool} {x : PyErr} (h : (q.onCancelled b).phase = .done (.raised x)) : x.plain = true := by
  unfold Req.onCancelled at h
  split at h
  · cases h
  · cases h; rfl

theorem replyError_plain (code : Int) : (replyError code).plain = true := by
  unfold replyError
  repeat' (first | rfl | split)

theorem onResult_plain {q : Req} {m : Msg} {x : PyErr} (h : (q.onResult m).phase = .done (.raised x)) : x.plain = true := by
  unfold Req.onResult at h
  split at h
  · cases h
  · split at h
    · cases h; rfl
    · exact endAttempt_plain (replyError_plain _) h

theorem onTimeout_plain {q : Req} {f : Option FutState} {x : PyErr} (h : (q.onTimeout f).phase = .done (.raised x)) : x.plain = true := by
  unfold Req.onTimeout at h
  split at h
  · exact onResult_plain h
  · exact endAttempt_plain rfl h

theorem startAttempt_outcome {w : World} {t r : Nat} {q : Req} {x : PyErr} (h : (w.startAttempt t q).outcome r = some (.error x)) :
    w.outcome r = some (.error x) ∨ x.plain = true := by
  have hs := awaitSend_plain w.p q.code q.data
  simp only [World.startAttempt] at h
  split at h
  · rcases outcome_setReq h with h | ⟨_, h⟩
    · exact .inl h
    · cases h
  · split at h
    · rcases outcome_setReq h with h | ⟨_, h⟩
      · exact .inl h
      · cases h; exact .inr rfl
    · split at h
      · rename_i p e he
        rcases outcome_setReq h with h | ⟨_, h⟩
        · exact .inl h
        · cases h; exact .inr (hs _ (by rw [he]))
      · split at h
        · rcases outcome_setReq h with h | ⟨_, h⟩
          · exact .inl h
          · exact .inr (onCancelled_plain h)
        · rcases outcome_setReq h with h | ⟨_, h⟩
          · exact .inl h
          · cases h

/-- How a request ends with an exception. -/
theorem step_outcome {w : World} {e : Event} {r : Nat} {x : PyErr} (h : (w.step e).outcome r = some (.error x)) :
    w.outcome r = some (.error x) ∨ x.plain = true ∨ e = .cancel r ∧ x = .cancelled := by
  cases e with
  | call code data n =>
    left
    simp only [World.outcome, World.step, List.getElem?_append] at h ⊢
    split at h
    · rename_i q hq
      split at hq
      · rw [hq]; exact h
      · rw [List.getElem?_singleton] at hq
        split at hq
        · cases hq; cases h
        · cases hq
    · cases h
  | run t =>
    simp only [World.step] at h
    split at h
    · split at h
      · exact (startAttempt_outcome h).imp id .inl
      · exact .inl h
    · exact .inl h
  | resume t =>
    simp only [World.step] at h
    split at h
    · split at h
      · split at h
        · exact .inl h
        · split at h
          · exact (outcome_setReq h).imp id (fun h => .inl (onCancelled_plain h.2))
          · split at h
            · exact (outcome_setReq h).imp id (fun h => .inl (onTimeout_plain h.2))
            · split at h
              · exact (outcome_setReq h).imp id (fun h => .inl (onResult_plain h.2))
              · exact (outcome_setReq h).imp id (fun h => .inl (onCancelled_plain h.2))
      · exact .inl h
    · exact .inl h
  | timeout t =>
    simp only [World.step] at h
    split at h
    · split at h
      · rcases outcome_setReq h with h | ⟨_, h⟩
        · exact .inl h
        · cases h
      · exact .inl h
    · exact .inl h
  | cancel t =>
    simp only [World.step] at h
    split at h
    · split at h
      · rcases outcome_setReq h with h | ⟨e, h⟩
        · exact .inl h
        · cases h; exact .inr (.inr ⟨by rw [e], rfl⟩)
      · rcases outcome_setReq h with h | ⟨_, h⟩
        · exact .inl h
        · cases h
      · rcases outcome_setReq h with h | ⟨e, h⟩
        · exact .inl h
        · cases h; exact .inr (.inr ⟨by rw [e], rfl⟩)
      · exact .inl h
    · exact .inl h
  | wake t =>
    simp only [World.step] at h
    split at h
    · split at h
      · exact (startAttempt_outcome h).imp id .inl
      · exact .inl h
    · exact .inl h
  | close force =>
    left
    simp only [World.step] at h
    split at h
    · exact h
    · exact h
  | lost => left; simp only [World.step] at h; split at h <;> exact h
  | cleanup => left; simp only [World.step] at h; split at h <;> exact h
  | closeResume c => left; simp only [World.step] at h; repeat' (first | exact h | split at h)
  | closeFinish c => left; simp only [World.step] at h; repeat' (first | exact h | split at h)
  | closeCancel c => left; simp only [World.step] at h; repeat' (first | exact h | split at h)
  | data b => exact .inl h
  | peerClose => exact .inl h
  | register a b => exact .inl h
  | unregister a => exact .inl h
  | unregisterAll => exact .inl h
  | enableKeepalive a => exact .inl h
  | disableKeepalive => exact .inl h
  | timerFire i => exact .inl h

theorem run_outcome {w : World} (l : List Event) {r : Nat} {x : PyErr} (h : (w.run l).outcome r = some (.error x)) :
    w.outcome r = some (.error x) ∨ x.plain = true ∨ .cancel r ∈ l ∧ x = .cancelled := by
  induction l generalizing w with
  | nil => exact .inl h
  | cons e l ih =>
    rcases ih (w := w.step e) h with h | h | ⟨h, hx⟩
    · rcases step_outcome h with h | h | ⟨h, hx⟩
      · exact .inl h
      · exact .inr (.inl h)
      · exact .inr (.inr ⟨by simp [h], hx⟩)
    · exact .inr (.inl h)
    · exact .inr (.inr ⟨List.mem_cons_of_mem _ h, hx⟩)

/-- A request that has just been made. -/
theorem ask_outcome {g : Gw} {t c : Nat} {code : Int} {data : Bytes} {n : Int} {o : Except PyErr (Option Bytes)}
    (h : (g.ask t c code data n).2.outcome c (g.ask t c code data n).1 = some o) : PlainE o := by
  rintro x rfl
  simp only [Gw.ask, Gw.outcome, Gw.note, Gw.net, List.getElem?_modify, if_true] at h
  cases hx : g.conns[c]? with
  | none => rw [hx] at h; simp at h
  | some y =>
    rw [hx] at h
    simp only [Option.map_some, Option.map_eq_map, Option.bind_some] at h
    rcases step_outcome h with h | h | ⟨h, _⟩
    · simp [World.outcome, World.step] at h
    · exact h
    · cases h

/-! ### How an `async_close` can end -/

/-- Without a cancellation inside `async_close` nobody gets one there. -/
theorem step_closer {w : World} {e : Event} (he : ∀ i, e ≠ .closeCancel i) (hs : w.spoiled = false) (hc : ∀ i : Nat, w.closers[i]? ≠ some Closer.cancelled) :
    ∀ i : Nat, (w.step e).closers[i]? ≠ some Closer.cancelled := by
  have sa : ∀ t q, (w.startAttempt t q).closers = w.closers := by
    intro t q
    simp only [World.startAttempt]
    repeat' (first | rfl | split)
  have set : ∀ (c : Nat) (x : Closer), x ≠ .cancelled → ∀ i : Nat, (w.closers.set c x)[i]? ≠ some Closer.cancelled := by
    intro c x hx i
    rw [List.getElem?_set]
    split
    · split
      · intro h; cases h; exact hx rfl
      · simp
    · exact hc i
  cases e with
  | closeCancel i => exact absurd rfl (he i)
  | call => exact hc
  | run t => simp only [World.step]; split <;> (try split) <;> first | exact hc | (rw [sa]; exact hc)
  | resume t => simp only [World.step]; repeat' (first | exact hc | split)
  | timeout t => simp only [World.step]; repeat' (first | exact hc | split)
  | cancel t => simp only [World.step]; repeat' (first | exact hc | split)
  | wake t => simp only [World.step]; split <;> (try split) <;> first | exact hc | (rw [sa]; exact hc)
  | data b => exact hc
  | lost => simp only [World.step]; split <;> exact hc
  | cleanup => simp only [World.step]; split <;> exact hc
  | peerClose => exact hc
  | close force =>
    have app : ∀ (x : Closer), x ≠ .cancelled → ∀ i : Nat, (w.closers ++ [x])[i]? ≠ some Closer.cancelled := by
      intro x hx i
      rw [List.getElem?_append]
      split
      · exact hc i
      · rw [List.getElem?_singleton]
        split
        · intro h; cases h; exact hx rfl
        · simp
    simp only [World.step]
    split
    · intro i
      simp only [World.closeTail]
      rw [List.getElem?_set]
      split
      · split
        · simp
        · simp
      · exact app _ (by simp) i
    · exact app _ (by simp)
  | closeResume c =>
    simp only [World.step, World.closeTail]
    repeat' (first | exact hc | exact set _ _ (by simp) | split)
  | closeFinish c =>
    simp only [World.step, hs, Bool.false_eq_true, if_false]
    repeat' (first | exact hc | exact set _ _ (by decide) | split)
  | register a b => exact hc
  | unregister a => exact hc
  | unregisterAll => exact hc
  | enableKeepalive a => exact hc
  | disableKeepalive => exact hc
  | timerFire i => exact hc

theorem run_closer (l : List Event) {w : World} (he : ∀ i, .closeCancel i ∉ l) (hs : w.spoiled = false) (hc : ∀ i : Nat, w.closers[i]? ≠ some Closer.cancelled) :
    (w.run l).spoiled = false ∧ ∀ i : Nat, (w.run l).closers[i]? ≠ some Closer.cancelled := by
  induction l generalizing w with
  | nil => exact ⟨hs, hc⟩
  | cons e l ih =>
    have he' : ∀ i, e ≠ .closeCancel i := fun i h => he i (by simp [h])
    refine ih (w := w.step e) (fun i h => he i (List.mem_cons_of_mem _ h)) ?_ (step_closer he' hs hc)
    cases h : (w.step e).spoiled with
    | false => rfl
    | true =>
      rcases step_spoiled w e h with h | ⟨i, h⟩
      · rw [hs] at h; cases h
      · exact absurd h (he' i)

/-- An `async_close` that has just been called. -/
theorem startClose_result {g : Gw} (hg : g.Unspoiled) (t c : Nat) (force : Bool) :
    (g.startClose t c force).2.closeResult c (g.startClose t c force).1 = .ok () := by
  rcases hx : g.conns[c]? with _ | y
  · simp [Gw.startClose, Gw.closeResult, Gw.note, Gw.net, List.getElem?_modify, hx]
  · have hy : y.w.spoiled = false := by
      have := hg c
      simp only [Gw.spoiled, hx] at this
      exact this
    have hs : (y.w.step (.close force)).spoiled = false := by
      cases h : (y.w.step (.close force)).spoiled with
      | false => rfl
      | true =>
        rcases step_spoiled _ _ h with h | ⟨i, h⟩
        · rw [hy] at h; cases h
        · cases h
    have hn : ((y.w.step (.close force)).step (.closeFinish y.w.closers.length)).closers[y.w.closers.length]? ≠ some Closer.cancelled := by
      have h1 : (y.w.step (.close force)).closers[y.w.closers.length]? ≠ some Closer.cancelled := by
        simp only [World.step]
        split
        · simp only [World.closeTail]
          rw [List.getElem?_set_self (by simp)]
          simp
        · rw [List.getElem?_append_right (Nat.le_refl _)]
          simp
      generalize y.w.step (.close force) = w at hs h1
      generalize y.w.closers.length = i at h1
      simp only [World.step, hs]
      split
      · rename_i ha
        have hl := lt_of_getElem? ha
        simp only [Bool.false_eq_true, if_false]
        split
        · simp [List.getElem?_set_self hl]
        · exact h1
      · exact h1
    simp only [Gw.startClose, Gw.closeResult, Gw.note, Gw.net, List.getElem?_modify, if_true, hx, Option.map_some, Option.map_eq_map, if_neg hn]

/-! ### One piece of execution -/

theorem unspoiled_ask {g : Gw} (hg : g.Unspoiled) (t c : Nat) (code : Int) (data : Bytes) (n : Int) : (g.ask t c code data n).2.Unspoiled := by
  simp only [Gw.ask]
  exact calms_same (f := fun g => g.note t (.ask c code data)) (fun _ => rfl) _ (unspoiled_net (unspoiled_net hg c (by simp)) c (by simp))

theorem unspoiled_close {g : Gw} (hg : g.Unspoiled) (t c : Nat) (force : Bool) : (g.startClose t c force).2.Unspoiled := by
  simp only [Gw.startClose]
  exact calms_same (f := fun g => g.note t (.cls c force)) (fun _ => rfl) _ (unspoiled_net (unspoiled_net hg c (by simp)) c (by simp))

theorem settle_raises {P : PyErr → Prop} (hP : ∀ e : PyErr, e.plain = true → P e) (t : Nat) :
    ∀ (co : Co Res) (g : Gw), co.Raises P → (P .cancelled ∨ g.Unspoiled) → (settle t co g).1.Raises P
  | .ret a, g, h, _ => fun e he => by cases he
  | .throw e, g, h, _ => fun e' he => by cases he; exact h
  | .get k, g, h, hg => settle_raises hP t (k g) g (h g) hg
  | .upd f k, g, h, hg => settle_raises hP t k _ h.2 (hg.imp id (fun u => calms_same (f := fun g' => { g' with log := g.log }) (fun _ => rfl) _ (h.1 g u)))
  | .request c code data r k, g, h, hg => by
    simp only [settle]
    split
    · rename_i o ho
      exact settle_raises hP t _ _ (h o (fun e he => hP e (ask_outcome ho e he)))
        (hg.imp id (fun u => calms_same (f := fun g => g.note t (.got o)) (fun _ => rfl) _ (unspoiled_ask u t c code data r)))
    · exact h
  | .openConn r k, g, h, _ => h
  | .sleep k, g, h, _ => h
  | .close c force k, g, h, hg => by
    simp only [settle]
    split
    · refine settle_raises hP t _ _ (h _ ?_) (hg.imp id (fun u => unspoiled_close u t c force))
      intro e he
      rcases hg with hc | u
      · simp only [Gw.closeResult] at he
        split at he
        · split at he
          · cases he; exact hc
          · cases he
        · cases he
      · rw [startClose_result u] at he
        cases he
    · exact h
  | .acquire k, g, h, hg => by
    simp only [settle]
    split
    · exact settle_raises hP t _ _ (h _ (fun e he => by cases he)) (hg.imp id (fun u => calms_same (f := fun g => g.take t) (fun _ => rfl) _ u))
    · exact h

/-- A request a task has just begun to wait for has not ended. -/
theorem settle_fresh (t : Nat) : ∀ (co : Co Res) (g : Gw) {c r : Nat} {k : Except PyErr (Option Bytes) → Co Res},
    (settle t co g).1 = .request c r k → (settle t co g).2.outcome c r = none
  | .ret a, g, _, _, _, h => by cases h
  | .throw e, g, _, _, _, h => by cases h
  | .get k, g, _, _, _, h => settle_fresh t (k g) g h
  | .upd f k, g, _, _, _, h => settle_fresh t k _ h
  | .request c code data r k, g, _, _, _, h => by
    simp only [settle] at h ⊢
    split at h
    · exact settle_fresh t _ _ h
    · rename_i ho
      cases h
      exact ho
  | .openConn r k, g, _, _, _, h => by cases h
  | .sleep k, g, _, _, _, h => by cases h
  | .close c force k, g, _, _, _, h => by
    simp only [settle] at h ⊢
    split at h
    · rename_i hc
      rw [if_pos hc]
      exact settle_fresh t _ _ h
    · cases h
  | .acquire k, g, _, _, _, h => by
    simp only [settle] at h ⊢
    split at h
    · rename_i hc
      rw [if_pos hc]
      exact settle_fresh t _ _ h
    · cases h

theorem unspoiled_add {g : Gw} (hg : g.Unspoiled) : g.addConn.Unspoiled := by
  intro c
  have := hg c
  simp only [Gw.spoiled, Gw.addConn, List.getElem?_append] at this ⊢
  by_cases hl : c < g.conns.length
  · simpa [hl] using this
  · simp only [hl, if_false, List.getElem?_singleton]
    split <;> first | rfl | (rename_i x hx; split at hx <;> first | (cases hx; rfl) | cases hx)

/-- One step keeps what is known about task `t`. -/
theorem step_raises {E : Env} (hE : E.Plain) {P : PyErr → Prop} (hP : ∀ e : PyErr, e.plain = true → P e) (s : Sys) (ev : Ev) (t : Nat)
    (h : ∀ x : Task, s.tasks[t]? = some x → x.Raises P) (hc : ev = .cancel t → P .cancelled)
    (hr : ∀ (c r : Nat) (k : Except PyErr (Option Bytes) → Co Res), s.tasks[t]? = some (.request c r k) → ∀ o, s.g.outcome c r = some o → Outcome.In P o)
    (hq : ∀ (c i : Nat) (k : Except PyErr Unit → Co Res), s.tasks[t]? = some (.closing c i k) → Outcome.In P (s.g.closeResult c i))
    (hu : P .cancelled ∨ s.g.Unspoiled) :
    ∀ x : Task, (s.step E ev).tasks[t]? = some x → x.Raises P := by
  have ok : ∀ {α : Type} (a : α), Outcome.In P (.ok a) := fun a e he => by cases he
  have put : ∀ (t' : Nat) (co : Co Res) (g : Gw), (t' = t → co.Raises P) → (P .cancelled ∨ g.Unspoiled) →
      ∀ (x : Task), (s.put t' (settle t' co g)).tasks[t]? = some x → x.Raises P := by
    intro t' co g hco hg x hx
    simp only [Sys.put, List.getElem?_set] at hx
    split at hx
    · rename_i e
      split at hx
      · cases hx; exact settle_raises hP t' co g (hco e) hg
      · cases hx
    · exact h x hx
  have spawn : ∀ (g : Gw) (co : Co Res), co.Raises P → (P .cancelled ∨ g.Unspoiled) → ∀ (x : Task), (Sys.spawn { s with g := g } co).tasks[t]? = some x → x.Raises P := by
    intro g co hco hg x hx
    simp only [Sys.spawn, List.getElem?_append] at hx
    split at hx
    · exact h x hx
    · rw [List.getElem?_singleton] at hx
      split at hx
      · cases hx; exact settle_raises hP _ co _ hco hg
      · cases hx
  have same : ∀ {g' : Gw}, g'.conns = s.g.conns → P .cancelled ∨ g'.Unspoiled := by
    intro g' e
    refine hu.imp id (fun u c => ?_)
    have := u c
    simpa only [Gw.spoiled, e] using this
  cases ev with
  | call a => exact spawn s.g _ (rs_call E hP hE a) hu
  | opened t' okb =>
    simp only [Sys.step]
    split
    · rename_i r k hk
      split
      · refine put t' _ _ (fun e => ?_) (hu.imp id unspoiled_add)
        subst e
        exact Co.rs_bindE (h _ hk) _ (rs_afterOpen E hP hE r _)
      · refine put t' _ _ (fun e => ?_) hu
        subst e
        exact h _ hk _ (fun e he => by cases he; exact hP _ rfl)
    · exact h
  | resume t' =>
    simp only [Sys.step]
    split
    · rename_i c r k hk
      split
      · rename_i o ho
        refine put t' _ _ (fun e => ?_) (same rfl)
        subst e
        exact h _ hk _ (hr c r k hk o ho)
      · exact h
    · rename_i k hk
      refine put t' _ _ (fun e => ?_) hu
      subst e
      exact h _ hk _ (ok _)
    · rename_i c i k hk
      split
      · refine put t' _ _ (fun e => ?_) hu
        subst e
        exact h _ hk _ (hq c i k hk)
      · exact h
    · rename_i k hk
      split
      · refine put t' _ _ (fun e => ?_) (same rfl)
        subst e
        exact h _ hk _ (ok _)
      · exact h
    · exact h
  | cancel t' =>
    simp only [Sys.step]
    split
    · rename_i r k hk
      refine put t' _ _ (fun e => ?_) hu
      subst e
      exact h _ hk _ (fun e he => by cases he; exact hc rfl)
    · rename_i k hk
      refine put t' _ _ (fun e => ?_) hu
      subst e
      exact h _ hk _ (fun e he => by cases he; exact hc rfl)
    · rename_i k hk
      refine put t' _ _ (fun e => ?_) (same rfl)
      subst e
      exact h _ hk _ (fun e he => by cases he; exact hc rfl)
    · exact h
  | ping c =>
    simp only [Sys.step]
    split
    · split
      · exact spawn _ _ (rs_ping hP) (hu.imp id (fun u => calms_modify (f := fun x => { x with pinged := x.pinged + 1 }) c (fun _ => rfl) _ u))
      · exact h
    · exact h
  | runUnsub =>
    simp only [Sys.step]
    split
    · exact spawn _ _ (rs_unsub hP) (same rfl)
    · exact h
  | setMaxRetries n => exact h
  | unsubscribe u => exact h
  | registerHandler code k => simp only [Sys.step]; split <;> exact h
  | removeHandler code => simp only [Sys.step]; split <;> exact h
  | net c e => simp only [Sys.step]; split <;> exact h
  | handle c => exact h
  | tick now => exact h

/-- Requests end with plain exceptions, or because somebody cancelled them. -/
theorem after_outcome (E : Env) (clientId maxRetries : Int) (es : List Ev) {c r : Nat} {x : PyErr}
    (h : (after E clientId maxRetries es).g.outcome c r = some (.error x)) : x.plain = true ∨ x = .cancelled ∧ .net c (.cancel r) ∈ es := by
  simp only [Gw.outcome] at h
  cases hx : (after E clientId maxRetries es).g.conns[c]? with
  | none => rw [hx] at h; simp at h
  | some y =>
    rw [hx, Option.bind_some] at h
    obtain ⟨l, hl, ht⟩ := after_traced E clientId maxRetries es hx
    rw [hl] at h
    rcases run_outcome l h with h | h | ⟨h, hx⟩
    · simp [World.outcome, World.init] at h
    · exact .inl h
    · refine .inr ⟨hx, ?_⟩
      rcases ht _ h with h | h
      · cases h
      · exact h

/-- Without cancellations inside `async_close`. -/
theorem after_uncancelled (E : Env) (clientId maxRetries : Int) (es : List Ev) (hn : ∀ c i, .net c (.closeCancel i) ∉ es) :
    (after E clientId maxRetries es).g.Unspoiled ∧ ∀ c i, (after E clientId maxRetries es).g.closeResult c i = .ok () := by
  have key : ∀ (c : Nat) (y : Conn), (after E clientId maxRetries es).g.conns[c]? = some y → y.w.spoiled = false ∧ ∀ i : Nat, y.w.closers[i]? ≠ some Closer.cancelled := by
    intro c y hx
    obtain ⟨l, hl, ht⟩ := after_traced E clientId maxRetries es hx
    rw [hl]
    refine run_closer l (fun i hi => ?_) rfl (by simp [World.init])
    rcases ht _ hi with h | h
    · cases h
    · exact hn c i h
  constructor
  · intro c
    simp only [Gw.spoiled]
    split
    · rename_i y hy; exact (key c y hy).1
    · rfl
  · intro c i
    simp only [Gw.closeResult]
    split
    · rename_i y hy; rw [if_neg ((key c y hy).2 i)]
    · rfl

end SL
