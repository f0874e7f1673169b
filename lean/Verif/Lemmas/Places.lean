import Verif.Lemmas.Fields
import Verif.Props.ConfigProps
/-! # The places of the readings, decoder by decoder -/
set_option linter.unusedVariables false
set_option maxRecDepth 20000
namespace SL
open Prog (rd rdString rdArray rdTime rdMsgString offset store setdefault lookup throw loop forRange)

theorem says_fixed {D : Decoder} {m : Bytes} {p : Path} {f : Place} {x : Int} {v : Val} (hf : aget p (places D) = some f)
    (hv : v = f.shows.value x) (hx : NumAt m f.at' f.fmt x) : Tells D m p v :=
  .fixed D m p f v (mem_of_aget hf) ⟨x, by rw [Nat.zero_add]; exact hx, hv⟩

macro "fi_view" : tactic => `(tactic| first
  | exact rfl
  | exact show_flag 0 | exact show_flag 1 | exact show_flag 2 | exact show_flag 3 | exact show_flag 4 | exact show_flag 5
  | exact show_flag 6 | exact show_flag 7)

macro "fi_step" : tactic =>
  `(tactic| first
    | (refine fi_rd (fun _ _ => ?_))
    | (refine fi_rdString (fun _ _ => ?_))
    | (refine fi_rdArray (fun _ _ => ?_))
    | (refine fi_rdTime (fun _ => ?_))
    | (refine fi_rdMsgString (fun _ => ?_))
    | (refine fi_offset ?_)
    | (refine fi_store rfl (fi_known rfl (says_fixed rfl (by fi_view) (by assumption))) ?_)
    | (refine fi_store rfl (fi_untold (by fi_untold)) ?_)
    | (refine fi_store rfl (fi_untold (by fi_unk)) ?_)
    | (refine fi_store rfl (fi_empty rfl) ?_)
    | (refine fi_setdefault rfl (by fi_untold) ?_)
    | exact fi_throw
    | exact fi_pure trivial)
macro "fi_last" : tactic =>
  `(tactic| first
    | exact fi_store' rfl (fi_known rfl (says_fixed rfl (by fi_view) (by assumption))) trivial
    | exact fi_store' rfl (fi_untold (by fi_untold)) trivial
    | exact fi_store' rfl (fi_untold (by fi_unk)) trivial)

theorem shown_scg (m : Bytes) : Shown .scg m decodeScg 0 (fun _ _ => True) := by
  unfold decodeScg
  repeat fi_step

theorem shown_unit (D : Decoder) (m : Bytes) (o : Nat) : Shown D m getTemperatureUnit o (fun _ o' => o' = o) := by
  unfold getTemperatureUnit
  refine fi_lookup (fun v => ?_)
  cases v <;> exact fi_pure rfl

theorem shown_chemistryA (m : Bytes) : Shown .chemistry m decodeChemistryA 0 (fun _ o' => o' = 27) := by
  unfold decodeChemistryA
  repeat fi_step
  exact fi_pure rfl
theorem shown_chemistryB (m : Bytes) : Shown .chemistry m decodeChemistryB 27 (fun _ o' => o' = 37) := by
  unfold decodeChemistryB
  fi_step
  rename_i x hx
  refine fi_store rfl (fi_known rfl (says_fixed rfl (show_signed hx) hx)) ?_
  repeat fi_step
  refine fi_bind _ (shown_unit _ _ _) (fun u o' ho => ?_)
  subst ho
  repeat fi_step
  exact fi_pure rfl
theorem shown_chemistryC (m : Bytes) : Shown .chemistry m decodeChemistryC 37 (fun _ o' => o' = 40) := by
  unfold decodeChemistryC
  repeat fi_step
  rename_i x hx
  have hb : x.toNat < 256 := by have := numAt_byte hx; omega
  refine fi_store rfl (fi_known rfl (says_fixed rfl (show_pair 4 (.inl rfl) hb) hx)) ?_
  exact fi_store' rfl (fi_known rfl (says_fixed rfl (show_pair 6 (.inr rfl) hb) hx)) rfl
theorem firmware_words {m : Bytes} {o o' : Nat} {minor major : Int} (h1 : NumAt m o .B minor) (h2 : NumAt m o' .B major) :
    toString major ++ "." ++ fmt03 minor.toNat = String.ofList (Spec.shortDecimal major.toNat ++ ['.'] ++ Spec.threeDigits minor.toNat) := by
  have b1 := numAt_byte h1
  have b2 := numAt_byte h2
  have e1 : ∀ n : Nat, n < 256 → (toString (n : Int)) = String.ofList (Spec.shortDecimal n) := by decide +kernel
  have e2 : ∀ n : Nat, n < 256 → fmt03 n = String.ofList (Spec.threeDigits n) := by decide +kernel
  have hm : major = (major.toNat : Int) := by omega
  have := e1 major.toNat (by omega)
  rw [← hm] at this
  rw [this, e2 minor.toNat (by omega), String.ofList_append, String.ofList_append]
theorem shown_chemistryD (m : Bytes) : Shown .chemistry m decodeChemistryD 40 (fun _ _ => True) := by
  unfold decodeChemistryD
  fi_step
  fi_step
  refine fi_rd (fun minor h1 => ?_)
  refine fi_rd (fun major h2 => ?_)
  refine fi_store rfl (fi_known rfl ?_) ?_
  · rw [firmware_words h1 h2]
    exact .chemFirmware m minor major h1 h2
  repeat fi_step
theorem shown_chemistry (m : Bytes) : Shown .chemistry m decodeChemistry 0 (fun _ _ => True) := by
  refine fi_bind _ (shown_chemistryA m) (fun _ o h => ?_)
  subst h
  refine fi_bind _ (shown_chemistryB m) (fun _ o h => ?_)
  subst h
  refine fi_bind _ (shown_chemistryC m) (fun _ o h => ?_)
  subst h
  exact shown_chemistryD m

theorem shown_dateTime (now : Rat) (m : Bytes) : Shown (.dateTime now) m (decodeDateTime now) 0 (fun _ _ => True) := by
  unfold decodeDateTime
  repeat fi_step
theorem shown_colorUpdate (m : Bytes) : Shown .colorUpdate m decodeColorUpdate 0 (fun _ _ => True) := by
  unfold decodeColorUpdate
  repeat fi_step


/-! ## Messages of variable length -/

/-- No operation touches a told reading. -/
def opU : Op → Prop
  | .set p _ => under p = true ∧ ¬ Told p
  | .setdef p _ => under p = true ∧ ¬ Told p
  | _ => True
theorem shown_apart {D : Decoder} {m : Bytes} {α : Type} {p : Prog α} (h : AllOps opU p) (o : Nat) : Shown D m p o (fun _ _ => True) := by
  induction p generalizing o with
  | pure a => trivial
  | raise e => trivial
  | num f k ih => exact fun x _ => ih x (h x) _
  | str k ih => exact fun x o' => ih x (h x) o'
  | arr k ih => exact fun x o' => ih x (h.2 x) o'
  | time k ih => exact fun x => ih x (h x) _
  | msgStr k ih => exact fun x _ => ih x (h.2 x) _
  | off k ih => exact ih o (h o) o
  | set p x k ih => exact ⟨h.1.1, fun v ht => absurd ht h.1.2, ih h.2 o⟩
  | setdef p x k ih => exact ⟨h.1.1, h.1.2, ih h.2 o⟩
  | get p k ih => exact fun v => ih v (h.2 v) o

section
variable {α : Type}
theorem ap_rd {g : Fmt} {k : Int → Prog α} (h : ∀ x, AllOps opU (k x)) : AllOps opU (rd g >>= k) := h
theorem ap_rdString {k : String → Prog α} (h : ∀ x, AllOps opU (k x)) : AllOps opU (rdString >>= k) := h
theorem ap_rdArray {k : List Int → Prog α} (h : ∀ x, AllOps opU (k x)) : AllOps opU (rdArray >>= k) := ⟨trivial, h⟩
theorem ap_rdMsgString {k : String → Prog α} (h : ∀ x, AllOps opU (k x)) : AllOps opU (rdMsgString >>= k) := ⟨trivial, h⟩
theorem ap_offset {k : Nat → Prog α} (h : ∀ x, AllOps opU (k x)) : AllOps opU (offset >>= k) := h
theorem ap_store {p : Path} {x : Val} {k : Unit → Prog α} (hu : under p = true) (h : ¬ Told p) (hk : AllOps opU (k ())) :
    AllOps opU (store p x >>= k) := ⟨⟨hu, h⟩, hk⟩
theorem ap_store' {p : Path} {x : Val} (hu : under p = true) (h : ¬ Told p) : AllOps opU (store p x) := ⟨⟨hu, h⟩, trivial⟩
theorem ap_setdefault {p : Path} {x : Val} {k : Unit → Prog α} (hu : under p = true) (h : ¬ Told p) (hk : AllOps opU (k ())) :
    AllOps opU (setdefault p x >>= k) := ⟨⟨hu, h⟩, hk⟩
theorem ap_lookup {p : Path} {k : Option Val → Prog α} (hk : ∀ v, AllOps opU (k v)) : AllOps opU (lookup p >>= k) := ⟨trivial, hk⟩
theorem ap_pure {a : α} : AllOps opU (pure a : Prog α) := trivial
theorem ap_throw {e : PyErr} : AllOps opU (throw (α := α) e) := trivial
theorem ap_bind {β : Type} {p : Prog β} {k : β → Prog α} (h : AllOps opU p) (hk : ∀ a, AllOps opU (k a)) : AllOps opU (p >>= k) :=
  allOps_bind h hk
theorem ap_loop {σ : Type} {body : Nat → σ → Prog σ} (h : ∀ i s, AllOps opU (body i s)) (n i : Nat) (s : σ) :
    AllOps opU (loop body n i s) := allOps_loop h n i s
theorem ap_forRange {body : Nat → Prog Unit} (h : ∀ i, AllOps opU (body i)) (n : Nat) : AllOps opU (forRange n body) :=
  allOps_loop (fun i _ => h i) n 0 ()
end

macro "ap_step" : tactic =>
  `(tactic| first
    | (refine ap_rd (fun _ => ?_))
    | (refine ap_rdString (fun _ => ?_))
    | (refine ap_rdArray (fun _ => ?_))
    | (refine ap_rdMsgString (fun _ => ?_))
    | (refine ap_offset (fun _ => ?_))
    | (refine ap_store rfl (by fi_untold) ?_)
    | (refine ap_store rfl (by fi_unk) ?_)
    | (refine ap_store' rfl (by fi_untold))
    | (refine ap_store' rfl (by fi_unk))
    | (refine ap_setdefault rfl (by fi_untold) ?_)
    | exact ap_throw
    | exact ap_pure)

theorem apart_subscript (v : Val) (k : Key) : AllOps opU (subscript v k) := by
  unfold subscript
  split
  · split <;> trivial
  · trivial
theorem apart_copySetpoints (i : Int) (o : Option Val) (t : Int) : AllOps opU (copySetpoints i o t) := by
  unfold copySetpoints
  split
  · split
    · split
      · refine ap_bind (apart_subscript _ _) (fun _ => ?_)
        ap_step
        refine ap_bind (apart_subscript _ _) (fun _ => ?_)
        repeat ap_step
      · exact ap_pure
    · exact ap_pure
  · split
    · exact ap_throw
    · exact ap_pure
  · exact ap_pure

/-- A program that reads nothing stays where it is. -/
def Blind {α : Type} : Prog α → Prop
  | .pure _ => True
  | .raise _ => True
  | .set _ _ k => Blind k
  | .setdef _ _ k => Blind k
  | .get _ k => ∀ v, Blind (k v)
  | _ => False
theorem blind_bind {α β : Type} {p : Prog α} {k : α → Prog β} (h : Blind p) (hk : ∀ a, Blind (k a)) : Blind (p.bind k) := by
  induction p with
  | pure a => exact hk a
  | raise e => trivial
  | set p x k ih => exact ih h
  | setdef p x k ih => exact ih h
  | get p k ih => exact fun v => ih v (h v)
  | _ => exact absurd h (by simp [Blind])
theorem shown_blind {D : Decoder} {m : Bytes} {α : Type} {p : Prog α} (h : AllOps opU p) (hb : Blind p) (o : Nat) : Shown D m p o (fun _ o' => o' = o) := by
  induction p with
  | pure a => rfl
  | raise e => trivial
  | set p x k ih => exact ⟨h.1.1, fun v ht => absurd ht h.1.2, ih h.2 hb⟩
  | setdef p x k ih => exact ⟨h.1.1, h.1.2, ih h.2 hb⟩
  | get p k ih => exact fun v => ih v (h.2 v) (hb v)
  | _ => exact absurd hb (by simp [Blind])
theorem blind_subscript (v : Val) (k : Key) : Blind (subscript v k) := by
  unfold subscript
  split
  · split <;> trivial
  · trivial
theorem blind_copySetpoints (i : Int) (o : Option Val) (t : Int) : Blind (copySetpoints i o t) := by
  unfold copySetpoints
  split
  · split
    · split
      · refine blind_bind (blind_subscript _ _) (fun lo => ?_)
        show Blind ((subscript _ _).bind (fun hi => store [.s "body", .i i, .s "max_setpoint"] hi))
        exact blind_bind (blind_subscript _ _) (fun _ => trivial)
      · trivial
    · trivial
  · split <;> trivial
  · trivial

theorem says_body {m : Bytes} {k : Nat} {key : String} {f : Place} {v : Val} {n x : Int} (hn : NumAt m 16 .I n) (hk : k < min n.toNat 2)
    (hf : aget key bodyPlaces = some f) (hv : v = f.shows.value x) (hx : NumAt m (20 + 24 * k + f.at') f.fmt x) : Tells .status m [.s "body", .i k, .s key] v :=
  .body m k key f v n hn hk (mem_of_aget hf) ⟨x, hx, hv⟩

theorem shown_body (u : String) (sp : Option Val) (m : Bytes) {n : Int} (hn : NumAt m 16 .I n) (k : Nat) (hk : k < min n.toNat 2) :
    Shown .status m (decodeBody u sp k) (20 + 24 * k) (fun _ o' => o' = 20 + 24 * (k + 1)) := by
  unfold decodeBody
  repeat fi_step
  refine fi_bind _ (shown_blind (apart_copySetpoints _ _ _) (blind_copySetpoints _ _ _) _) (fun _ o' h => ?_)
  subst h
  fi_step
  fi_step
  refine fi_store rfl (fi_known rfl (says_body hn hk rfl rfl (by assumption))) ?_
  fi_step
  refine fi_store rfl (fi_known rfl (says_body hn hk rfl rfl (by assumption))) ?_
  fi_step
  refine fi_store rfl (fi_known rfl (says_body hn hk rfl rfl (by assumption))) ?_
  fi_step
  refine fi_store rfl (fi_known rfl (says_body hn hk rfl rfl (by assumption))) ?_
  fi_step
  refine fi_store' rfl (fi_known rfl (says_body hn hk rfl rfl (by assumption))) ?_
  exact rfl

theorem shown_statusHead (m : Bytes) : Shown .status m decodeStatusHead 0 (fun _ o' => o' = 16) := by
  unfold decodeStatusHead
  repeat fi_step
  refine fi_bind _ (shown_unit _ _ _) (fun u o' ho => ?_)
  subst ho
  repeat fi_step
  exact fi_pure rfl

theorem shown_statusCircuit (m : Bytes) {n c : Int} (hn : NumAt m 16 .I n) (hc : NumAt m (20 + 24 * min n.toNat 2) .I c) (j : Nat) (hj : j < c.toNat) :
    Shown .status m (decodeStatusCircuit j) (24 + 24 * min n.toNat 2 + 12 * j) (fun _ o' => o' = 24 + 24 * min n.toNat 2 + 12 * (j + 1)) := by
  unfold decodeStatusCircuit
  refine fi_rd (fun id hid => ?_)
  fi_step
  fi_step
  refine fi_rd (fun x hx => ?_)
  refine fi_store rfl (fi_known rfl (.circuit m id j _ n c hn hc hj hid ⟨x, hx, rfl⟩)) ?_
  repeat fi_step
  exact fi_pure rfl

theorem says_tail {m : Bytes} {p : Path} {f : Place} {v : Val} {n c x : Int} (hn : NumAt m 16 .I n) (hc : NumAt m (20 + 24 * min n.toNat 2) .I c)
    (hf : aget p tailPlaces = some f) (hv : v = f.shows.value x) (hx : NumAt m (24 + 24 * min n.toNat 2 + 12 * c.toNat + f.at') f.fmt x) : Tells .status m p v :=
  .tail m p f v n c hn hc (mem_of_aget hf) ⟨x, hx, hv⟩

theorem shown_statusTail (m : Bytes) {n c : Int} (hn : NumAt m 16 .I n) (hc : NumAt m (20 + 24 * min n.toNat 2) .I c) :
    Shown .status m decodeStatusTail (24 + 24 * min n.toNat 2 + 12 * c.toNat) (fun _ _ => True) := by
  unfold decodeStatusTail
  iterate 6
    fi_step
    refine fi_store rfl (fi_known rfl (says_tail hn hc rfl rfl (by assumption))) ?_
  fi_step
  exact fi_store' rfl (fi_known rfl (says_tail hn hc rfl rfl (by assumption))) trivial

theorem shown_status (m : Bytes) : Shown .status m decodeStatus 0 (fun _ _ => True) := by
  unfold decodeStatus
  refine fi_bind _ (shown_statusHead m) (fun u o h => ?_)
  subst h
  refine fi_rd (fun n hn => ?_)
  refine fi_lookup (fun sp => ?_)
  fi_step
  refine fi_bind _ (shown_forRange (fun i o => o = 20 + 24 * i) (fun i o hi h => by subst h; exact shown_body u sp m hn i hi) rfl) (fun _ o h => ?_)
  subst h
  refine fi_rd (fun c hc => ?_)
  fi_step
  refine fi_bind _ (shown_forRange (fun i o => o = 24 + 24 * min n.toNat 2 + 12 * i) (fun i o hi h => by subst h; exact shown_statusCircuit m hn hc i hi)
    (by show 20 + _ + 4 = _; omega)) (fun _ o h => ?_)
  subst h
  exact shown_statusTail m hn hc

theorem shown_setpoints (i : Nat) (m : Bytes) (o : Nat) : Shown .config m (decodeSetpoints i) o (fun _ o' => o' = o + 2) := by
  unfold decodeSetpoints
  repeat fi_step
  exact fi_pure rfl
theorem apart_configRest (n : Nat) {α : Type} (k : Unit → Prog α) (h : AllOps opU (k ())) : AllOps opU (forRange n decodeConfigCircuit >>= k) :=
  ap_bind (ap_forRange (fun i => by unfold decodeConfigCircuit; repeat ap_step) _) (fun _ => h)
theorem shown_config (m : Bytes) : Shown .config m decodeConfig 0 (fun _ _ => True) := by
  unfold decodeConfig
  refine fi_bind (fun _ _ => True) ?_ (fun _ o _ => shown_apart ?_ o)
  · unfold decodeConfigHead
    iterate 5 fi_step
    refine fi_bind _ (shown_forRange (fun i o => o = 4 + 2 * i) (fun i o hi h => by subst h; exact shown_setpoints i m _) rfl) (fun _ o h => ?_)
    subst h
    fi_step
    fi_step
    refine fi_rd (fun c hc => ?_)
    fi_step
    refine fi_rd (fun h hh => ?_)
    fi_step
    refine fi_store rfl (fi_known rfl ?_) ?_
    · rw [C69_model_name]
      exact .model m c h hc hh
    refine shown_apart ?_ _
    repeat ap_step
    refine ap_lookup (fun _ => ?_)
    refine ap_bind (by unfold maskFlags; split <;> first | exact ap_pure | exact ap_throw) (fun _ => ?_)
    repeat ap_step
  · repeat ap_step
    refine ap_bind (ap_forRange (fun i => by unfold decodeConfigCircuit; repeat ap_step) _) (fun _ => ?_)
    ap_step; ap_step
    refine ap_bind (ap_loop (fun i s => by unfold decodeColor; repeat ap_step) _ _ _) (fun _ => ?_)
    ap_step; ap_step
    refine ap_bind (ap_forRange (fun i => by unfold decodePumpData; repeat ap_step) _) (fun _ => ?_)
    repeat ap_step

theorem apart_nameFromCircuits (dev : Int) (kv : List (Key × Val)) (n : String) : AllOps opU (nameFromCircuits dev kv n) := by
  induction kv with
  | nil => exact ap_pure
  | cons a rest ih =>
    unfold nameFromCircuits
    refine ap_bind (apart_subscript _ _) (fun d => ?_)
    split
    · refine ap_bind (apart_subscript _ _) (fun x => ?_)
      cases x <;> first | exact ap_pure | exact ap_throw
    · exact ih
theorem says_pump {i : Int} {m : Bytes} {key : String} {f : Place} {v : Val} {x : Int} (hf : aget key pumpPlaces = some f)
    (hv : v = f.shows.value x) (hx : NumAt m f.at' f.fmt x) : Tells (.pump i) m [.s "pump", .i i, .s key] v :=
  .pump i m key f v (mem_of_aget hf) ⟨x, by rw [Nat.zero_add]; exact hx, hv⟩
theorem shown_pump (i : Int) (m : Bytes) : Shown (.pump i) m (decodePump i) 0 (fun _ _ => True) := by
  unfold decodePump
  iterate 6 fi_step
  refine fi_bind _ (shown_blind (by unfold setPumpState; split <;> repeat ap_step) (by unfold setPumpState; split <;> trivial) _) (fun _ o h => ?_)
  subst h
  refine fi_rd (fun w hw => ?_)
  fi_step
  refine fi_rd (fun r hr => ?_)
  fi_step; fi_step; fi_step
  refine fi_rd (fun g hg => ?_)
  iterate 4 fi_step
  refine fi_bind _ (shown_apart (ap_loop (fun j s => ?_) _ _ _) _) (fun name o _ => ?_)
  · unfold decodePreset
    ap_step; ap_step; ap_step
    refine ap_lookup (fun v => ?_)
    refine ap_bind ?_ (fun _ => ?_)
    · unfold pumpName
      split
      · exact ap_pure
      · exact apart_nameFromCircuits _ _ _
      · exact ap_throw
    repeat ap_step
  · unfold decodePumpTail
    fi_step
    refine fi_store rfl (fi_known rfl (says_pump rfl rfl hw)) ?_
    refine fi_store rfl (fi_known rfl (says_pump rfl rfl hr)) ?_
    exact fi_store' rfl (fi_known rfl (says_pump rfl rfl hg)) trivial

theorem apart_floatPart (g : String → Except PyErr Rat) (parts : List String) (i : Nat) : AllOps opU (floatPart g parts i) := by
  unfold floatPart
  split
  · trivial
  · split <;> trivial
theorem blind_floatPart (g : String → Except PyErr Rat) (parts : List String) (i : Nat) : Blind (floatPart g parts i) := by
  unfold floatPart
  split
  · trivial
  · split <;> trivial
theorem shown_version (g : String → Except PyErr Rat) (m : Bytes) : Shown .version m (decodeVersion g) 0 (fun _ _ => True) := by
  unfold decodeVersion
  fi_step
  refine fi_rdMsgString (fun t ht => ?_)
  refine fi_bind _ (shown_blind (apart_floatPart _ _ _) (blind_floatPart _ _ _) _) (fun _ o h => ?_)
  refine fi_bind _ (shown_blind (apart_floatPart _ _ _) (blind_floatPart _ _ _) _) (fun _ o h => ?_)
  refine fi_store' rfl (fi_known rfl ?_) trivial
  rcases C73_text_only m with ⟨s, u, body, rest, h1, h2, h3⟩ | h1 | h1
  · rw [ht] at h1
    cases h1
    exact .firmware m t u body rest h2 h3
  · rw [ht] at h1; cases h1
  · rw [ht] at h1; cases h1
theorem apart_equipArray (k : String) (h : sheet [.s "equipment", .s k] = none) : AllOps opU (decodeEquipArray k) := by
  unfold decodeEquipArray
  ap_step
  exact ap_store' rfl (untold h (fun _ e => absurd (congrArg List.length e) (by simp)))
theorem apart_equipment : AllOps opU decodeEquipment := by
  unfold decodeEquipment
  iterate 13 ap_step
  iterate 11 (refine ap_bind (apart_equipArray _ rfl) (fun _ => ?_))
  exact apart_equipArray _ rfl

theorem Decoder.shown (f : String → Except PyErr Rat) (D : Decoder) (m : Bytes) : Shown D m (D.prog f) 0 (fun _ _ => True) := by
  cases D with
  | status => exact shown_status m
  | config => exact shown_config m
  | scg => exact shown_scg m
  | chemistry => exact shown_chemistry m
  | pump i => exact shown_pump i m
  | colorUpdate => exact shown_colorUpdate m
  | version => exact shown_version f m
  | dateTime now => exact shown_dateTime now m
  | equipment => exact shown_apart apart_equipment 0

end SL
