import Verif.Lemmas.Profile
/-!
# C51-C62: the message decoders
-/
namespace SL
open Spec
open Prog (rd rdString rdArray rdTime rdMsgString offset store setdefault lookup throw loop forRange)

/-! ## Reachable data is well-shaped -/

/-- The profile of each decoder. -/
def Decoder.profile : Decoder → Profile
  | .status => pfStatus
  | .config => pfConfig
  | .scg => pfScg
  | .chemistry => pfChem
  | .pump _ => pfPump
  | .colorUpdate => pfController
  | .version => pfVersion
  | .dateTime _ => pfController
  | .equipment => pfEquipment

theorem Decoder.fits (f : String → Except PyErr Rat) (D : Decoder) : Conforms D.profile (D.prog f) := by
  cases D with
  | status => exact fits_status
  | config => exact fits_config
  | scg => exact fits_scg
  | chemistry => exact fits_chemistry
  | pump i => exact fits_pump i
  | colorUpdate => exact fits_colorUpdate
  | version => exact fits_version f
  | dateTime now => exact fits_dateTime now
  | equipment => exact fits_equipment

theorem Decoder.disc (f : String → Except PyErr Rat) (D : Decoder) : Disc (D.prog f) [[]] (fun _ _ => True) := by
  cases D with
  | status => exact disc_status
  | config => exact disc_config
  | scg => exact disc_scg
  | chemistry => exact disc_chemistry
  | pump i => exact disc_pump i
  | colorUpdate => exact disc_colorUpdate
  | version => exact disc_version f
  | dateTime now => exact disc_dateTime now
  | equipment => exact disc_equipment

theorem shaped_empty : Shaped (.dict []) := by
  intro p v hp hv
  cases p with
  | nil => simp at hv; subst hv; rfl
  | cons k p => rw [look_empty_cons] at hv; simp at hv

/-- Well-shaped data whose root is a dict. -/
structure Sound (d : Val) : Prop where
  shaped : Shaped d
  root : ∃ kv, d = .dict kv

theorem Sound.present {d : Val} (h : Sound d) :
    ∀ e ∈ [([] : Path)], isNode e = true ∧ ∃ kv, Val.look e d = some (.dict kv) := by
  intro e he
  simp only [List.mem_cons, List.not_mem_nil, or_false] at he
  subst he
  obtain ⟨kv, rfl⟩ := h.root
  exact ⟨rfl, kv, by simp⟩

theorem Sound.of_shaped {d : Val} (h : Shaped d) : Sound d := by
  refine ⟨h, ?_⟩
  have := h [] d rfl (by simp)
  cases d with
  | dict kv => exact ⟨kv, rfl⟩
  | _ => simp [Val.isDict] at this

theorem sound_run (f : String → Except PyErr Rat) (D : Decoder) (buff : Bytes) {d : Val} (h : Sound d) :
    Sound (decodeWith (D.prog f) buff d).2 :=
  Sound.of_shaped (disc_shaped (D.disc f) buff 0 d h.shaped h.present)

theorem reachable_sound {f : String → Except PyErr Rat} {d : Val} (h : Reachable f d) : Sound d := by
  induction h with
  | init => exact ⟨shaped_empty, [], rfl⟩
  | step D buff _ ih => exact sound_run f D buff ih

/-- Running a decoder on sound data is replaying the log of its trace. -/
theorem decode_trace (f : String → Except PyErr Rat) (D : Decoder) (hD : D.profile.msgs = false) (buff : Bytes) {d : Val} (h : Sound d) :
    (D.prog f).run buff 0 d =
      ((trace (fun g => Val.look g d) (D.prog f) 0 buff).result,
        replay (trace (fun g => Val.look g d) (D.prog f) 0 buff).2 d) := by
  have := (run_trace (fits_tame hD (D.fits f)) (D.disc f) buff (fun g => Val.look g d) 0 d h.shaped h.present
    (fun _ _ => rfl)).1
  simpa using this

/-- What a successful decode leaves in the data. -/
theorem decode_ok (f : String → Except PyErr Rat) (D : Decoder) (hD : D.profile.msgs = false) (buff : Bytes) {d : Val} (h : Sound d)
    {o : Nat} {r : Bytes} {ws : List W}
    (ht : trace (fun g => Val.look g d) (D.prog f) 0 buff = (.ok ((), o, r), ws)) :
    decodeWith (D.prog f) buff d = (.ok (), replay ws d) := by
  unfold decodeWith
  rw [decode_trace f D hD buff h, ht]
  rfl

/-- From a symbolic trace to the readings. -/
theorem decode_hits (f : String → Except PyErr Rat) (D : Decoder) (hD : D.profile.msgs = false) (buff : Bytes) (d : Val)
    (h : Reachable f d) {R : List (Path × Val)}
    (ht : ∃ o r ws, trace (fun g => Val.look g d) (D.prog f) 0 buff = (.ok ((), o, r), ws) ∧
      ∀ e ∈ R, Val.look e.1 (replay ws d) = some e.2) :
    (decodeWith (D.prog f) buff d).1 = .ok () ∧ ∀ e ∈ R, Val.look e.1 (decodeWith (D.prog f) buff d).2 = some e.2 := by
  obtain ⟨o, r, ws, ht, hh⟩ := ht
  rw [decode_ok f D hD buff (reachable_sound h) ht]
  exact ⟨rfl, hh⟩

/-! ## C54: chlorinator -/

theorem trace_scg (env : Path → Option Val) (m : Scg) (t : Bytes) :
    ∃ ws, trace env decodeScg 0 (m.enc ++ t) = (.ok ((), 28, t), ws) ∧
      ∀ e ∈ m.readings, hit e.1 ws.reverse = some e.2 := by
  simp only [decodeScg, Scg.enc, List.flatten_cons, List.flatten_nil, List.append_nil, List.append_assoc,
    tr_setdefault, tr_I, tr_store, tr_store', logged_ok]
  refine ⟨_, rfl, ?_⟩
  simp only [Scg.readings, List.forall_mem_cons, ← onOff_bit]
  refine ⟨rfl, rfl, rfl, rfl, rfl, rfl, rfl, rfl, ?_⟩
  simp

/-- C54: decoding a chlorinator message makes every setting available under its documented path, whatever data
the gateway holds. -/
theorem C54_scg (f : String → Except PyErr Rat) (m : Scg) (t : Bytes) (d : Val) (hd : Reachable f d) :
    (decodeWith decodeScg (m.enc ++ t) d).1 = .ok () ∧
    ∀ e ∈ m.readings, Val.look e.1 (decodeWith decodeScg (m.enc ++ t) d).2 = some e.2 := by
  obtain ⟨ws, hw, hh⟩ := trace_scg (fun g => Val.look g d) m t
  exact decode_hits f .scg rfl _ d hd ⟨_, _, ws, hw, fun e he => look_of_hit' (hh e he) d⟩

/-! ## C53: chemistry -/

/-- The temperature unit in force: Celsius iff the controller's configuration says so. -/
def unitOf (d : Val) : String :=
  match Val.look [.s "controller", .s "configuration", .s "is_celsius", .s "value"] d with
  | some v => if v.truthy then "°C" else "°F"
  | none => "°F"

theorem tr_unit {α : Type} (d : Val) (o : Nat) (r : Bytes) (k : String → Prog α) :
    trace (fun g => Val.look g d) (getTemperatureUnit >>= k) o r = trace (fun g => Val.look g d) (k (unitOf d)) o r := by
  unfold getTemperatureUnit unitOf
  rw [tr_seq, tr_lookup]
  generalize Val.look _ d = v
  cases v with
  | none => rw [tr_pure, andThen_ok]; rfl
  | some v => rw [tr_pure, andThen_ok]; rfl

theorem sat_value (s : Int8) :
    (if (s.toUInt8.toNat : Int).toNat &&& 0x80 ≠ 0 then intDiv ((s.toUInt8.toNat : Int) - 256) 100
      else intDiv (s.toUInt8.toNat : Int) 100) = intDiv s.toInt 100 := by
  have h1 : s.toInt = (s.toUInt8.toNat : Int).bmod 256 := by
    rw [← Int8.toInt_toBitVec, BitVec.toInt_eq_toNat_bmod]; rfl
  have hlt : s.toUInt8.toNat < 256 := UInt8.toNat_lt _
  generalize s.toUInt8.toNat = n at *
  have hand : n &&& 0x80 = 0 ↔ n < 128 := by
    have : ∀ n < 256, (n &&& 0x80 = 0 ↔ n < 128) := by decide +kernel
    exact this n hlt
  simp only [Int.toNat_natCast, ne_eq, hand]
  by_cases hn : n < 128
  · have : s.toInt = (n : Int) := by rw [h1, Int.bmod_def]; split <;> omega
    rw [if_neg (by simpa using hn), this]
  · have : s.toInt = (n : Int) - 256 := by rw [h1, Int.bmod_def]; split <;> omega
    rw [if_pos (by simpa using hn), this]

theorem dose_ph (v : UInt8) : ((v.toNat : Int).toNat &&& 0x30) >>> 4 = v.toNat / 16 % 4 := by
  have : ∀ n : Nat, n < 256 → ((n : Int).toNat &&& 0x30) >>> 4 = n / 16 % 4 := by decide +kernel
  exact this _ (UInt8.toNat_lt v)

theorem dose_orp (v : UInt8) : ((v.toNat : Int).toNat &&& 0xC0) >>> 6 = v.toNat / 64 % 4 := by
  have : ∀ n : Nat, n < 256 → ((n : Int).toNat &&& 0xC0) >>> 6 = n / 64 % 4 := by decide +kernel
  exact this _ (UInt8.toNat_lt v)

theorem firmware_text (m : Chem) :
    toString (m.vMajor.toNat : Int) ++ "." ++ fmt03 (m.vMinor.toNat : Int).toNat = m.firmware := by
  have h1 : ∀ n : Nat, n < 256 → (toString (n : Int)) = String.ofList (shortDecimal n) := by decide +kernel
  have h2 : ∀ n : Nat, n < 256 → fmt03 n = String.ofList (threeDigits n) := by decide +kernel
  rw [Int.toNat_natCast, h1 _ (UInt8.toNat_lt _), h2 _ (UInt8.toNat_lt _), Chem.firmware, String.ofList_append,
    String.ofList_append]

theorem trace_chem (d : Val) (m : Chem) (t : Bytes) :
    ∃ ws, trace (fun g => Val.look g d) decodeChemistry 0 (m.enc ++ t) = (.ok ((), 47, t), ws) ∧
      ∀ e ∈ m.readings (unitOf d), hit e.1 ws.reverse = some e.2 := by
  simp only [decodeChemistry, decodeChemistryA, decodeChemistryB, decodeChemistryC, decodeChemistryD, Chem.enc,
    List.flatten_cons, List.flatten_nil, List.append_nil, List.append_assoc, prog_assoc,
    tr_setdefault, tr_I, tr_B, tr_beH, tr_beI, tr_store, tr_store', tr_offset, tr_unit, logged_ok, sat_value, dose_ph, dose_orp,
    firmware_text]
  refine ⟨_, rfl, ?_⟩
  simp only [Chem.readings, List.forall_mem_cons, ← onOff_bit]
  repeat (first | exact List.forall_mem_nil _ | refine ⟨rfl, ?_⟩)

/-- C53: decoding an IntelliChem message makes every reading, set point, alarm and alert available under its
documented path with the value in the message; the temperature unit is the controller's. -/
theorem C53_chemistry (f : String → Except PyErr Rat) (m : Chem) (t : Bytes) (d : Val) (hd : Reachable f d) :
    (decodeWith decodeChemistry (m.enc ++ t) d).1 = .ok () ∧
    ∀ e ∈ m.readings (unitOf d), Val.look e.1 (decodeWith decodeChemistry (m.enc ++ t) d).2 = some e.2 := by
  obtain ⟨ws, hw, hh⟩ := trace_chem d m t
  exact decode_hits f .chemistry rfl _ d hd ⟨_, _, ws, hw, fun e he => look_of_hit' (hh e he) d⟩

end SL
