import Verif.Props.Codec
import Verif.Props.TextExactProps
import Verif.Spec.Messages
import Verif.Model.Decode
import Verif.Model.Lookup
/-!
# Where in a message each reading stands

The layout of the messages as a table: at which byte a reading stands, how wide the number there is, and how it is shown.
A message may be cut short: only the bytes of the reading itself have to be there (and, for a reading behind a list, those
of the length of the list).
-/
namespace SL

/-- The number of this format at byte `o` of the message is `n`. -/
def NumAt (m : Bytes) (o : Nat) (f : Fmt) (n : Int) : Prop :=
  ∃ pre bs post, m = pre ++ bs ++ post ∧ pre.length = o ∧ fieldValue f bs = some n

/-- How a number of a message is shown. -/
inductive Scale
  /-- as it is -/
  | plain
  /-- times 50 -/
  | fifties
  /-- divided by 100 -/
  | hundredths
  /-- divided by 100, the byte being signed -/
  | byteHundredths
  /-- its bit `k`, as 0 or 1 -/
  | flag (k : Nat)
  /-- its bits `k` and `k + 1`, as 0 to 3 -/
  | pair (k : Nat)

/-- The value shown. -/
def Scale.value : Scale → Int → Val
  | .plain, n => .int n
  | .fifties, n => .int (n * 50)
  | .hundredths, n => .flt (intDiv n 100)
  | .byteHundredths, n => .flt (intDiv (if n < 128 then n else n - 256) 100)
  | .flag k, n => .int (Spec.bit n.toNat k)
  | .pair k, n => .int (n.toNat / 2 ^ k % 4 : Nat)

/-- The place of a reading. -/
structure Place where
  at' : Nat
  fmt : Fmt
  shows : Scale := .plain

/-- The message says `v` at this place, counted from byte `base`. -/
def Place.Reads (f : Place) (m : Bytes) (base : Nat) (v : Val) : Prop := ∃ n, NumAt m (base + f.at') f.fmt n ∧ v = f.shows.value n

/-- The controller's readings at the start of a status message. -/
def statusPlaces : List (Path × Place) :=
  [([.s "controller", .s "sensor", .s "state"], ⟨0, .I, .plain⟩),
   ([.s "controller", .s "sensor", .s "freeze_mode"], ⟨4, .B, .flag 3⟩),
   ([.s "controller", .s "sensor", .s "pool_delay"], ⟨6, .B, .plain⟩),
   ([.s "controller", .s "sensor", .s "spa_delay"], ⟨7, .B, .plain⟩),
   ([.s "controller", .s "sensor", .s "cleaner_delay"], ⟨8, .B, .plain⟩),
   ([.s "controller", .s "sensor", .s "air_temperature"], ⟨12, .i, .plain⟩)]

/-- The readings of a body, within the 24 bytes about it. -/
def bodyPlaces : List (String × Place) :=
  [("last_temperature", ⟨4, .i, .plain⟩), ("heat_state", ⟨8, .i, .plain⟩), ("heat_setpoint", ⟨12, .i, .plain⟩),
   ("cool_setpoint", ⟨16, .i, .plain⟩), ("heat_mode", ⟨20, .i, .plain⟩)]

/-- The controller's readings at the end of a status message, behind the circuits. -/
def tailPlaces : List (Path × Place) :=
  [([.s "controller", .s "sensor", .s "ph"], ⟨0, .i, .hundredths⟩),
   ([.s "controller", .s "sensor", .s "orp"], ⟨4, .i, .plain⟩),
   ([.s "controller", .s "sensor", .s "saturation"], ⟨8, .i, .hundredths⟩),
   ([.s "controller", .s "sensor", .s "salt_ppm"], ⟨12, .i, .fifties⟩),
   ([.s "controller", .s "sensor", .s "ph_supply_level"], ⟨16, .i, .plain⟩),
   ([.s "controller", .s "sensor", .s "orp_supply_level"], ⟨20, .i, .plain⟩),
   ([.s "controller", .s "sensor", .s "active_alert"], ⟨24, .i, .plain⟩)]

/-- The readings of a configuration message. -/
def configPlaces : List (Path × Place) := [([.s "controller", .s "configuration", .s "is_celsius"], ⟨8, .B, .plain⟩)]

/-- The readings of a date and time message. -/
def timePlaces : List (Path × Place) := [([.s "controller", .s "date_time", .s "auto_dst"], ⟨16, .I, .plain⟩)]

/-- The readings of a chlorinator message. -/
def scgPlaces : List (Path × Place) :=
  [([.s "scg", .s "sensor", .s "state"], ⟨4, .I, .flag 0⟩),
   ([.s "scg", .s "configuration", .s "pool_setpoint"], ⟨8, .I, .plain⟩),
   ([.s "scg", .s "configuration", .s "spa_setpoint"], ⟨12, .I, .plain⟩),
   ([.s "scg", .s "sensor", .s "salt_ppm"], ⟨16, .I, .fifties⟩),
   ([.s "scg", .s "super_chlorinate"], ⟨20, .I, .flag 0⟩),
   ([.s "scg", .s "configuration", .s "super_chlor_timer"], ⟨24, .I, .plain⟩)]

/-- The readings of a chemistry message. -/
def chemPlaces : List (Path × Place) :=
  [([.s "intellichem", .s "sensor", .s "ph_now"], ⟨5, .beH, .hundredths⟩),
   ([.s "intellichem", .s "sensor", .s "orp_now"], ⟨7, .beH, .plain⟩),
   ([.s "intellichem", .s "configuration", .s "ph_setpoint"], ⟨9, .beH, .hundredths⟩),
   ([.s "intellichem", .s "configuration", .s "orp_setpoint"], ⟨11, .beH, .plain⟩),
   ([.s "intellichem", .s "dose_status", .s "ph_last_dose_time"], ⟨13, .beI, .plain⟩),
   ([.s "intellichem", .s "dose_status", .s "orp_last_dose_time"], ⟨17, .beI, .plain⟩),
   ([.s "intellichem", .s "dose_status", .s "ph_last_dose_volume"], ⟨21, .beH, .plain⟩),
   ([.s "intellichem", .s "dose_status", .s "orp_last_dose_volume"], ⟨23, .beH, .plain⟩),
   ([.s "intellichem", .s "sensor", .s "ph_supply_level"], ⟨25, .B, .plain⟩),
   ([.s "intellichem", .s "sensor", .s "orp_supply_level"], ⟨26, .B, .plain⟩),
   ([.s "intellichem", .s "sensor", .s "saturation"], ⟨27, .B, .byteHundredths⟩),
   ([.s "intellichem", .s "configuration", .s "calcium_hardness"], ⟨28, .beH, .plain⟩),
   ([.s "intellichem", .s "configuration", .s "cya"], ⟨30, .beH, .plain⟩),
   ([.s "intellichem", .s "configuration", .s "total_alkalinity"], ⟨32, .beH, .plain⟩),
   ([.s "intellichem", .s "configuration", .s "salt_tds_ppm"], ⟨34, .B, .fifties⟩),
   ([.s "intellichem", .s "sensor", .s "ph_probe_water_temp"], ⟨36, .B, .plain⟩),
   ([.s "intellichem", .s "alarm", .s "flow_alarm"], ⟨37, .B, .flag 0⟩),
   ([.s "intellichem", .s "alarm", .s "ph_high_alarm"], ⟨37, .B, .flag 1⟩),
   ([.s "intellichem", .s "alarm", .s "ph_low_alarm"], ⟨37, .B, .flag 2⟩),
   ([.s "intellichem", .s "alarm", .s "orp_high_alarm"], ⟨37, .B, .flag 3⟩),
   ([.s "intellichem", .s "alarm", .s "orp_low_alarm"], ⟨37, .B, .flag 4⟩),
   ([.s "intellichem", .s "alarm", .s "ph_supply_alarm"], ⟨37, .B, .flag 5⟩),
   ([.s "intellichem", .s "alarm", .s "orp_supply_alarm"], ⟨37, .B, .flag 6⟩),
   ([.s "intellichem", .s "alarm", .s "probe_fault_alarm"], ⟨37, .B, .flag 7⟩),
   ([.s "intellichem", .s "alert", .s "ph_lockout"], ⟨38, .B, .flag 0⟩),
   ([.s "intellichem", .s "alert", .s "ph_limit"], ⟨38, .B, .flag 1⟩),
   ([.s "intellichem", .s "alert", .s "orp_limit"], ⟨38, .B, .flag 2⟩),
   ([.s "intellichem", .s "dose_status", .s "ph_dosing_state"], ⟨39, .B, .pair 4⟩),
   ([.s "intellichem", .s "dose_status", .s "orp_dosing_state"], ⟨39, .B, .pair 6⟩),
   ([.s "intellichem", .s "water_balance", .s "corrosive"], ⟨43, .B, .flag 0⟩),
   ([.s "intellichem", .s "water_balance", .s "scaling"], ⟨43, .B, .flag 1⟩)]

/-- The readings of a message about a pump. -/
def pumpPlaces : List (String × Place) := [("watts_now", ⟨8, .I, .plain⟩), ("rpm_now", ⟨12, .I, .plain⟩), ("gpm_now", ⟨20, .I, .plain⟩)]

/-- Readings with a fixed place. -/
def places : Decoder → List (Path × Place)
  | .status => statusPlaces
  | .config => configPlaces
  | .scg => scgPlaces
  | .chemistry => chemPlaces
  | .dateTime _ => timePlaces
  | _ => []

/-- Message `m`, of the kind of decoder `D`, says `v` about the reading at this path. -/
inductive Tells : Decoder → Bytes → Path → Val → Prop
  /-- at its fixed place -/
  | fixed (D : Decoder) (m : Bytes) (p : Path) (f : Place) (v : Val) (hf : (p, f) ∈ places D) (h : f.Reads m 0 v) : Tells D m p v
  /-- in the part of a status message about body `k`: the number of bodies, at most two of them used, is at byte 16 -/
  | body (m : Bytes) (k : Nat) (key : String) (f : Place) (v : Val) (n : Int) (hn : NumAt m 16 .I n) (hk : k < min n.toNat 2)
      (hf : (key, f) ∈ bodyPlaces) (h : f.Reads m (20 + 24 * k) v) : Tells .status m [.s "body", .i k, .s key] v
  /-- in the part of a status message about a circuit with this number: the number of circuits follows the bodies, and each
  circuit has twelve bytes, its number first -/
  | circuit (m : Bytes) (id : Int) (j : Nat) (v : Val) (n c : Int) (hn : NumAt m 16 .I n) (hc : NumAt m (20 + 24 * min n.toNat 2) .I c)
      (hj : j < c.toNat) (hid : NumAt m (24 + 24 * min n.toNat 2 + 12 * j) .I id)
      (h : (⟨4, .I, .plain⟩ : Place).Reads m (24 + 24 * min n.toNat 2 + 12 * j) v) : Tells .status m [.s "circuit", .i id, .s "value"] v
  /-- behind the circuits -/
  | tail (m : Bytes) (p : Path) (f : Place) (v : Val) (n c : Int) (hn : NumAt m 16 .I n) (hc : NumAt m (20 + 24 * min n.toNat 2) .I c)
      (hf : (p, f) ∈ tailPlaces) (h : f.Reads m (24 + 24 * min n.toNat 2 + 12 * c.toNat) v) : Tells .status m p v
  /-- in a message about that pump -/
  | pump (i : Int) (m : Bytes) (key : String) (f : Place) (v : Val) (hf : (key, f) ∈ pumpPlaces) (h : f.Reads m 0 v) :
      Tells (.pump i) m [.s "pump", .i i, .s key] v
  /-- the controller's model: the name of the two numbers at bytes 9 and 10 of the configuration -/
  | model (m : Bytes) (c h : Int) (hc : NumAt m 9 .B c) (hh : NumAt m 10 .B h) :
      Tells .config m [.s "controller", .s "model"] (.str (Spec.modelName c h))
  /-- the firmware of the chemistry controller: `<major>.<minor as three digits>` -/
  | chemFirmware (m : Bytes) (minor major : Int) (h1 : NumAt m 41 .B minor) (h2 : NumAt m 42 .B major) :
      Tells .chemistry m [.s "intellichem", .s "firmware"] (.str (String.ofList (Spec.shortDecimal major.toNat ++ ['.'] ++ Spec.threeDigits minor.toNat)))
  /-- the firmware of the adapter: the text in the version message -/
  | firmware (m : Bytes) (s : String) (utf16 : Bool) (body rest : Bytes) (hm : m = Spec.u32 (lengthWord utf16 body.length) ++ body ++ rest)
      (hb : EncodesText utf16 body s) : Tells .version m [.s "adapter", .s "firmware"] (.str s)

/-- The reading at this path shows this value. -/
def Displays (d : Val) (q : Path) (v : Val) : Prop :=
  getValue false q d = .ok v ∨ ∃ id : Int, q = [.s "circuit", .i id, .s "value"] ∧ getValue false [.s "circuit", .i id] d = .ok v

end SL
