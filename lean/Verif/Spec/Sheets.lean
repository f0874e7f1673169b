import Verif.Model.Val
import Verif.Model.Assoc
import Verif.Model.Float
/-!
# What the readings are documented to carry

Besides its value a reading of `gateway.get_data()` describes itself: its name, its unit, what kind of device and of state
it belongs to, the texts its numbers stand for, and the limits of a set point.  This is the list, by path; the index of a
body or of a pump is arbitrary.
-/
namespace SL

/-- What kind of value a reading has. -/
inductive Kind
  | whole
  | float
  | text
deriving DecidableEq

/-- What one reading describes itself with. -/
structure Sheet where
  /-- the kind of its value -/
  kind : Kind := .whole
  /-- the names it may have (any, if empty) -/
  names : List String := []
  /-- the units it may have (none, if empty) -/
  units : List String := []
  /-- `device_type` -/
  device : Option String := none
  /-- `state_type` -/
  state : Option String := none
  /-- `enum_options`: what 0, 1, 2 ... stand for -/
  options : List String := []
  /-- `min_setpoint` and `max_setpoint` -/
  limits : Option (Val × Val) := none
  /-- `step` -/
  step : Option Int := none
  /-- the reading is `{}` while a message about it has been read only in part -/
  blank : Bool := false

/-- The readings of a body. -/
def bodySheets : List (String × Sheet) :=
  [("last_temperature", { names := ["Last Pool Temperature", "Last Spa Temperature"], units := ["°F", "°C"], device := some "temperature", state := some "measurement" }),
   ("heat_state", { names := ["Pool Heat", "Spa Heat"], device := some "enum", options := ["Off", "Solar", "Heater", "Both"] }),
   ("heat_setpoint", { names := ["Pool Heat Set Point", "Spa Heat Set Point"], units := ["°F", "°C"], device := some "temperature" }),
   ("cool_setpoint", { names := ["Pool Cool Set Point", "Spa Cool Set Point"], units := ["°F", "°C"], device := some "temperature" }),
   ("heat_mode", { names := ["Pool Heat Mode", "Spa Heat Mode"], device := some "enum", options := ["Off", "Solar", "Solar Preferred", "Heater", "Don't Change"] })]

/-- The readings of a pump. -/
def pumpSheets : List (String × Sheet) :=
  [("watts_now", { units := ["W"], device := some "power", state := some "measurement", blank := true }),
   ("rpm_now", { units := ["rpm"], state := some "measurement", blank := true }),
   ("gpm_now", { units := ["gpm"], state := some "measurement", blank := true })]

/-- The readings of the controller. -/
def ctlSheets : List (Path × Sheet) :=
  [([.s "controller", .s "sensor", .s "state"], { names := ["Controller State"], device := some "enum", options := ["Unknown", "Ready", "Sync", "Service"] }),
   ([.s "controller", .s "sensor", .s "freeze_mode"], { names := ["Freeze Mode"] }),
   ([.s "controller", .s "sensor", .s "pool_delay"], { names := ["Pool Delay"] }),
   ([.s "controller", .s "sensor", .s "spa_delay"], { names := ["Spa Delay"] }),
   ([.s "controller", .s "sensor", .s "cleaner_delay"], { names := ["Cleaner Delay"] }),
   ([.s "controller", .s "sensor", .s "air_temperature"], { names := ["Air Temperature"], units := ["°F", "°C"], device := some "temperature", state := some "measurement" }),
   ([.s "controller", .s "sensor", .s "ph"], { kind := .float, names := ["pH"], units := ["pH"], state := some "measurement" }),
   ([.s "controller", .s "sensor", .s "orp"], { names := ["ORP"], units := ["mV"], state := some "measurement" }),
   ([.s "controller", .s "sensor", .s "saturation"], { kind := .float, names := ["Saturation Index"], units := ["lsi"], state := some "measurement" }),
   ([.s "controller", .s "sensor", .s "salt_ppm"], { names := ["Salt"], units := ["ppm"], state := some "measurement" }),
   ([.s "controller", .s "sensor", .s "ph_supply_level"], { names := ["pH Supply Level"], state := some "measurement" }),
   ([.s "controller", .s "sensor", .s "orp_supply_level"], { names := ["ORP Supply Level"], state := some "measurement" }),
   ([.s "controller", .s "sensor", .s "active_alert"], { names := ["Active Alert"], device := some "alarm" }),
   ([.s "controller", .s "configuration", .s "is_celsius"], { names := ["Is Celsius"] }),
   ([.s "controller", .s "model"], { kind := .text, names := ["Model"] }),
   ([.s "controller", .s "date_time", .s "auto_dst"], { names := ["Automatic Daylight Saving Time"] }),
   ([.s "adapter", .s "firmware"], { kind := .text, names := ["Protocol Adapter Firmware"] })]

/-- The readings of the chlorinator. -/
def scgSheets : List (Path × Sheet) :=
  [([.s "scg", .s "sensor", .s "state"], { names := ["Chlorinator"] }),
   ([.s "scg", .s "sensor", .s "salt_ppm"], { names := ["Chlorinator Salt"], units := ["ppm"], state := some "measurement" }),
   ([.s "scg", .s "configuration", .s "pool_setpoint"], { names := ["Pool Chlorinator Setpoint"], units := ["%"], limits := some (.int 0, .int 100), step := some 1 }),
   ([.s "scg", .s "configuration", .s "spa_setpoint"], { names := ["Spa Chlorinator Setpoint"], units := ["%"], limits := some (.int 0, .int 100), step := some 1 }),
   ([.s "scg", .s "configuration", .s "super_chlor_timer"], { names := ["Super Chlorination Timer"], units := ["hr"], limits := some (.int 0, .int 72), step := some 1 }),
   ([.s "scg", .s "super_chlorinate"], { names := ["Super Chlorinate"] })]

/-- The readings of the chemistry controller. -/
def chemSheets : List (Path × Sheet) :=
  [([.s "intellichem", .s "sensor", .s "ph_now"], { kind := .float, names := ["pH Now"], units := ["pH"], state := some "measurement" }),
   ([.s "intellichem", .s "sensor", .s "orp_now"], { names := ["ORP Now"], units := ["mV"], state := some "measurement" }),
   ([.s "intellichem", .s "sensor", .s "ph_supply_level"], { names := ["pH Supply Level"], state := some "measurement" }),
   ([.s "intellichem", .s "sensor", .s "orp_supply_level"], { names := ["ORP Supply Level"], state := some "measurement" }),
   ([.s "intellichem", .s "sensor", .s "saturation"], { kind := .float, names := ["Saturation Index"], units := ["lsi"], state := some "measurement" }),
   ([.s "intellichem", .s "sensor", .s "ph_probe_water_temp"], { names := ["pH Probe Water Temperature"], units := ["°F", "°C"], device := some "temperature", state := some "measurement" }),
   ([.s "intellichem", .s "configuration", .s "ph_setpoint"], { kind := .float, names := ["pH Setpoint"], units := ["pH"], limits := some (.flt (intDiv 72 10), .flt (intDiv 76 10)) }),
   ([.s "intellichem", .s "configuration", .s "orp_setpoint"], { names := ["ORP Setpoint"], units := ["mV"], limits := some (.int 400, .int 800) }),
   ([.s "intellichem", .s "configuration", .s "calcium_hardness"], { names := ["Calcium Hardness"], units := ["ppm"], limits := some (.int 25, .int 800) }),
   ([.s "intellichem", .s "configuration", .s "cya"], { names := ["Cyanuric Acid"], units := ["ppm"], limits := some (.int 0, .int 201) }),
   ([.s "intellichem", .s "configuration", .s "total_alkalinity"], { names := ["Total Alkalinity"], units := ["ppm"], limits := some (.int 25, .int 800) }),
   ([.s "intellichem", .s "configuration", .s "salt_tds_ppm"], { names := ["Salt/TDS"], units := ["ppm"], limits := some (.int 500, .int 6500) }),
   ([.s "intellichem", .s "dose_status", .s "ph_last_dose_time"], { names := ["Last pH Dose Time"], units := ["sec"], device := some "duration", state := some "total_increasing" }),
   ([.s "intellichem", .s "dose_status", .s "orp_last_dose_time"], { names := ["Last ORP Dose Time"], units := ["sec"], device := some "duration", state := some "total_increasing" }),
   ([.s "intellichem", .s "dose_status", .s "ph_last_dose_volume"], { names := ["Last pH Dose Volume"], units := ["mL"], device := some "volume", state := some "total_increasing" }),
   ([.s "intellichem", .s "dose_status", .s "orp_last_dose_volume"], { names := ["Last ORP Dose Volume"], units := ["mL"], device := some "volume", state := some "total_increasing" }),
   ([.s "intellichem", .s "dose_status", .s "ph_dosing_state"], { names := ["pH Dosing State"], device := some "enum", options := ["Dosing", "Mixing", "Monitoring"] }),
   ([.s "intellichem", .s "dose_status", .s "orp_dosing_state"], { names := ["ORP Dosing State"], device := some "enum", options := ["Dosing", "Mixing", "Monitoring"] }),
   ([.s "intellichem", .s "alarm", .s "flow_alarm"], { names := ["Flow Alarm"], device := some "alarm" }),
   ([.s "intellichem", .s "alarm", .s "ph_high_alarm"], { names := ["pH HIGH Alarm"], device := some "alarm" }),
   ([.s "intellichem", .s "alarm", .s "ph_low_alarm"], { names := ["pH LOW Alarm"], device := some "alarm" }),
   ([.s "intellichem", .s "alarm", .s "orp_high_alarm"], { names := ["ORP HIGH Alarm"], device := some "alarm" }),
   ([.s "intellichem", .s "alarm", .s "orp_low_alarm"], { names := ["ORP LOW Alarm"], device := some "alarm" }),
   ([.s "intellichem", .s "alarm", .s "ph_supply_alarm"], { names := ["pH Supply Alarm"], device := some "alarm" }),
   ([.s "intellichem", .s "alarm", .s "orp_supply_alarm"], { names := ["ORP Supply Alarm"], device := some "alarm" }),
   ([.s "intellichem", .s "alarm", .s "probe_fault_alarm"], { names := ["Probe Fault"], device := some "alarm" }),
   ([.s "intellichem", .s "alert", .s "ph_lockout"], { names := ["pH Lockout"] }),
   ([.s "intellichem", .s "alert", .s "ph_limit"], { names := ["pH Dose Limit Reached"] }),
   ([.s "intellichem", .s "alert", .s "orp_limit"], { names := ["ORP Dose Limit Reached"] }),
   ([.s "intellichem", .s "water_balance", .s "corrosive"], { names := ["SI Corrosive"], device := some "alarm" }),
   ([.s "intellichem", .s "water_balance", .s "scaling"], { names := ["SI Scaling"], device := some "alarm" }),
   ([.s "intellichem", .s "firmware"], { kind := .text, names := ["IntelliChem Firmware"] })]

/-- What the reading at a path is documented to carry, if a reading is documented there. -/
def sheet : Path → Option Sheet
  | [.s "body", _, .s k] => aget k bodySheets
  | [.s "pump", _, .s k] => aget k pumpSheets
  | p => aget p (ctlSheets ++ scgSheets ++ chemSheets)

/-- A text, or None. -/
def textOrNone : Option String → Val
  | some s => .str s
  | none => .null

/-- It is a value of this kind. -/
def Kind.Of (k : Kind) (v : Val) : Prop :=
  match k with
  | .whole => ∃ n, v = .int n
  | .float => ∃ q, v = .flt q
  | .text => ∃ t, v = .str t

/-- The attributes `get` of a reading are as documented. -/
structure Carries (s : Sheet) (get : String → Except PyErr Val) : Prop where
  value : ∃ v, get "value" = .ok v ∧ s.kind.Of v
  name : s.names ≠ [] → ∃ n ∈ s.names, get "name" = .ok (.str n)
  unit : s.units ≠ [] → ∃ u ∈ s.units, get "unit" = .ok (.str u)
  noUnit : s.units = [] → get "unit" = .ok .null
  device : get "device_type" = .ok (textOrNone s.device)
  state : get "state_type" = .ok (textOrNone s.state)
  options : get "enum_options" = .ok (match s.options with | [] => .null | l => .list (l.map .str))
  lowest : get "min_setpoint" = .ok (match s.limits with | some l => l.1 | none => .null)
  highest : get "max_setpoint" = .ok (match s.limits with | some l => l.2 | none => .null)
  step : get "step" = .ok (match s.step with | some n => .int n | none => .null)

end SL
