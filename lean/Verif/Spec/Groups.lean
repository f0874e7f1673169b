import Verif.Model.Val
/-!
# The groups of the data

`gateway.get_data()` is a tree: devices, groups of readings within a device, numbered circuits, bodies, pumps and presets.
-/
namespace SL

/-- The groups; everything directly under one of them is an entry of the data (a device, a reading or another group). -/
inductive Group : Path → Prop
  | all : Group []
  | device (d : String) (h : d ∈ ["controller", "body", "circuit", "pump", "intellichem", "scg", "adapter"]) : Group [.s d]
  | controller (k : String) (h : k ∈ ["sensor", "configuration", "equipment", "color_lights", "date_time"]) : Group [.s "controller", .s k]
  | bodyTypes : Group [.s "controller", .s "configuration", .s "body_type"]
  | bodyType (i : Key) : Group [.s "controller", .s "configuration", .s "body_type", i]
  | body (i : Key) : Group [.s "body", i]
  | circuit (i : Key) : Group [.s "circuit", i]
  | circuitConfig (i : Key) : Group [.s "circuit", i, .s "configuration"]
  | pump (i : Key) : Group [.s "pump", i]
  | presets (i : Key) : Group [.s "pump", i, .s "preset"]
  | preset (i j : Key) : Group [.s "pump", i, .s "preset", j]
  | intellichem (k : String) (h : k ∈ ["sensor", "configuration", "dose_status", "alarm", "alert", "water_balance"]) : Group [.s "intellichem", .s k]
  | scg (k : String) (h : k ∈ ["sensor", "configuration"]) : Group [.s "scg", .s k]

/-- The readings: entries with a name and a value.  (The readings of a pump are left out, see `C85_refuted`.) -/
inductive Reading : Path → Prop
  | circuit (i : Key) : Reading [.s "circuit", i]
  | pumpState (i : Key) : Reading [.s "pump", i, .s "state"]
  | body (i : Key) (k : String) (h : k ∈ ["last_temperature", "heat_state", "heat_setpoint", "cool_setpoint", "heat_mode"]) :
      Reading [.s "body", i, .s k]
  | controllerSensor (k : String) (h : k ∈ ["state", "freeze_mode", "pool_delay", "spa_delay", "cleaner_delay", "air_temperature",
      "ph", "orp", "saturation", "salt_ppm", "ph_supply_level", "orp_supply_level", "active_alert"]) :
      Reading [.s "controller", .s "sensor", .s k]
  | celsius : Reading [.s "controller", .s "configuration", .s "is_celsius"]
  | model : Reading [.s "controller", .s "model"]
  | autoDst : Reading [.s "controller", .s "date_time", .s "auto_dst"]
  | scgSensor (k : String) (h : k ∈ ["state", "salt_ppm"]) : Reading [.s "scg", .s "sensor", .s k]
  | scgConfig (k : String) (h : k ∈ ["pool_setpoint", "spa_setpoint", "super_chlor_timer"]) :
      Reading [.s "scg", .s "configuration", .s k]
  | superChlorinate : Reading [.s "scg", .s "super_chlorinate"]
  | chemSensor (k : String) (h : k ∈ ["ph_now", "orp_now", "ph_supply_level", "orp_supply_level", "saturation", "ph_probe_water_temp"]) :
      Reading [.s "intellichem", .s "sensor", .s k]
  | chemConfig (k : String) (h : k ∈ ["ph_setpoint", "orp_setpoint", "calcium_hardness", "cya", "total_alkalinity", "salt_tds_ppm"]) :
      Reading [.s "intellichem", .s "configuration", .s k]
  | chemDose (k : String) (h : k ∈ ["ph_last_dose_time", "orp_last_dose_time", "ph_last_dose_volume", "orp_last_dose_volume",
      "ph_dosing_state", "orp_dosing_state"]) : Reading [.s "intellichem", .s "dose_status", .s k]
  | chemAlarm (k : String) (h : k ∈ ["flow_alarm", "ph_high_alarm", "ph_low_alarm", "orp_high_alarm", "orp_low_alarm",
      "ph_supply_alarm", "orp_supply_alarm", "probe_fault_alarm"]) : Reading [.s "intellichem", .s "alarm", .s k]
  | chemAlert (k : String) (h : k ∈ ["ph_lockout", "ph_limit", "orp_limit"]) : Reading [.s "intellichem", .s "alert", .s k]
  | chemBalance (k : String) (h : k ∈ ["corrosive", "scaling"]) : Reading [.s "intellichem", .s "water_balance", .s k]
  | chemFirmware : Reading [.s "intellichem", .s "firmware"]
  | version : Reading [.s "adapter", .s "firmware"]

end SL
