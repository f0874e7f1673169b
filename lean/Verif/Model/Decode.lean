import Verif.Model.Prog
import Verif.Model.Float
import Verif.Model.Enums
/-!
# The message decoders: screenlogicpy/requests/{status,config,chemistry,scg,pump,lights,gateway,datetime,equipment}.py

Key strings are the constants of screenlogicpy/const/data.py, units and types those of const/common.py.
-/
namespace SL
open Prog (rd rdString rdArray rdTime rdMsgString offset store setdefault lookup throw loop forRange)

/-- `{ATTR.NAME: name, ATTR.VALUE: value, **more}`. -/
def entry (name : String) (value : Val) (more : List (Key × Val)) : Val :=
  .dict ((.s "name", .str name) :: (.s "value", value) :: more)

/-- `ON_OFF.from_bool(v & mask).value` (const/common.py:183-191) for a non-negative `v`. -/
def onOff (v : Int) (mask : Nat) : Int := if v.toNat &&& mask ≠ 0 then 1 else 0

/-- `f"{n:02}"` for a non-negative number. -/
def fmt02 (n : Nat) : String := if n < 10 then "0" ++ toString n else toString n

/-- `f"{n:03}"` for a non-negative number. -/
def fmt03 (n : Nat) : String := if n < 10 then "00" ++ toString n else if n < 100 then "0" ++ toString n else toString n

/-- `UNKNOWN(offset)`: const/data.py:133-134. -/
def unknownAt (o : Nat) : String := "unknown_at_offset_" ++ fmt02 o

/-- `dict[key]` on an object. -/
def subscript (v : Val) (k : Key) : Prog Val :=
  match v with
  | .dict kv =>
    match aget k kv with
    | some x => pure x
    | none => throw .keyError
  | _ => throw .typeError

-- Attribute lists shared by several readings.
/-- `ATTR.UNIT`. -/
def aUnit (u : String) : Key × Val := (.s "unit", .str u)
/-- `ATTR.DEVICE_TYPE`. -/
def aDev (u : String) : Key × Val := (.s "device_type", .str u)
/-- `ATTR.STATE_TYPE`. -/
def aState (u : String) : Key × Val := (.s "state_type", .str u)
/-- `ATTR.ENUM_OPTIONS`. -/
def aEnum (e : EnumDef) : Key × Val := (.s "enum_options", .list (e.titles.map .str))
/-- `ATTR.MIN_SETPOINT`, `ATTR.MAX_SETPOINT` of an integer range. -/
def aRange (lo hi : Int) : List (Key × Val) := [(.s "min_setpoint", .int lo), (.s "max_setpoint", .int hi)]

/-- `getTemperatureUnit`: requests/utility.py:148-156. -/
def getTemperatureUnit : Prog String := do
  match ← lookup [.s "controller", .s "configuration", .s "is_celsius", .s "value"] with
  | some v => pure (if v.truthy then "°C" else "°F")
  | none => pure "°F"

/-! ## requests/status.py -/

/-- `controller_sensor[key]`. -/
@[reducible] def ctlSensor (k : String) : Path := [.s "controller", .s "sensor", .s k]
/-- `controller_config[key]`. -/
@[reducible] def ctlConfig (k : String) : Path := [.s "controller", .s "configuration", .s k]

/-- Copying the set point limits of the body type, if known: requests/status.py:107-110. -/
def copySetpoints (i : Int) (bodySetpoints : Option Val) (bodyType : Int) : Prog Unit :=
  match bodySetpoints with
  | some (.dict kv) =>
    match aget (.i bodyType) kv with
    | some sp =>
      if sp.truthy then do
        let lo ← subscript sp (.s "min_setpoint")
        store [.s "body", .i i, .s "min_setpoint"] lo
        let hi ← subscript sp (.s "max_setpoint")
        store [.s "body", .i i, .s "max_setpoint"] hi
      else pure ()
    | none => pure ()
  | some v => if v.truthy then throw .attributeError else pure ()
  | none => pure ()

/-- One body: requests/status.py:98-152. -/
def decodeBody (temperatureUnit : String) (bodySetpoints : Option Val) (i : Nat) : Prog Unit := do
  let b : Int := i
  setdefault [.s "body", .i b] (.dict [])
  let bodyType ← rd .I
  let bt := (enBodyType.parseInt bodyType).getD 0
  store [.s "body", .i b, .s "body_type"] (.int bt)
  copySetpoints b bodySetpoints bt
  let name := enBodyType.title ((enBodyType.nameOf bt).getD "")
  store [.s "body", .i b, .s "name"] (.str name)
  let lastTemp ← rd .i
  store [.s "body", .i b, .s "last_temperature"]
    (entry ("Last " ++ name ++ " Temperature") (.int lastTemp)
      [aUnit temperatureUnit, aDev "temperature", aState "measurement"])
  let heatStatus ← rd .i
  store [.s "body", .i b, .s "heat_state"]
    (entry (name ++ " Heat") (.int heatStatus) [aDev "enum", aEnum enHeatState])
  let heatSetPoint ← rd .i
  store [.s "body", .i b, .s "heat_setpoint"]
    (entry (name ++ " Heat Set Point") (.int heatSetPoint) [aUnit temperatureUnit, aDev "temperature"])
  let coolSetPoint ← rd .i
  store [.s "body", .i b, .s "cool_setpoint"]
    (entry (name ++ " Cool Set Point") (.int coolSetPoint) [aUnit temperatureUnit, aDev "temperature"])
  let heatMode ← rd .i
  store [.s "body", .i b, .s "heat_mode"]
    (entry (name ++ " Heat Mode") (.int heatMode) [aDev "enum", aEnum enHeatMode])

/-- `{COLOR_SET: ..., COLOR_POSITION: ..., COLOR_STAGGER: ...}`. -/
def colorDict (a b c : Int) : Val :=
  .dict [(.s "color_set", .int a), (.s "color_position", .int b), (.s "color_stagger", .int c)]

/-- One circuit of the status message: requests/status.py:158-180.  (`if CIRCUIT_ID not in c:
c[CIRCUIT_ID] = id` is `setdefault`.) -/
def decodeStatusCircuit (_ : Nat) : Prog Unit := do
  let id ← rd .I
  setdefault [.s "circuit", .i id] (.dict [])
  setdefault [.s "circuit", .i id, .s "circuit_id"] (.int id)
  let value ← rd .I
  store [.s "circuit", .i id, .s "value"] (.int value)
  let colorSet ← rd .B
  let colorPosition ← rd .B
  let colorStagger ← rd .B
  store [.s "circuit", .i id, .s "color"] (colorDict colorSet colorPosition colorStagger)
  setdefault [.s "circuit", .i id, .s "configuration"] (.dict [])
  let delay ← rd .B
  store [.s "circuit", .i id, .s "configuration", .s "delay"] (.int delay)

/-- The controller part of the status message, up to the air temperature: requests/status.py:31-84;
returns the temperature unit. -/
def decodeStatusHead : Prog String := do
  setdefault [.s "controller"] (.dict [])
  setdefault [.s "controller", .s "sensor"] (.dict [])
  let state ← rd .I
  store (ctlSensor "state") (entry "Controller State" (.int state) [aDev "enum", aEnum enControllerState])
  let freezeMode ← rd .B
  store (ctlSensor "freeze_mode") (entry "Freeze Mode" (.int (onOff freezeMode 0x08)) [])
  setdefault [.s "controller", .s "configuration"] (.dict [])
  let remotes ← rd .B
  store (ctlConfig "remotes") (.int remotes)
  let poolDelay ← rd .B
  store (ctlSensor "pool_delay") (entry "Pool Delay" (.int poolDelay) [])
  let spaDelay ← rd .B
  store (ctlSensor "spa_delay") (entry "Spa Delay" (.int spaDelay) [])
  let cleanerDelay ← rd .B
  store (ctlSensor "cleaner_delay") (entry "Cleaner Delay" (.int cleanerDelay) [])
  let o ← offset
  let x ← rd .B
  store (ctlConfig (unknownAt o)) (.int x)
  let o ← offset
  let x ← rd .B
  store (ctlConfig (unknownAt o)) (.int x)
  let o ← offset
  let x ← rd .B
  store (ctlConfig (unknownAt o)) (.int x)
  let unit ← getTemperatureUnit
  let airTemp ← rd .i
  store (ctlSensor "air_temperature")
    (entry "Air Temperature" (.int airTemp) [aUnit unit, aDev "temperature", aState "measurement"])
  pure unit

/-- The controller part at the end of the status message: requests/status.py:182-231. -/
def decodeStatusTail : Prog Unit := do
  let pH ← rd .i
  store (ctlSensor "ph") (entry "pH" (.flt (intDiv pH 100)) [aUnit "pH", aState "measurement"])
  let orp ← rd .i
  store (ctlSensor "orp") (entry "ORP" (.int orp) [aUnit "mV", aState "measurement"])
  let saturation ← rd .i
  store (ctlSensor "saturation")
    (entry "Saturation Index" (.flt (intDiv saturation 100)) [aUnit "lsi", aState "measurement"])
  let saltPPM ← rd .i
  store (ctlSensor "salt_ppm") (entry "Salt" (.int (saltPPM * 50)) [aUnit "ppm", aState "measurement"])
  let pHTank ← rd .i
  store (ctlSensor "ph_supply_level") (entry "pH Supply Level" (.int pHTank) [aState "measurement"])
  let orpTank ← rd .i
  store (ctlSensor "orp_supply_level") (entry "ORP Supply Level" (.int orpTank) [aState "measurement"])
  let alert ← rd .i
  store (ctlSensor "active_alert") (entry "Active Alert" (.int alert) [aDev "alarm"])

/-- `decode_pool_status`: requests/status.py:30-231. -/
def decodeStatus : Prog Unit := do
  let unit ← decodeStatusHead
  let bodiesCount ← rd .I
  let n := min bodiesCount.toNat 2
  let bodySetpoints ← lookup [.s "controller", .s "configuration", .s "body_type"]
  setdefault [.s "body"] (.dict [])
  forRange n (decodeBody unit bodySetpoints)
  let circuitCount ← rd .I
  setdefault [.s "circuit"] (.dict [])
  forRange circuitCount.toNat decodeStatusCircuit
  decodeStatusTail

/-! ## requests/config.py -/

/-- `CONTROLLER.CONTROLLER_HARDWARE_MAP`: device_const/system.py:11-35. -/
def controllerHardwareMap : List (Int × List (Int × String)) :=
  [(0, [(0, "IntelliTouch i5+3S")]),
   (1, [(0, "IntelliTouch i7+3")]),
   (2, [(0, "IntelliTouch i9+3")]),
   (3, [(0, "IntelliTouch i5+3S")]),
   (4, [(0, "IntelliTouch i9+3S")]),
   (5, [(0, "IntelliTouch i10+3D"), (1, "IntelliTouch i10X")]),
   (6, [(0, "IntelliTouch i10X")]),
   (10, [(0, "SunTouch")]),
   (11, [(0, "Suntouch/Intellicom")]),
   (13, [(0, "EasyTouch2 8"), (1, "EasyTouch2 8P"), (2, "EasyTouch2 4"), (3, "EasyTouch2 4P"),
         (5, "EasyTouch2 PL4"), (6, "EasyTouch2 PSL4")]),
   (14, [(0, "EasyTouch1 8"), (1, "EasyTouch1 8P"), (2, "EasyTouch1 4"), (3, "EasyTouch1 4P")])]

/-- `CONTROLLER.model_from_type`: device_const/system.py:37-43. -/
def modelFromType (c h : Int) : String :=
  match aget c controllerHardwareMap with
  | some m =>
    match aget h m with
    | some s => s
    | none => "Unknown Model C:" ++ toString c ++ " H:" ++ toString h
  | none => "Unknown Model C:" ++ toString c ++ " H:" ++ toString h

/-- Limits of one body type: requests/config.py:36-43. -/
def decodeSetpoints (i : Nat) : Prog Unit := do
  let b : Int := i
  setdefault [.s "controller", .s "configuration", .s "body_type", .i b] (.dict [])
  let lo ← rd .B
  store [.s "controller", .s "configuration", .s "body_type", .i b, .s "min_setpoint"] (.int lo)
  let hi ← rd .B
  store [.s "controller", .s "configuration", .s "body_type", .i b, .s "max_setpoint"] (.int hi)

/-- `equipFlags & EQUIPMENT_MASK_736 if minor <= 736 else equipFlags`, when the adapter version is
known: requests/config.py:69-71, requests/utility.py:159-160. -/
def maskFlags (minor : Option Val) (flags : Int) : Prog Int :=
  match minor with
  | none | some .null => pure flags
  | some (.flt m) => pure (if m ≤ 736 then ((flags.toNat &&& 0xFFFF : Nat) : Int) else flags)
  | some (.int m) => pure (if m ≤ 736 then ((flags.toNat &&& 0xFFFF : Nat) : Int) else flags)
  | some _ => throw .typeError

/-- `[m.name for m in EQUIPMENT_FLAG if m in EQUIPMENT_FLAG(flags)]`: requests/config.py:75-80
(`IntFlag.__contains__`: all bits of the member are set). -/
def equipmentList (flags : Int) : List String :=
  (enEquipmentFlag.filter (fun m => flags.toNat &&& m.2.toNat == m.2.toNat)).map (·.1)

/-- One circuit of the configuration: requests/config.py:89-127. -/
def decodeConfigCircuit (_ : Nat) : Prog Unit := do
  let id ← rd .i
  setdefault [.s "circuit", .i id] (.dict [])
  store [.s "circuit", .i id, .s "circuit_id"] (.int id)
  let name ← rdString
  store [.s "circuit", .i id, .s "name"] (.str name)
  setdefault [.s "circuit", .i id, .s "configuration"] (.dict [])
  let nameIndex ← rd .B
  store [.s "circuit", .i id, .s "configuration", .s "name_index"] (.int nameIndex)
  let func ← rd .B
  store [.s "circuit", .i id, .s "function"] (.int func)
  let interface ← rd .B
  store [.s "circuit", .i id, .s "interface"] (.int interface)
  let flags ← rd .B
  store [.s "circuit", .i id, .s "configuration", .s "flags"] (.int flags)
  let colorSet ← rd .B
  let colorPosition ← rd .B
  let colorStagger ← rd .B
  store [.s "circuit", .i id, .s "color"] (colorDict colorSet colorPosition colorStagger)
  let deviceId ← rd .B
  store [.s "circuit", .i id, .s "device_id"] (.int deviceId)
  let runtime ← rd .H
  store [.s "circuit", .i id, .s "configuration", .s "default_runtime"] (.int runtime)
  let o ← offset
  let x ← rd .B
  store [.s "circuit", .i id, .s "configuration", .s (unknownAt o)] (.int x)
  let o ← offset
  let x ← rd .B
  store [.s "circuit", .i id, .s "configuration", .s (unknownAt o)] (.int x)

/-- One colour: requests/config.py:134-144. -/
def decodeColor (_ : Nat) (colors : List Val) : Prog (List Val) := do
  let name ← rdString
  let r ← rd .I
  let g ← rd .I
  let b ← rd .I
  pure (colors ++ [.dict [(.s "name", .str name), (.s "value", .tuple [.int r, .int g, .int b])]])

/-- The data byte of one pump: requests/config.py:151-154. -/
def decodePumpData (i : Nat) : Prog Unit := do
  let b : Int := i
  setdefault [.s "pump", .i b] (.dict [])
  let x ← rd .B
  store [.s "pump", .i b, .s "data"] (.int x)

/-- The controller part at the start of the configuration: requests/config.py:28-83. -/
def decodeConfigHead : Prog Unit := do
  setdefault [.s "controller"] (.dict [])
  let controllerId ← rd .I
  store [.s "controller", .s "controller_id"] (.int controllerId)
  setdefault [.s "controller", .s "configuration"] (.dict [])
  setdefault [.s "controller", .s "configuration", .s "body_type"] (.dict [])
  forRange 2 decodeSetpoints
  let degC ← rd .B
  store (ctlConfig "is_celsius") (entry "Is Celsius" (.int degC) [])
  let cType ← rd .B
  store (ctlConfig "controller_type") (.int cType)
  let hType ← rd .B
  store (ctlConfig "hardware_type") (.int hType)
  store [.s "controller", .s "model"] (entry "Model" (.str (modelFromType cType hType)) [])
  let cData ← rd .B
  store (ctlConfig "controller_data") (.int cData)
  setdefault [.s "controller", .s "equipment"] (.dict [])
  let equipFlags ← rd .I
  let minor ← lookup [.s "adapter", .s "firmware", .s "minor"]
  let equipFlags ← maskFlags minor equipFlags
  store [.s "controller", .s "equipment", .s "flags"] (.int equipFlags)
  store [.s "controller", .s "equipment", .s "list"] (.list ((equipmentList equipFlags).map .str))
  let name ← rdString
  store (ctlConfig "generic_circuit_name") (.str name)

/-- `decode_pool_config`: requests/config.py:27-158. -/
def decodeConfig : Prog Unit := do
  decodeConfigHead
  let circuitCount ← rd .I
  store (ctlConfig "circuit_count") (.int circuitCount)
  setdefault [.s "circuit"] (.dict [])
  forRange circuitCount.toNat decodeConfigCircuit
  let colorCount ← rd .I
  store (ctlConfig "color_count") (.int colorCount)
  let colors ← loop decodeColor colorCount.toNat 0 []
  store (ctlConfig "color") (.list colors)
  setdefault [.s "pump"] (.dict [])
  forRange 8 decodePumpData
  let tabs ← rd .I
  store (ctlConfig "interface_tab_flags") (.int tabs)
  let alarms ← rd .I
  store (ctlConfig "show_alarms") (.int alarms)

/-! ## requests/scg.py -/

/-- `decode_scg_config`: requests/scg.py:24-85. -/
def decodeScg : Prog Unit := do
  setdefault [.s "scg"] (.dict [])
  let present ← rd .I
  store [.s "scg", .s "scg_present"] (.int present)
  setdefault [.s "scg", .s "sensor"] (.dict [])
  let state ← rd .I
  store [.s "scg", .s "sensor", .s "state"] (entry "Chlorinator" (.int (onOff state 0x01)) [])
  setdefault [.s "scg", .s "configuration"] (.dict [])
  let level1 ← rd .I
  store [.s "scg", .s "configuration", .s "pool_setpoint"]
    (entry "Pool Chlorinator Setpoint" (.int level1)
      (aUnit "%" :: aRange 0 100 ++ [(.s "step", .int 1), (.s "body_type", .int 0)]))
  let level2 ← rd .I
  store [.s "scg", .s "configuration", .s "spa_setpoint"]
    (entry "Spa Chlorinator Setpoint" (.int level2)
      (aUnit "%" :: aRange 0 100 ++ [(.s "step", .int 1), (.s "body_type", .int 1)]))
  let salt ← rd .I
  store [.s "scg", .s "sensor", .s "salt_ppm"]
    (entry "Chlorinator Salt" (.int (salt * 50)) [aUnit "ppm", aState "measurement"])
  let flags ← rd .I
  store [.s "scg", .s "flags"] (.int flags)
  store [.s "scg", .s "super_chlorinate"] (entry "Super Chlorinate" (.int (onOff flags 0x01)) [])
  let timer ← rd .I
  store [.s "scg", .s "configuration", .s "super_chlor_timer"]
    (entry "Super Chlorination Timer" (.int timer) (aUnit "hr" :: aRange 0 72 ++ [(.s "step", .int 1)]))

/-! ## requests/chemistry.py -/

/-- `intellichem[group][key]`. -/
@[reducible] def chem (g k : String) : Path := [.s "intellichem", .s g, .s k]

/-- Readings, set points and dosing: requests/chemistry.py:38-133. -/
def decodeChemistryA : Prog Unit := do
  setdefault [.s "intellichem"] (.dict [])
  let x ← rd .I
  store [.s "intellichem", .s (unknownAt 0)] (.int x)
  let o ← offset
  let x ← rd .B
  store [.s "intellichem", .s (unknownAt o)] (.int x)
  setdefault [.s "intellichem", .s "sensor"] (.dict [])
  let pH ← rd .beH
  store (chem "sensor" "ph_now") (entry "pH Now" (.flt (intDiv pH 100)) [aUnit "pH", aState "measurement"])
  let orp ← rd .beH
  store (chem "sensor" "orp_now") (entry "ORP Now" (.int orp) [aUnit "mV", aState "measurement"])
  setdefault [.s "intellichem", .s "configuration"] (.dict [])
  let pHSetpoint ← rd .beH
  store (chem "configuration" "ph_setpoint")
    (entry "pH Setpoint" (.flt (intDiv pHSetpoint 100))
      [aUnit "pH", (.s "min_setpoint", .flt (intDiv 72 10)), (.s "max_setpoint", .flt (intDiv 76 10))])
  let orpSetpoint ← rd .beH
  store (chem "configuration" "orp_setpoint")
    (entry "ORP Setpoint" (.int orpSetpoint) (aUnit "mV" :: aRange 400 800))
  setdefault [.s "intellichem", .s "dose_status"] (.dict [])
  let pHDoseTime ← rd .beI
  store (chem "dose_status" "ph_last_dose_time")
    (entry "Last pH Dose Time" (.int pHDoseTime) [aUnit "sec", aDev "duration", aState "total_increasing"])
  let orpDoseTime ← rd .beI
  store (chem "dose_status" "orp_last_dose_time")
    (entry "Last ORP Dose Time" (.int orpDoseTime) [aUnit "sec", aDev "duration", aState "total_increasing"])
  let pHDoseVolume ← rd .beH
  store (chem "dose_status" "ph_last_dose_volume")
    (entry "Last pH Dose Volume" (.int pHDoseVolume) [aUnit "mL", aDev "volume", aState "total_increasing"])
  let orpDoseVolume ← rd .beH
  store (chem "dose_status" "orp_last_dose_volume")
    (entry "Last ORP Dose Volume" (.int orpDoseVolume) [aUnit "mL", aDev "volume", aState "total_increasing"])
  let pHSupply ← rd .B
  store (chem "sensor" "ph_supply_level") (entry "pH Supply Level" (.int pHSupply) [aState "measurement"])
  let orpSupply ← rd .B
  store (chem "sensor" "orp_supply_level") (entry "ORP Supply Level" (.int orpSupply) [aState "measurement"])

/-- Saturation, set points and water temperature: requests/chemistry.py:135-192. -/
def decodeChemistryB : Prog Unit := do
  let saturation ← rd .B
  store (chem "sensor" "saturation")
    (entry "Saturation Index"
      (.flt (if saturation.toNat &&& 0x80 ≠ 0 then intDiv (saturation - 256) 100 else intDiv saturation 100))
      [aUnit "lsi", aState "measurement"])
  let cal ← rd .beH
  store (chem "configuration" "calcium_hardness")
    (entry "Calcium Hardness" (.int cal) (aUnit "ppm" :: aRange 25 800))
  let cya ← rd .beH
  store (chem "configuration" "cya") (entry "Cyanuric Acid" (.int cya) (aUnit "ppm" :: aRange 0 201))
  let alk ← rd .beH
  store (chem "configuration" "total_alkalinity")
    (entry "Total Alkalinity" (.int alk) (aUnit "ppm" :: aRange 25 800))
  let saltPPM ← rd .B
  store (chem "configuration" "salt_tds_ppm")
    (entry "Salt/TDS" (.int (saltPPM * 50)) (aUnit "ppm" :: aRange 500 6500))
  let probeIsC ← rd .B
  store (chem "configuration" "probe_is_celsius") (.int probeIsC)
  let unit ← getTemperatureUnit
  let waterTemp ← rd .B
  store (chem "sensor" "ph_probe_water_temp")
    (entry "pH Probe Water Temperature" (.int waterTemp) [aUnit unit, aDev "temperature", aState "measurement"])

/-- Alarms, alerts and dosing states: requests/chemistry.py:194-277. -/
def decodeChemistryC : Prog Unit := do
  setdefault [.s "intellichem", .s "alarm"] (.dict [])
  let alarms ← rd .B
  store (chem "alarm" "flags") (.int alarms)
  store (chem "alarm" "flow_alarm") (entry "Flow Alarm" (.int (onOff alarms 0x01)) [aDev "alarm"])
  store (chem "alarm" "ph_high_alarm") (entry "pH HIGH Alarm" (.int (onOff alarms 0x02)) [aDev "alarm"])
  store (chem "alarm" "ph_low_alarm") (entry "pH LOW Alarm" (.int (onOff alarms 0x04)) [aDev "alarm"])
  store (chem "alarm" "orp_high_alarm") (entry "ORP HIGH Alarm" (.int (onOff alarms 0x08)) [aDev "alarm"])
  store (chem "alarm" "orp_low_alarm") (entry "ORP LOW Alarm" (.int (onOff alarms 0x10)) [aDev "alarm"])
  store (chem "alarm" "ph_supply_alarm") (entry "pH Supply Alarm" (.int (onOff alarms 0x20)) [aDev "alarm"])
  store (chem "alarm" "orp_supply_alarm") (entry "ORP Supply Alarm" (.int (onOff alarms 0x40)) [aDev "alarm"])
  store (chem "alarm" "probe_fault_alarm") (entry "Probe Fault" (.int (onOff alarms 0x80)) [aDev "alarm"])
  setdefault [.s "intellichem", .s "alert"] (.dict [])
  let alerts ← rd .B
  store (chem "alert" "flags") (.int alerts)
  store (chem "alert" "ph_lockout") (entry "pH Lockout" (.int (onOff alerts 0x01)) [])
  store (chem "alert" "ph_limit") (entry "pH Dose Limit Reached" (.int (onOff alerts 0x02)) [])
  store (chem "alert" "orp_limit") (entry "ORP Dose Limit Reached" (.int (onOff alerts 0x04)) [])
  let doseFlags ← rd .B
  store (chem "dose_status" "flags") (.int doseFlags)
  store (chem "dose_status" "ph_dosing_state")
    (entry "pH Dosing State" (.int (((doseFlags.toNat &&& 0x30) >>> 4 : Nat) : Int)) [aDev "enum", aEnum enDoseState])
  store (chem "dose_status" "orp_dosing_state")
    (entry "ORP Dosing State" (.int (((doseFlags.toNat &&& 0xC0) >>> 6 : Nat) : Int)) [aDev "enum", aEnum enDoseState])

/-- Configuration flags, firmware and water balance: requests/chemistry.py:279-309. -/
def decodeChemistryD : Prog Unit := do
  let configFlags ← rd .B
  store (chem "configuration" "flags") (.int configFlags)
  let vMinor ← rd .B
  let vMajor ← rd .B
  store [.s "intellichem", .s "firmware"]
    (entry "IntelliChem Firmware" (.str (toString vMajor ++ "." ++ fmt03 vMinor.toNat))
      [(.s "major", .int vMajor), (.s "minor", .int vMinor)])
  setdefault [.s "intellichem", .s "water_balance"] (.dict [])
  let balance ← rd .B
  store (chem "water_balance" "flags") (.int balance)
  store (chem "water_balance" "corrosive") (entry "SI Corrosive" (.int (onOff balance 0x1)) [aDev "alarm"])
  store (chem "water_balance" "scaling") (entry "SI Scaling" (.int (onOff balance 0x2)) [aDev "alarm"])
  let o ← offset
  let x ← rd .B
  store [.s "intellichem", .s (unknownAt o)] (.int x)
  let o ← offset
  let x ← rd .B
  store [.s "intellichem", .s (unknownAt o)] (.int x)
  let o ← offset
  let x ← rd .B
  store [.s "intellichem", .s (unknownAt o)] (.int x)

/-- `decode_chemistry`: requests/chemistry.py:37-309. -/
def decodeChemistry : Prog Unit := do
  decodeChemistryA
  decodeChemistryB
  decodeChemistryC
  decodeChemistryD

/-! ## requests/pump.py -/

/-- White space as stripped and split on by Python's `str` methods (CPython `_PyUnicode_IsWhitespace`). -/
def pyIsSpace (c : Char) : Bool :=
  let n := c.toNat
  (9 ≤ n && n ≤ 13) || (28 ≤ n && n ≤ 32) || n == 0x85 || n == 0xA0 || n == 0x1680 ||
  (0x2000 ≤ n && n ≤ 0x200A) || n == 0x2028 || n == 0x2029 || n == 0x202F || n == 0x205F || n == 0x3000

/-- `name.strip().strip(",")`: requests/pump.py:66. -/
def stripName (s : String) : String :=
  String.ofList (stripBy (· == ',') (stripBy pyIsSpace s.toList))

/-- The inner loop over the circuits, naming the pump: requests/pump.py:54-62.  (Simplification: a
circuit name that is not a string raises here instead of at the later `strip`.) -/
def nameFromCircuits (devId : Int) : List (Key × Val) → String → Prog String
  | [], name => pure name
  | (_, circuit) :: rest, name => do
    let d ← subscript circuit (.s "device_id")
    if d = .int devId ∧ name = "Default" then
      match ← subscript circuit (.s "name") with
      | .str n => pure n
      | _ => throw .attributeError
    else nameFromCircuits devId rest name

/-- `for circuit in data.get(DEVICE.CIRCUIT, {}).values()`: requests/pump.py:54-62. -/
def pumpName (devId : Int) (circuits : Option Val) (name : String) : Prog String :=
  match circuits with
  | none => pure name
  | some (.dict kv) => nameFromCircuits devId kv name
  | some _ => throw .attributeError

/-- One preset: requests/pump.py:50-64. -/
def decodePreset (pump : Int) (i : Nat) (name : String) : Prog String := do
  let b : Int := i
  setdefault [.s "pump", .i pump, .s "preset", .i b] (.dict [])
  let devId ← rd .I
  store [.s "pump", .i pump, .s "preset", .i b, .s "device_id"] (.int devId)
  let circuits ← lookup [.s "circuit"]
  let name ← pumpName devId circuits name
  let setpoint ← rd .I
  store [.s "pump", .i pump, .s "preset", .i b, .s "setpoint"] (.int setpoint)
  let isRpm ← rd .I
  store [.s "pump", .i pump, .s "preset", .i b, .s "is_rpm"] (.int isRpm)
  pure name

/-- Storing the readings once the name is known: requests/pump.py:66-88. -/
def decodePumpTail (pump curW curR curG : Int) (name : String) : Prog Unit := do
  let name := stripName name ++ " Pump"
  store [.s "pump", .i pump, .s "state", .s "name"] (.str name)
  store [.s "pump", .i pump, .s "watts_now"]
    (entry (name ++ " Watts Now") (.int curW) [aUnit "W", aDev "power", aState "measurement"])
  store [.s "pump", .i pump, .s "rpm_now"]
    (entry (name ++ " RPM Now") (.int curR) [aUnit "rpm", aState "measurement"])
  store [.s "pump", .i pump, .s "gpm_now"]
    (entry (name ++ " GPM Now") (.int curG) [aUnit "gpm", aState "measurement"])

/-- Storing the state unless its top bit is set (a transitional value): requests/pump.py:30-34. -/
def setPumpState (pump state : Int) : Prog Unit :=
  if state.toNat &&& 0x80000000 = 0 then store [.s "pump", .i pump, .s "state", .s "value"] (.int state)
  else pure ()

/-- `decode_pump_status`: requests/pump.py:22-88. -/
def decodePump (pump : Int) : Prog Unit := do
  setdefault [.s "pump"] (.dict [])
  setdefault [.s "pump", .i pump] (.dict [])
  let type ← rd .I
  store [.s "pump", .i pump, .s "type"] (.int type)
  let state ← rd .I
  setdefault [.s "pump", .i pump, .s "state"] (.dict [(.s "name", .str ""), (.s "value", .int 0)])
  setPumpState pump state
  let curW ← rd .I
  store [.s "pump", .i pump, .s "watts_now"] (.dict [])
  let curR ← rd .I
  store [.s "pump", .i pump, .s "rpm_now"] (.dict [])
  let o ← offset
  let x ← rd .I
  store [.s "pump", .i pump, .s (unknownAt o)] (.int x)
  let curG ← rd .I
  store [.s "pump", .i pump, .s "gpm_now"] (.dict [])
  let o ← offset
  let x ← rd .I
  store [.s "pump", .i pump, .s (unknownAt o)] (.int x)
  setdefault [.s "pump", .i pump, .s "preset"] (.dict [])
  let name ← loop (decodePreset pump) 8 0 "Default"
  decodePumpTail pump curW curR curG name

/-! ## requests/lights.py, gateway.py, datetime.py, equipment.py -/

/-- `decode_color_update`: requests/lights.py:27-38. -/
def decodeColorUpdate : Prog Unit := do
  setdefault [.s "controller"] (.dict [])
  setdefault [.s "controller", .s "color_lights"] (.dict [])
  let mode ← rd .I
  store [.s "controller", .s "color_lights", .s "color_mode"] (.int mode)
  let progress ← rd .I
  store [.s "controller", .s "color_lights", .s "progress"] (.int progress)
  let limit ← rd .I
  store [.s "controller", .s "color_lights", .s "limit"] (.int limit)
  let text ← rdString
  store [.s "controller", .s "color_lights", .s "text"] (.str text)

/-- `str.split()` on characters: the maximal runs of non-space characters (`cur` is the run being
collected). -/
def splitChars : List Char → List Char → List (List Char)
  | [], cur => if cur.isEmpty then [] else [cur]
  | c :: cs, cur =>
    if pyIsSpace c then (if cur.isEmpty then splitChars cs [] else cur :: splitChars cs [])
    else splitChars cs (cur ++ [c])

/-- `s.split()`. -/
def pySplit (s : String) : List String := (splitChars s.toList []).map String.ofList

/-- `float(parts[i])` where `float` is the given conversion of texts. -/
def floatPart (pyFloat : String → Except PyErr Rat) (parts : List String) (i : Nat) : Prog Rat :=
  match parts[i]? with
  | none => throw .indexError
  | some s =>
    match pyFloat s with
    | .ok q => pure q
    | .error e => throw e

/-- `decode_version`: requests/gateway.py:18-27.  Python's `float(str)` is a parameter. -/
def decodeVersion (pyFloat : String → Except PyErr Rat) : Prog Unit := do
  setdefault [.s "adapter"] (.dict [])
  let firmware ← rdMsgString
  let parts := pySplit firmware
  let major ← floatPart pyFloat parts 1
  let minor ← floatPart pyFloat parts 3
  store [.s "adapter", .s "firmware"]
    (entry "Protocol Adapter Firmware" (.str firmware) [(.s "major", .flt major), (.s "minor", .flt minor)])

/-- `datetime.timestamp()` of an aware UTC datetime: `(self - epoch).total_seconds()`, a correctly rounded
division of the microseconds by 10^6 (CPython). -/
def DateTime.timestamp (t : DateTime) : Rat :=
  intDiv (((((t.ordinal : Int) - 719163) * 86400 + t.hour * 3600 + t.minute * 60 + t.second) * 1000000
    + t.microsecond)) 1000000

/-- `decode_date_time`: requests/datetime.py:23-37; `now` is the host's clock (`timestamp()` of
`datetime.now`). -/
def decodeDateTime (now : Rat) : Prog Unit := do
  setdefault [.s "controller"] (.dict [])
  setdefault [.s "controller", .s "date_time"] (.dict [])
  let dt ← rdTime
  store [.s "controller", .s "date_time", .s "timestamp"] (.flt dt.timestamp)
  store [.s "controller", .s "date_time", .s "timestamp_host"] (.flt now)
  let autoDst ← rd .I
  store [.s "controller", .s "date_time", .s "auto_dst"] (entry "Automatic Daylight Saving Time" (.int autoDst) [])

/-- One array of the equipment configuration. -/
def decodeEquipArray (key : String) : Prog Unit := do
  let xs ← rdArray
  store [.s "equipment", .s key] (.list (xs.map .int))

/-- `decode_equipment_config`: requests/equipment.py:20-40. -/
def decodeEquipment : Prog Unit := do
  setdefault [.s "equipment"] (.dict [])
  let x ← rd .B
  store [.s "equipment", .s "controllerType"] (.int x)
  let x ← rd .B
  store [.s "equipment", .s "hardwareType"] (.int x)
  let o ← offset
  let x ← rd .B
  store [.s "equipment", .s (unknownAt o)] (.int x)
  let o ← offset
  let x ← rd .B
  store [.s "equipment", .s (unknownAt o)] (.int x)
  let x ← rd .I
  store [.s "equipment", .s "controllerData"] (.int x)
  decodeEquipArray "versionDataArray"
  decodeEquipArray "speedDataArray"
  decodeEquipArray "valveDataArray"
  decodeEquipArray "remoteDataArray"
  decodeEquipArray "sensorDataArray"
  decodeEquipArray "delayDataArray"
  decodeEquipArray "macrosDataArray"
  decodeEquipArray "miscDataArray"
  decodeEquipArray "lightDataArray"
  decodeEquipArray "flowsDataArray"
  decodeEquipArray "sgsDataArray"
  decodeEquipArray "spaFlowsDataArray"

/-! ## All decoders together -/

/-- The decoder calls: a kind of message (with the pump index, or the host's clock at the call). -/
inductive Decoder
  | status | config | scg | chemistry
  | pump (i : Int)
  | colorUpdate | version
  | dateTime (now : Rat)
  | equipment

/-- The program of each decoder. -/
def Decoder.prog (pyFloat : String → Except PyErr Rat) : Decoder → Prog Unit
  | .status => decodeStatus
  | .config => decodeConfig
  | .scg => decodeScg
  | .chemistry => decodeChemistry
  | .pump i => decodePump i
  | .colorUpdate => decodeColorUpdate
  | .version => decodeVersion pyFloat
  | .dateTime now => decodeDateTime now
  | .equipment => decodeEquipment

/-- Data a gateway can hold: starting from `{}` (screenlogicpy/gateway.py:60), any sequence of decoder calls
on any payloads, whether they succeed or raise. -/
inductive Reachable (pyFloat : String → Except PyErr Rat) : Val → Prop
  | init : Reachable pyFloat (.dict [])
  | step {d : Val} (D : Decoder) (buff : Bytes) :
      Reachable pyFloat d → Reachable pyFloat (decodeWith (D.prog pyFloat) buff d).2

end SL
