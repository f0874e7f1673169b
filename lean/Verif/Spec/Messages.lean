import Verif.Spec.Wire
import Verif.Model.Val
import Verif.Model.Float
/-!
# Message layouts and documented data paths, written down independently of the decoders

Each message kind is a record of its fields with their wire types (so every record is a possible message), an
encoding in wire order, and a table of the documented readings: the path in the data tree and the value expected
there.  Only the data types `Val`, `Path` and the correctly rounded division `intDiv` are shared with the model.
-/
namespace Spec
open SL (Val Path Key intDiv)

/-- Big-endian 16 bits. -/
def be16 (v : Nat) : List UInt8 := [byte (v / 256), byte v]
/-- Big-endian 32 bits. -/
def be32 (v : Nat) : List UInt8 := [byte (v / 16777216), byte (v / 65536), byte (v / 256), byte v]

/-- A text that fits the wire and neither starts nor ends with NUL. -/
structure Text where
  s : String
  short : s.toUTF8.size < 2147483648
  head : s.toList.head? ≠ some (Char.ofNat 0)
  last : s.toList.getLast? ≠ some (Char.ofNat 0)

/-- A text on the wire: length, UTF-8 bytes, zero padding to a multiple of 4. -/
def Text.enc (t : Text) : List UInt8 := block t.s.toUTF8.data.toList

/-- Bit `n` as the number 0 or 1. -/
def bit (v n : Nat) : Int := if v.testBit n then 1 else 0

/-- A path of names, ending in "value". -/
def value (p : List Key) : Path := p ++ [.s "value"]

/-! ## Chlorinator -/

/-- Contents of a chlorinator (SCG) message. -/
structure Scg where
  present : UInt32
  state : UInt32
  poolSetpoint : UInt32
  spaSetpoint : UInt32
  salt : UInt32
  flags : UInt32
  timer : UInt32

/-- Layout. -/
def Scg.enc (m : Scg) : List UInt8 :=
  [u32 m.present.toNat, u32 m.state.toNat, u32 m.poolSetpoint.toNat, u32 m.spaSetpoint.toNat, u32 m.salt.toNat,
   u32 m.flags.toNat, u32 m.timer.toNat].flatten

/-- Readings. -/
def Scg.readings (m : Scg) : List (Path × Val) :=
  [([.s "scg", .s "scg_present"], .int m.present.toNat),
   (value [.s "scg", .s "sensor", .s "state"], .int (bit m.state.toNat 0)),
   (value [.s "scg", .s "configuration", .s "pool_setpoint"], .int m.poolSetpoint.toNat),
   (value [.s "scg", .s "configuration", .s "spa_setpoint"], .int m.spaSetpoint.toNat),
   (value [.s "scg", .s "sensor", .s "salt_ppm"], .int (m.salt.toNat * 50)),
   ([.s "scg", .s "flags"], .int m.flags.toNat),
   (value [.s "scg", .s "super_chlorinate"], .int (bit m.flags.toNat 0)),
   (value [.s "scg", .s "configuration", .s "super_chlor_timer"], .int m.timer.toNat)]

/-! ## Chemistry -/

/-- Contents of an IntelliChem message. -/
structure Chem where
  unk0 : UInt32
  unk4 : UInt8
  ph : UInt16
  orp : UInt16
  phSet : UInt16
  orpSet : UInt16
  phDoseTime : UInt32
  orpDoseTime : UInt32
  phDoseVol : UInt16
  orpDoseVol : UInt16
  phSupply : UInt8
  orpSupply : UInt8
  /-- hundredths, signed -/
  saturation : Int8
  calcium : UInt16
  cya : UInt16
  alkalinity : UInt16
  /-- in units of 50 ppm -/
  salt : UInt8
  probeIsC : UInt8
  waterTemp : UInt8
  alarms : UInt8
  alerts : UInt8
  doseFlags : UInt8
  configFlags : UInt8
  vMinor : UInt8
  vMajor : UInt8
  balance : UInt8
  unkA : UInt8
  unkB : UInt8
  unkC : UInt8

/-- Layout (big-endian numbers). -/
def Chem.enc (m : Chem) : List UInt8 :=
  [u32 m.unk0.toNat, [m.unk4], be16 m.ph.toNat, be16 m.orp.toNat, be16 m.phSet.toNat, be16 m.orpSet.toNat,
   be32 m.phDoseTime.toNat, be32 m.orpDoseTime.toNat, be16 m.phDoseVol.toNat, be16 m.orpDoseVol.toNat,
   [m.phSupply], [m.orpSupply], [m.saturation.toUInt8], be16 m.calcium.toNat, be16 m.cya.toNat,
   be16 m.alkalinity.toNat, [m.salt], [m.probeIsC], [m.waterTemp], [m.alarms], [m.alerts], [m.doseFlags],
   [m.configFlags], [m.vMinor], [m.vMajor], [m.balance], [m.unkA], [m.unkB], [m.unkC]].flatten

/-- The decimal digit of `n < 10`. -/
def digitChar (n : Nat) : Char := Char.ofNat (48 + n)

/-- A number below 1000 as three decimal digits. -/
def threeDigits (n : Nat) : List Char := [digitChar (n / 100), digitChar (n / 10 % 10), digitChar (n % 10)]

/-- A number below 1000 in decimal, without leading zeros. -/
def shortDecimal (n : Nat) : List Char :=
  if n < 10 then [digitChar n] else if n < 100 then [digitChar (n / 10), digitChar (n % 10)] else threeDigits n

/-- The firmware version as shown: `<major>.<minor as three digits>`. -/
def Chem.firmware (m : Chem) : String :=
  String.ofList (shortDecimal m.vMajor.toNat ++ ['.'] ++ threeDigits m.vMinor.toNat)

/-- `intellichem/<group>/<key>`. -/
def ic (g k : String) : List Key := [.s "intellichem", .s g, .s k]

/-- Readings; `unit` is the controller's temperature unit. -/
def Chem.readings (m : Chem) (unit : String) : List (Path × Val) :=
  [([.s "intellichem", .s "unknown_at_offset_00"], .int m.unk0.toNat),
   ([.s "intellichem", .s "unknown_at_offset_04"], .int m.unk4.toNat),
   (value (ic "sensor" "ph_now"), .flt (intDiv m.ph.toNat 100)),
   (value (ic "sensor" "orp_now"), .int m.orp.toNat),
   (value (ic "configuration" "ph_setpoint"), .flt (intDiv m.phSet.toNat 100)),
   (value (ic "configuration" "orp_setpoint"), .int m.orpSet.toNat),
   (value (ic "dose_status" "ph_last_dose_time"), .int m.phDoseTime.toNat),
   (value (ic "dose_status" "orp_last_dose_time"), .int m.orpDoseTime.toNat),
   (value (ic "dose_status" "ph_last_dose_volume"), .int m.phDoseVol.toNat),
   (value (ic "dose_status" "orp_last_dose_volume"), .int m.orpDoseVol.toNat),
   (value (ic "sensor" "ph_supply_level"), .int m.phSupply.toNat),
   (value (ic "sensor" "orp_supply_level"), .int m.orpSupply.toNat),
   (value (ic "sensor" "saturation"), .flt (intDiv m.saturation.toInt 100)),
   (value (ic "configuration" "calcium_hardness"), .int m.calcium.toNat),
   (value (ic "configuration" "cya"), .int m.cya.toNat),
   (value (ic "configuration" "total_alkalinity"), .int m.alkalinity.toNat),
   (value (ic "configuration" "salt_tds_ppm"), .int (m.salt.toNat * 50)),
   (ic "configuration" "probe_is_celsius", .int m.probeIsC.toNat),
   (value (ic "sensor" "ph_probe_water_temp"), .int m.waterTemp.toNat),
   (ic "sensor" "ph_probe_water_temp" ++ [.s "unit"], .str unit),
   (ic "alarm" "flags", .int m.alarms.toNat),
   (value (ic "alarm" "flow_alarm"), .int (bit m.alarms.toNat 0)),
   (value (ic "alarm" "ph_high_alarm"), .int (bit m.alarms.toNat 1)),
   (value (ic "alarm" "ph_low_alarm"), .int (bit m.alarms.toNat 2)),
   (value (ic "alarm" "orp_high_alarm"), .int (bit m.alarms.toNat 3)),
   (value (ic "alarm" "orp_low_alarm"), .int (bit m.alarms.toNat 4)),
   (value (ic "alarm" "ph_supply_alarm"), .int (bit m.alarms.toNat 5)),
   (value (ic "alarm" "orp_supply_alarm"), .int (bit m.alarms.toNat 6)),
   (value (ic "alarm" "probe_fault_alarm"), .int (bit m.alarms.toNat 7)),
   (ic "alert" "flags", .int m.alerts.toNat),
   (value (ic "alert" "ph_lockout"), .int (bit m.alerts.toNat 0)),
   (value (ic "alert" "ph_limit"), .int (bit m.alerts.toNat 1)),
   (value (ic "alert" "orp_limit"), .int (bit m.alerts.toNat 2)),
   (ic "dose_status" "flags", .int m.doseFlags.toNat),
   (value (ic "dose_status" "ph_dosing_state"), .int (m.doseFlags.toNat / 16 % 4 : Nat)),
   (value (ic "dose_status" "orp_dosing_state"), .int (m.doseFlags.toNat / 64 % 4 : Nat)),
   (ic "configuration" "flags", .int m.configFlags.toNat),
   ([.s "intellichem", .s "firmware", .s "value"], .str m.firmware),
   ([.s "intellichem", .s "firmware", .s "major"], .int m.vMajor.toNat),
   ([.s "intellichem", .s "firmware", .s "minor"], .int m.vMinor.toNat),
   (ic "water_balance" "flags", .int m.balance.toNat),
   (value (ic "water_balance" "corrosive"), .int (bit m.balance.toNat 0)),
   (value (ic "water_balance" "scaling"), .int (bit m.balance.toNat 1)),
   ([.s "intellichem", .s "unknown_at_offset_44"], .int m.unkA.toNat),
   ([.s "intellichem", .s "unknown_at_offset_45"], .int m.unkB.toNat),
   ([.s "intellichem", .s "unknown_at_offset_46"], .int m.unkC.toNat)]

/-! ## Pool status -/

/-- One body of water in the status message. -/
structure StatusBody where
  bodyType : UInt32
  lastTemp : Int32
  heatState : Int32
  heatSetpoint : Int32
  coolSetpoint : Int32
  heatMode : Int32

/-- Layout. -/
def StatusBody.enc (b : StatusBody) : List UInt8 :=
  [u32 b.bodyType.toNat, s32 b.lastTemp.toInt, s32 b.heatState.toInt, s32 b.heatSetpoint.toInt,
   s32 b.coolSetpoint.toInt, s32 b.heatMode.toInt].flatten

/-- `body/<i>/<key>`. -/
def bodyPath (i : Nat) (k : String) : List Key := [.s "body", .i i, .s k]

/-- Body types are 0 (pool) and 1 (spa); anything else is shown as pool. -/
def bodyTypeShown (t : Nat) : Int := if t = 1 then 1 else 0

/-- Readings of body number `i`. -/
def StatusBody.readings (b : StatusBody) (i : Nat) (unit : String) : List (Path × Val) :=
  [(bodyPath i "body_type", .int (bodyTypeShown b.bodyType.toNat)),
   (bodyPath i "name", .str (if b.bodyType.toNat = 1 then "Spa" else "Pool")),
   (value (bodyPath i "last_temperature"), .int b.lastTemp.toInt),
   (bodyPath i "last_temperature" ++ [.s "unit"], .str unit),
   (value (bodyPath i "heat_state"), .int b.heatState.toInt),
   (value (bodyPath i "heat_setpoint"), .int b.heatSetpoint.toInt),
   (bodyPath i "heat_setpoint" ++ [.s "unit"], .str unit),
   (value (bodyPath i "cool_setpoint"), .int b.coolSetpoint.toInt),
   (bodyPath i "cool_setpoint" ++ [.s "unit"], .str unit),
   (value (bodyPath i "heat_mode"), .int b.heatMode.toInt)]

/-- One circuit in the status message. -/
structure StatusCircuit where
  id : UInt32
  state : UInt32
  colorSet : UInt8
  colorPosition : UInt8
  colorStagger : UInt8
  delay : UInt8

/-- Layout. -/
def StatusCircuit.enc (c : StatusCircuit) : List UInt8 :=
  [u32 c.id.toNat, u32 c.state.toNat, [c.colorSet], [c.colorPosition], [c.colorStagger], [c.delay]].flatten

/-- `circuit/<id>/<key>`. -/
def circuitPath (id : Nat) (k : List Key) : List Key := .s "circuit" :: .i id :: k

/-- Readings of one circuit. -/
def StatusCircuit.readings (c : StatusCircuit) : List (Path × Val) :=
  [(circuitPath c.id.toNat [.s "value"], .int c.state.toNat),
   (circuitPath c.id.toNat [.s "color", .s "color_set"], .int c.colorSet.toNat),
   (circuitPath c.id.toNat [.s "color", .s "color_position"], .int c.colorPosition.toNat),
   (circuitPath c.id.toNat [.s "color", .s "color_stagger"], .int c.colorStagger.toNat),
   (circuitPath c.id.toNat [.s "configuration", .s "delay"], .int c.delay.toNat)]

/-- Contents of a pool status message. -/
structure Status where
  state : UInt32
  freezeMode : UInt8
  remotes : UInt8
  poolDelay : UInt8
  spaDelay : UInt8
  cleanerDelay : UInt8
  unk9 : UInt8
  unk10 : UInt8
  unk11 : UInt8
  airTemp : Int32
  bodies : List StatusBody
  atMostTwo : bodies.length ≤ 2
  circuits : List StatusCircuit
  countFits : circuits.length < 4294967296
  ph : Int32
  orp : Int32
  saturation : Int32
  salt : Int32
  phTank : Int32
  orpTank : Int32
  alert : Int32

/-- Layout. -/
def Status.enc (m : Status) : List UInt8 :=
  [u32 m.state.toNat, [m.freezeMode], [m.remotes], [m.poolDelay], [m.spaDelay], [m.cleanerDelay], [m.unk9],
   [m.unk10], [m.unk11], s32 m.airTemp.toInt, u32 m.bodies.length, m.bodies.flatMap StatusBody.enc,
   u32 m.circuits.length, m.circuits.flatMap StatusCircuit.enc, s32 m.ph.toInt, s32 m.orp.toInt,
   s32 m.saturation.toInt, s32 m.salt.toInt, s32 m.phTank.toInt, s32 m.orpTank.toInt, s32 m.alert.toInt].flatten

/-- `controller/sensor/<key>`. -/
def cs (k : String) : List Key := [.s "controller", .s "sensor", .s k]
/-- `controller/configuration/<key>`. -/
def cc (k : String) : List Key := [.s "controller", .s "configuration", .s k]

/-- Controller readings of the status message. -/
def Status.readings (m : Status) (unit : String) : List (Path × Val) :=
  [(value (cs "state"), .int m.state.toNat),
   (value (cs "freeze_mode"), .int (bit m.freezeMode.toNat 3)),
   (cc "remotes", .int m.remotes.toNat),
   (cc "unknown_at_offset_09", .int m.unk9.toNat),
   (cc "unknown_at_offset_10", .int m.unk10.toNat),
   (cc "unknown_at_offset_11", .int m.unk11.toNat),
   (value (cs "pool_delay"), .int m.poolDelay.toNat),
   (value (cs "spa_delay"), .int m.spaDelay.toNat),
   (value (cs "cleaner_delay"), .int m.cleanerDelay.toNat),
   (value (cs "air_temperature"), .int m.airTemp.toInt),
   (cs "air_temperature" ++ [.s "unit"], .str unit),
   (value (cs "ph"), .flt (intDiv m.ph.toInt 100)),
   (value (cs "orp"), .int m.orp.toInt),
   (value (cs "saturation"), .flt (intDiv m.saturation.toInt 100)),
   (value (cs "salt_ppm"), .int (m.salt.toInt * 50)),
   (value (cs "ph_supply_level"), .int m.phTank.toInt),
   (value (cs "orp_supply_level"), .int m.orpTank.toInt),
   (value (cs "active_alert"), .int m.alert.toInt)]

/-! ## Configuration -/

/-- One circuit of the configuration. -/
structure ConfigCircuit where
  id : Int32
  name : Text
  nameIndex : UInt8
  function : UInt8
  interface : UInt8
  flags : UInt8
  colorSet : UInt8
  colorPosition : UInt8
  colorStagger : UInt8
  deviceId : UInt8
  runtime : UInt16
  unkA : UInt8
  unkB : UInt8

/-- Layout. -/
def ConfigCircuit.enc (c : ConfigCircuit) : List UInt8 :=
  [s32 c.id.toInt, c.name.enc, [c.nameIndex], [c.function], [c.interface], [c.flags], [c.colorSet],
   [c.colorPosition], [c.colorStagger], [c.deviceId], u16 c.runtime.toNat, [c.unkA], [c.unkB]].flatten

/-- `circuit/<id>/...`. -/
def cir (id : Int) (k : List Key) : Path := .s "circuit" :: .i id :: k

/-- Readings of one circuit. -/
def ConfigCircuit.readings (c : ConfigCircuit) : List (Path × Val) :=
  [(cir c.id.toInt [.s "circuit_id"], .int c.id.toInt),
   (cir c.id.toInt [.s "name"], .str c.name.s),
   (cir c.id.toInt [.s "configuration", .s "name_index"], .int c.nameIndex.toNat),
   (cir c.id.toInt [.s "function"], .int c.function.toNat),
   (cir c.id.toInt [.s "interface"], .int c.interface.toNat),
   (cir c.id.toInt [.s "configuration", .s "flags"], .int c.flags.toNat),
   (cir c.id.toInt [.s "color", .s "color_set"], .int c.colorSet.toNat),
   (cir c.id.toInt [.s "color", .s "color_position"], .int c.colorPosition.toNat),
   (cir c.id.toInt [.s "color", .s "color_stagger"], .int c.colorStagger.toNat),
   (cir c.id.toInt [.s "device_id"], .int c.deviceId.toNat),
   (cir c.id.toInt [.s "configuration", .s "default_runtime"], .int c.runtime.toNat)]

/-- One colour definition. -/
structure Color where
  name : Text
  r : UInt32
  g : UInt32
  b : UInt32

/-- Layout. -/
def Color.enc (c : Color) : List UInt8 := [c.name.enc, u32 c.r.toNat, u32 c.g.toNat, u32 c.b.toNat].flatten

/-- As presented: name and (red, green, blue). -/
def Color.shown (c : Color) : Val :=
  .dict [(.s "name", .str c.name.s), (.s "value", .tuple [.int c.r.toNat, .int c.g.toNat, .int c.b.toNat])]

/-- Contents of a configuration message. -/
structure Config where
  controllerId : UInt32
  minPool : UInt8
  maxPool : UInt8
  minSpa : UInt8
  maxSpa : UInt8
  isCelsius : UInt8
  controllerType : UInt8
  hardwareType : UInt8
  controllerData : UInt8
  equipment : UInt32
  genericName : Text
  circuits : List ConfigCircuit
  circuitsFit : circuits.length < 4294967296
  colors : List Color
  colorsFit : colors.length < 4294967296
  pumps : List UInt8
  eightPumps : pumps.length = 8
  tabFlags : UInt32
  showAlarms : UInt32

/-- Layout. -/
def Config.enc (m : Config) : List UInt8 :=
  [u32 m.controllerId.toNat, [m.minPool], [m.maxPool], [m.minSpa], [m.maxSpa], [m.isCelsius], [m.controllerType],
   [m.hardwareType], [m.controllerData], u32 m.equipment.toNat, m.genericName.enc, u32 m.circuits.length,
   m.circuits.flatMap ConfigCircuit.enc, u32 m.colors.length, m.colors.flatMap Color.enc, m.pumps,
   u32 m.tabFlags.toNat, u32 m.showAlarms.toNat].flatten

/-- `controller/configuration/body_type/<i>/<key>`. -/
def bt (i : Int) (k : String) : Path := [.s "controller", .s "configuration", .s "body_type", .i i, .s k]

/-- Readings other than those of circuits, pumps and the equipment flags. -/
def Config.readings (m : Config) : List (Path × Val) :=
  [([.s "controller", .s "controller_id"], .int m.controllerId.toNat),
   (bt 0 "min_setpoint", .int m.minPool.toNat), (bt 0 "max_setpoint", .int m.maxPool.toNat),
   (bt 1 "min_setpoint", .int m.minSpa.toNat), (bt 1 "max_setpoint", .int m.maxSpa.toNat),
   (value (cc "is_celsius"), .int m.isCelsius.toNat),
   (cc "controller_type", .int m.controllerType.toNat),
   (cc "hardware_type", .int m.hardwareType.toNat),
   (cc "controller_data", .int m.controllerData.toNat),
   (cc "generic_circuit_name", .str m.genericName.s),
   (cc "circuit_count", .int m.circuits.length),
   (cc "color_count", .int m.colors.length),
   (cc "color", .list (m.colors.map Color.shown)),
   (cc "interface_tab_flags", .int m.tabFlags.toNat),
   (cc "show_alarms", .int m.showAlarms.toNat)]

/-! ## Pump -/

/-- One preset of a pump. -/
structure Preset where
  circuit : UInt32
  setpoint : UInt32
  isRpm : UInt32

/-- Layout. -/
def Preset.enc (p : Preset) : List UInt8 := [u32 p.circuit.toNat, u32 p.setpoint.toNat, u32 p.isRpm.toNat].flatten

/-- Contents of a pump status message. -/
structure Pump where
  type : UInt32
  state : UInt32
  watts : UInt32
  rpm : UInt32
  unk16 : UInt32
  gpm : UInt32
  unk24 : UInt32
  presets : List Preset
  eight : presets.length = 8

/-- Layout. -/
def Pump.enc (m : Pump) : List UInt8 :=
  [u32 m.type.toNat, u32 m.state.toNat, u32 m.watts.toNat, u32 m.rpm.toNat, u32 m.unk16.toNat, u32 m.gpm.toNat,
   u32 m.unk24.toNat, m.presets.flatMap Preset.enc].flatten

/-- `pump/<i>/...`. -/
def pumpPath (i : Int) (k : List Key) : Path := .s "pump" :: .i i :: k

/-- Readings of pump `i` named `name`. -/
def Pump.readings (m : Pump) (i : Int) (name : String) : List (Path × Val) :=
  [(pumpPath i [.s "type"], .int m.type.toNat),
   (pumpPath i [.s "unknown_at_offset_16"], .int m.unk16.toNat),
   (pumpPath i [.s "unknown_at_offset_24"], .int m.unk24.toNat),
   (pumpPath i [.s "state", .s "name"], .str (name ++ " Pump")),
   (pumpPath i [.s "watts_now", .s "value"], .int m.watts.toNat),
   (pumpPath i [.s "watts_now", .s "name"], .str (name ++ " Pump Watts Now")),
   (pumpPath i [.s "rpm_now", .s "value"], .int m.rpm.toNat),
   (pumpPath i [.s "gpm_now", .s "value"], .int m.gpm.toNat)]

/-- Readings of preset `j`. -/
def Preset.readings (p : Preset) (i : Int) (j : Nat) : List (Path × Val) :=
  [(pumpPath i [.s "preset", .i j, .s "device_id"], .int p.circuit.toNat),
   (pumpPath i [.s "preset", .i j, .s "setpoint"], .int p.setpoint.toNat),
   (pumpPath i [.s "preset", .i j, .s "is_rpm"], .int p.isRpm.toNat)]

/-! ## Colour update -/

/-- Contents of a colour-lights update. -/
structure ColorUpdate where
  mode : UInt32
  progress : UInt32
  limit : UInt32
  text : Text

/-- Layout. -/
def ColorUpdate.enc (m : ColorUpdate) : List UInt8 :=
  [u32 m.mode.toNat, u32 m.progress.toNat, u32 m.limit.toNat, m.text.enc].flatten

/-- Readings. -/
def ColorUpdate.readings (m : ColorUpdate) : List (Path × Val) :=
  [([.s "controller", .s "color_lights", .s "color_mode"], .int m.mode.toNat),
   ([.s "controller", .s "color_lights", .s "progress"], .int m.progress.toNat),
   ([.s "controller", .s "color_lights", .s "limit"], .int m.limit.toNat),
   ([.s "controller", .s "color_lights", .s "text"], .str m.text.s)]

end Spec

namespace Spec
open SL (Val Path Key intDiv)

/-! ## Date and time -/

/-- Number of days of a year of the Gregorian calendar. -/
def yearLength (y : Nat) : Nat := if y % 4 = 0 ∧ (y % 100 ≠ 0 ∨ y % 400 = 0) then 366 else 365

/-- Number of days of a month. -/
def monthLength (y m : Nat) : Nat :=
  if m = 2 then (if yearLength y = 366 then 29 else 28)
  else if m = 4 ∨ m = 6 ∨ m = 9 ∨ m = 11 then 30 else 31

/-- Days from 1 January of year 1 to the first of January of the year. -/
def daysToYear (y : Nat) : Nat := ((List.range (y - 1)).map (fun k => yearLength (k + 1))).sum

/-- Days from the first of January to the first of the month. -/
def daysToMonth (y m : Nat) : Nat := ((List.range (m - 1)).map (fun k => monthLength y (k + 1))).sum

/-- Contents of a date/time message: the eight 16-bit numbers of a Windows SYSTEMTIME and the daylight saving
flag.  The calendar fields form a real date (years 1 to 9999) and time. -/
structure DateTimeMsg where
  year : Nat
  month : Nat
  dayOfWeek : UInt16
  day : Nat
  hour : Nat
  minute : Nat
  second : Nat
  milli : Nat
  yearOk : 1 ≤ year ∧ year ≤ 9999
  monthOk : 1 ≤ month ∧ month ≤ 12
  dayOk : 1 ≤ day ∧ day ≤ monthLength year month
  hourOk : hour ≤ 23
  minuteOk : minute ≤ 59
  secondOk : second ≤ 59
  milliOk : milli ≤ 999
  autoDst : UInt32

/-- Layout. -/
def DateTimeMsg.enc (m : DateTimeMsg) : List UInt8 :=
  [u16 m.year, u16 m.month, u16 m.dayOfWeek.toNat, u16 m.day, u16 m.hour, u16 m.minute, u16 m.second,
   u16 m.milli, u32 m.autoDst.toNat].flatten

/-- Milliseconds since 1970-01-01T00:00:00 (which is day 719162 after 1 January of year 1). -/
def DateTimeMsg.unixMillis (m : DateTimeMsg) : Int :=
  ((((daysToYear m.year + daysToMonth m.year m.month + (m.day - 1) : Nat) : Int) - 719162) * 86400
    + m.hour * 3600 + m.minute * 60 + m.second) * 1000 + m.milli

/-- Readings: the clock in seconds (the nearest double), the host's clock and the flag. -/
def DateTimeMsg.readings (m : DateTimeMsg) (now : Rat) : List (Path × Val) :=
  [([.s "controller", .s "date_time", .s "timestamp"], .flt (intDiv (m.unixMillis * 1000) 1000000)),
   ([.s "controller", .s "date_time", .s "timestamp_host"], .flt now),
   ([.s "controller", .s "date_time", .s "auto_dst", .s "value"], .int m.autoDst.toNat)]

end Spec

namespace Spec
open SL (Val Path Key intDiv)

/-! ## Equipment -/

/-- The known equipment flags: bit number `i` is the `i`-th name. -/
def equipmentNames : List String :=
  ["SOLAR", "SOLAR_AS_HEAT_PUMP", "CHLORINATOR", "INTELLIBRITE", "INTELLIFLO_0", "INTELLIFLO_1", "INTELLIFLO_2",
   "INTELLIFLO_3", "INTELLIFLO_4", "INTELLIFLO_5", "INTELLIFLO_6", "INTELLIFLO_7", "NO_SPECIAL_LIGHTS",
   "HAS_COOLING", "MAGIC_STREAM", "INTELLICHEM", "HYBRID_HEATER"]

/-- Equipment bits reported: only the low 16 for adapter firmware up to 736. -/
def flagsShown (minor : Option Rat) (flags : Nat) : Nat :=
  match minor with
  | some m => if m ≤ 736 then flags % 65536 else flags
  | none => flags

/-- The names of the flags that are set. -/
def namesShown (flags : Nat) : List String :=
  (equipmentNames.zipIdx.filter (fun p => flags.testBit p.2)).map (·.1)

/-- The readings derived from the equipment flags and the controller and hardware types. -/
def Config.equipmentReadings (m : Config) (minor : Option Rat) : List (Path × Val) :=
  [([.s "controller", .s "equipment", .s "flags"], .int (flagsShown minor m.equipment.toNat)),
   ([.s "controller", .s "equipment", .s "list"],
     .list ((namesShown (flagsShown minor m.equipment.toNat)).map .str))]

end Spec

namespace Spec

/-- Controller models: (controller type, hardware type) and the name. -/
def models : List ((Int × Int) × String) :=
  [((0, 0), "IntelliTouch i5+3S"), ((1, 0), "IntelliTouch i7+3"), ((2, 0), "IntelliTouch i9+3"),
   ((3, 0), "IntelliTouch i5+3S"), ((4, 0), "IntelliTouch i9+3S"), ((5, 0), "IntelliTouch i10+3D"),
   ((5, 1), "IntelliTouch i10X"), ((6, 0), "IntelliTouch i10X"), ((10, 0), "SunTouch"),
   ((11, 0), "Suntouch/Intellicom"), ((13, 0), "EasyTouch2 8"), ((13, 1), "EasyTouch2 8P"),
   ((13, 2), "EasyTouch2 4"), ((13, 3), "EasyTouch2 4P"), ((13, 5), "EasyTouch2 PL4"), ((13, 6), "EasyTouch2 PSL4"),
   ((14, 0), "EasyTouch1 8"), ((14, 1), "EasyTouch1 8P"), ((14, 2), "EasyTouch1 4"), ((14, 3), "EasyTouch1 4P")]

/-- The model name: from the table, else a text with the two numbers. -/
def modelName (c h : Int) : String :=
  match models.find? (fun row => row.1 == (c, h)) with
  | some row => row.2
  | none => "Unknown Model C:" ++ toString c ++ " H:" ++ toString h

/-- The model reading. -/
def Config.modelReading (m : Config) : SL.Path × SL.Val :=
  ([.s "controller", .s "model", .s "value"], .str (modelName m.controllerType.toNat m.hardwareType.toNat))

end Spec

namespace Spec
open SL (Val Path Key)

/-! ## Naming of pumps -/

/-- The name of the first circuit with the given device id; circuits are given as (device id, name) in the
order in which they became known. -/
def circuitNamed (cs : List (Int × String)) (dev : Int) : Option String := (cs.find? (·.1 == dev)).map (·.2)

/-- The label of a pump: going through its presets in order, the first name found (a circuit that is itself
called "Default" does not count), else "Default". -/
def Pump.label (m : Pump) (cs : List (Int × String)) : String :=
  ((m.presets.filterMap (fun p => circuitNamed cs p.circuit.toNat)).find? (· ≠ "Default")).getD "Default"

/-- `t` is `s` without the characters of class `p` at both ends. -/
def Stripped (p : Char → Bool) (s t : List Char) : Prop :=
  ∃ a b, s = a ++ t ++ b ∧ (∀ c ∈ a, p c = true) ∧ (∀ c ∈ b, p c = true) ∧
    (∀ c, t.head? = some c → p c = false) ∧ (∀ c, t.getLast? = some c → p c = false)

/-- The circuits the data knows are exactly these (device id, name), in order. -/
def KnownCircuits (d : Val) (cs : List (Int × String)) : Prop :=
  (Val.look [.s "circuit"] d = none ∧ cs = []) ∨
  ∃ kv, Val.look [.s "circuit"] d = some (.dict kv) ∧
    kv.map (fun e => (Val.look [.s "device_id"] e.2, Val.look [.s "name"] e.2)) =
      cs.map (fun c => (some (.int c.1), some (.str c.2)))

/-- A list of bytes that fits the wire: its length is sent as 32 bits. -/
structure ByteArr where
  items : List UInt8
  short : items.length < 4294967296

/-- Layout: count, bytes, zero padding to a multiple of 4. -/
def ByteArr.enc (a : ByteArr) : List UInt8 := block a.items

/-- The list of numbers shown. -/
def ByteArr.shown (a : ByteArr) : Val := .list (a.items.map (fun b => .int b.toNat))

/-- Contents of an equipment configuration message. -/
structure Equipment where
  controllerType : UInt8
  hardwareType : UInt8
  unk2 : UInt8
  unk3 : UInt8
  controllerData : UInt32
  version : ByteArr
  speed : ByteArr
  valve : ByteArr
  remote : ByteArr
  sensor : ByteArr
  delay : ByteArr
  macros : ByteArr
  misc : ByteArr
  light : ByteArr
  flows : ByteArr
  sgs : ByteArr
  spaFlows : ByteArr

/-- Layout. -/
def Equipment.enc (m : Equipment) : List UInt8 :=
  [[m.controllerType], [m.hardwareType], [m.unk2], [m.unk3], u32 m.controllerData.toNat, m.version.enc, m.speed.enc,
   m.valve.enc, m.remote.enc, m.sensor.enc, m.delay.enc, m.macros.enc, m.misc.enc, m.light.enc, m.flows.enc,
   m.sgs.enc, m.spaFlows.enc].flatten

/-- Readings. -/
def Equipment.readings (m : Equipment) : List (Path × Val) :=
  [([.s "equipment", .s "controllerType"], .int m.controllerType.toNat),
   ([.s "equipment", .s "hardwareType"], .int m.hardwareType.toNat),
   ([.s "equipment", .s "unknown_at_offset_02"], .int m.unk2.toNat),
   ([.s "equipment", .s "unknown_at_offset_03"], .int m.unk3.toNat),
   ([.s "equipment", .s "controllerData"], .int m.controllerData.toNat),
   ([.s "equipment", .s "versionDataArray"], m.version.shown),
   ([.s "equipment", .s "speedDataArray"], m.speed.shown),
   ([.s "equipment", .s "valveDataArray"], m.valve.shown),
   ([.s "equipment", .s "remoteDataArray"], m.remote.shown),
   ([.s "equipment", .s "sensorDataArray"], m.sensor.shown),
   ([.s "equipment", .s "delayDataArray"], m.delay.shown),
   ([.s "equipment", .s "macrosDataArray"], m.macros.shown),
   ([.s "equipment", .s "miscDataArray"], m.misc.shown),
   ([.s "equipment", .s "lightDataArray"], m.light.shown),
   ([.s "equipment", .s "flowsDataArray"], m.flows.shown),
   ([.s "equipment", .s "sgsDataArray"], m.sgs.shown),
   ([.s "equipment", .s "spaFlowsDataArray"], m.spaFlows.shown)]

end Spec
