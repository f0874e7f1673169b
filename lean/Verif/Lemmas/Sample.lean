import Verif.Lemmas.Wired
import Verif.Props.PumpProps
/-!
# A concrete gateway, for witnesses and counterexamples
-/
namespace SL

/-- A host: version numbers are read up to the point, ASCII only, and a frozen local clock. -/
def sampleEnv : Env where
  pyFloat s := .ok (((s.toList.takeWhile Char.isDigit).foldl (fun n c => 10 * n + (c.toNat - 48)) 0 : Nat) : Rat)
  uni := ⟨Char.isDigit, fun c => if c.isDigit then some (c.toNat - 48) else none, fun c => [c.toUpper]⟩
  fromTimestamp _ := .ok ⟨2024, 1, 1, 0, 0, 0, 0⟩

/-- The adapter answers request number `id` of connection `c` with this code and payload, and the call goes on. -/
def reply (c : Nat) (id code : Int) (data : Bytes) : List Ev :=
  [.net c (.data ((makeMessage id code data).toOption.getD [])), .net c (.resume id.toNat)]

/-- A text on the wire. -/
def wireText (s : String) : Bytes := (encodeMessageString s false).toOption.getD []

/-- Task `t` gets its TCP connection, which is number `c`, and logs in; the adapter tells its version. -/
def loginEvs (t c : Nat) : List Ev :=
  [.opened t true, .resume t] ++ reply c 0 15 (wireText "00-C0-33-00-00-01") ++ [.resume t] ++ reply c 1 28 [] ++ [.resume t] ++
    reply c 2 8121 (wireText "POOL: 5.2 Build 736.0 Rel") ++ [.resume t]

/-- ... and then the configuration. -/
def configEvs (t c : Nat) : List Ev := reply c 3 12533 sampleConfig.enc ++ [.resume t]

/-- Somebody connects a new gateway. -/
def connectEvs : List Ev := [.call (.connect { ip := some "10.0.0.1" })] ++ loginEvs 0 0 ++ configEvs 0 0

/-- ... or an empty answer to the configuration request. -/
def noConfigEvs (t c : Nat) : List Ev := reply c 3 12533 [] ++ [.resume t]

/-- Somebody connects a new gateway to an adapter without a configuration. -/
def bareConnectEvs : List Ev := [.call (.connect { ip := some "10.0.0.1" })] ++ loginEvs 0 0 ++ noConfigEvs 0 0

/-- The adapter refuses request `id` of connection `c`; task `t` closes the connection and reconnects. -/
def rejectEvs (t c : Nat) (id : Int) : List Ev :=
  reply c id 13 [] ++ [.resume t, .net c .lost, .net c (.closeFinish 0), .resume t, .resume t]

/-- A chlorinator: pool 50 %, spa 10 %, super chlorination off, 24 hours. -/
def sampleScg : Spec.Scg := { present := 1, state := 1, poolSetpoint := 50, spaSetpoint := 10, salt := 60, flags := 0, timer := 24 }

/-- An IntelliChem: pH set point 7.29, ORP 700, calcium 250, alkalinity 80, cyanuric acid 40, salt 2950. -/
def sampleChem : Spec.Chem where
  unk0 := 42
  unk4 := 0
  ph := 748
  orp := 690
  phSet := 729
  orpSet := 700
  phDoseTime := 10
  orpDoseTime := 20
  phDoseVol := 30
  orpDoseVol := 40
  phSupply := 4
  orpSupply := 5
  saturation := -13
  calcium := 250
  cya := 40
  alkalinity := 80
  salt := 59
  probeIsC := 0
  waterTemp := 81
  alarms := 0
  alerts := 0
  doseFlags := 0
  configFlags := 0
  vMinor := 60
  vMajor := 1
  balance := 0
  unkA := 0
  unkB := 0
  unkC := 0

/-- Connected, and then polled once by the call `a`, which the adapter answers with this code and payload. -/
def polledEvs (a : Call) (code : Int) (data : Bytes) : List Ev := connectEvs ++ [.call a] ++ reply 0 4 code data ++ [.resume 1]

/-- A status message about the pool only. -/
def smallStatus : Spec.Status :=
  { sampleStatus with circuits := [], countFits := by decide, bodies := [⟨0, 80, 0, 84, 100, 1⟩], atMostTwo := by decide }

end SL
