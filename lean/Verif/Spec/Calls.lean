import Verif.Spec.Gateway
/-!
# Vocabulary of the statements about commands, connecting and polling
-/
namespace SL

/-- The commands: request functions whose only answer is an acknowledgement. -/
inductive Command
  | button (circuit st : Val)
  | heatTemp (body temp : Val)
  | heatMode (body mode : Val)
  | lights (cmd : Val)
  | scg (pool spa chlor timer : Val)
  | chem (ph orp ca ta cya salt : Val)
  | dateTime (t : DateTime) (dst : Val)
  | addClient (id : Int)
  | removeClient (id : Int)
  | ping

/-- The request function of a command, on connection `c`. -/
def Command.run : Command → Nat → Int → Co Unit
  | .button a b => requestButton a b
  | .heatTemp a b => requestHeatTemp a b
  | .heatMode a b => requestHeatMode a b
  | .lights a => requestLights a
  | .scg a b c d => requestSetScg a b c d
  | .chem a b c d e f => requestSetChem a b c d e f
  | .dateTime t v => requestSetDateTime t v
  | .addClient id => requestAddClient id
  | .removeClient id => requestRemoveClient id
  | .ping => requestPing

/-- The message code of a command. -/
def Command.code : Command → Int
  | .button _ _ => 12530
  | .heatTemp _ _ => 12528
  | .heatMode _ _ => 12538
  | .lights _ => 12556
  | .scg _ _ _ _ => 12576
  | .chem _ _ _ _ _ _ => 12594
  | .dateTime _ _ => 8112
  | .addClient _ => 12522
  | .removeClient _ => 12524
  | .ping => 16

/-- How a command ends, given how its request call ends: normally exactly when it returned an empty payload;
any other payload, or `None`, is a ScreenLogicResponseError; errors are passed on. -/
def ackOutcome : Except PyErr (Option Bytes) → Except PyErr Res
  | .ok (some []) => .ok .none
  | .ok _ => .error .slResponse
  | .error e => .error e

/-- What `async_connect` remembers: ip, port, type, subtype, name. -/
def Gw.info (g : Gw) : Option String × Int × Int × Int × String := (g.ip, g.port, g.gtype, g.subtype, g.name)

/-- The remembered connection info with those arguments that are given. -/
def ConnectArgs.over (a : ConnectArgs) : Option String × Int × Int × Int × String → Option String × Int × Int × Int × String
  | (ip, port, gtype, subtype, name) =>
    (match a.ip with | some x => some x | none => ip, match a.port with | some x => x | none => port,
     match a.gtype with | some x => x | none => gtype, match a.subtype with | some x => x | none => subtype,
     match a.name with | some x => x | none => name)

/-- The setters of the gateway. -/
def Call.isSetter : Call → Bool
  | .setCircuit _ _ | .setHeatTemp _ _ | .setHeatMode _ _ | .setColorLights _ | .setScg _ _ _ _
  | .setChem _ _ _ _ _ _ | .setDateTime _ _ => true
  | _ => false

/-- The single request of a getter. -/
def Call.getter : Call → Option (Int × Bytes)
  | .getStatus => some statusRequest
  | .getChemistry => some chemistryRequest
  | .getScg => some scgRequest
  | .getDatetime => some dateTimeRequest
  | _ => none

/-- The requests of the history `h`, connection sequences aside, are copies of `x`: at most two, and a second one
only after a forced disconnection. -/
def AtMostTwice (h : List Act) (x : Int × Bytes) : Prop :=
  ∃ k, k ≤ 2 ∧ userAsks h = List.replicate k x ∧ (k = 2 → Closed h)

/-- The raw answers kept for diagnostics (`get_debug`): where each is kept, the request (code, payload) it answers, and
what decodes it.  (The version answer is kept too; see `C44_version`.) -/
inductive KeptRaw : Path → Int × Bytes → Decoder → Prop
  | status : KeptRaw [.s "status"] statusRequest .status
  | chemistry : KeptRaw [.s "chemistry"] chemistryRequest .chemistry
  | scg : KeptRaw [.s "scg"] scgRequest .scg
  | dateTime (now : Rat) : KeptRaw [.s "date_time"] dateTimeRequest (.dateTime now)
  | config : KeptRaw [.s "config"] (12532, leBytes 4 0 ++ leBytes 4 0) .config
  | pump (i : Nat) (hi : i < 8) : KeptRaw [.s "pumps", .i i] (pumpRequest i) (.pump i)

/-- The task got the answer `b` to this request. -/
def Answered (h : List Act) (x : Int × Bytes) (b : Bytes) : Prop :=
  ∃ l1 c l2, h = l1 ++ [.ask c x.1 x.2, .got (.ok (some b))] ++ l2

end SL
