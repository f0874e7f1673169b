import Verif.Props.Codec
import Verif.Props.TextProps
import Verif.Props.TimeProps
import Verif.Props.Stream
import Verif.Props.ProtocolProps
import Verif.Props.RequestProps
import Verif.Props.DecodeProps
import Verif.Props.DecodeGeneral
import Verif.Props.StatusProps
import Verif.Props.ConfigProps
import Verif.Props.PumpProps
import Verif.Props.IdemProps
import Verif.Props.LookupProps
import Verif.Props.SetterProps
import Verif.Props.GatewayProps
import Verif.Props.PollProps
import Verif.Props.ConnectProps
import Verif.Props.LastProps
import Verif.Props.SubProps
import Verif.Props.PushProps
import Verif.Props.ServeProps
import Verif.Props.RegProps
import Verif.Props.TextExactProps
import Verif.Props.DiscoveryProps
import Verif.Props.OptionProps
import Verif.Props.BalanceProps
import Verif.Props.KeepaliveProps
import Verif.Props.SetterFloatProps
import Verif.Props.CliProps
import Verif.Props.CliEndProps
import Verif.Props.ExportProps
import Verif.Props.EquipmentProps
import Verif.Props.ClosedProps
import Verif.Props.HandshakeProps
import Verif.Props.LoopProps
import Verif.Lemmas.Hold
import Verif.Spec.Lock
import Verif.Props.LockProps
import Verif.Props.MacProps
import Verif.Lemmas.Sig
import Verif.Lemmas.Grows
import Verif.Lemmas.Filed
import Verif.Lemmas.Provenance
import Verif.Spec.Provenance
import Verif.Props.ProvProps
import Verif.Lemmas.Valued
import Verif.Spec.Groups
import Verif.Props.GrowthProps
import Verif.Props.RawProps
import Verif.Spec.Sheets
import Verif.Lemmas.Sheets
import Verif.Props.SheetProps
import Verif.Spec.Vocabulary
import Verif.Lemmas.Speaks
import Verif.Props.PhProps
import Verif.Props.VocabProps
import Verif.Lemmas.Over
import Verif.Props.DisconnectProps
import Verif.Spec.Display
import Verif.Props.DisplayProps
import Verif.Spec.Cancel
import Verif.Lemmas.Frail
import Verif.Lemmas.Deeds
import Verif.Lemmas.Calm
import Verif.Props.CancelProps
import Verif.Lemmas.Alone
import Verif.Props.ExportLiveProps
import Verif.Model.Notify
import Verif.Spec.Notify
import Verif.Props.NotifyProps
import Verif.Spec.Live
import Verif.Props.CliLiveProps
import Verif.Props.CliExportProps
import Verif.Props.CliRaiseProps
import Verif.Lemmas.Knows
import Verif.Lemmas.Flags
import Verif.Lemmas.Named
import Verif.Props.KnownProps
import Verif.Props.TaskProps
import Verif.Props.ProgressProps
import Verif.Props.HandlerProps
import Verif.Lemmas.Eventually
import Verif.Lemmas.Fair
import Verif.Lemmas.Leads
import Verif.Lemmas.Ends
import Verif.Lemmas.Queue
import Verif.Props.LivenessProps
import Verif.Spec.Liveness
import Verif.Lemmas.Forceful
import Verif.Props.CloseProps
import Verif.Spec.Budget
import Verif.Lemmas.Budget
import Verif.Props.BudgetProps
import Verif.Model.Clock
import Verif.Spec.Timing
import Verif.Lemmas.Timing
import Verif.Props.TimingProps
import Verif.Model.Attributes
import Verif.Lemmas.Coheres
import Verif.Props.AttributeProps
import Verif.Spec.Single
import Verif.Props.SingleProps
import Verif.Spec.Patience
import Verif.Spec.Fields
import Verif.Lemmas.Fields
import Verif.Lemmas.Places
import Verif.Props.FieldProps
import Verif.Lemmas.Puts
import Verif.Props.FreshProps
import Verif.Spec.Latest
import Verif.Lemmas.Prompt
import Verif.Lemmas.Latest
import Verif.Props.LatestProps
import Verif.Lemmas.Eager
import Verif.Lemmas.Reply
import Verif.Lemmas.Raw
import Verif.Props.ReplyProps
import Verif.Lemmas.Gains
import Verif.Props.ToldProps
import Verif.Lemmas.Opens
import Verif.Props.OpenProps
import Verif.Lemmas.Inner
import Verif.Lemmas.Patience
import Verif.Props.PatienceProps
