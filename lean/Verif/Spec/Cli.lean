import Verif.Model.Cli
import Verif.Spec.Calls
/-!
# Vocabulary of the statements about the command line
-/
namespace SL

/-- The setter calls a run made. -/
def Run.setters {α : Type} (r : Run α) : List Call := (r.calls.map (·.1)).filter Call.isSetter

/-- The text is one of those the command line accepts for member number `v` of the enumeration: its number or its name in
lower case. -/
def Chosen (e : EnumDef) (t : String) (v : Int) : Prop := ∃ n, (n, v) ∈ e ∧ (t = toString v ∨ t = n.toLower)

/-- Which gateway the command line uses: the one given, or the first discovered. -/
inductive Uses (a : CliArgs) (found : List Host) : ConnectArgs → Prop
  | given (ip : String) : a.ip = some ip → ip ≠ "" → Uses a found { ip := some ip, port := some a.port }
  | first (h : Host) (rest : List Host) : a.ip = none ∨ a.ip = some "" → found = h :: rest →
      Uses a found { ip := some h.ip, port := some h.port, gtype := some h.gtype, subtype := some h.subtype, name := some h.name }

/-- The gateway lets the command line connect and update, and then has these data, the controller's among them. -/
def LetsIn (G : Gate) (host : ConnectArgs) (d : Val) : Prop :=
  ∃ r1 d1 r2 x, G [] (.connect host) = (.ok r1, d1) ∧ G [(.connect host, .ok r1)] .update = (.ok r2, d) ∧
    d.look [.s "controller"] = some x

/-- An optional number, or nothing, as an argument of a setter. -/
inductive Arg {α : Type} (f : α → Val) : Option α → Val → Prop
  | given (x : α) : Arg f (some x) (f x)
  | left : Arg f none .null

/-- The setter call a command stands for, on data `d` (a heat temperature of -1 stands for none). -/
inductive Wants (C : CliEnv) (d : Val) : CliCmd → Call → Prop
  | circuit (n : Int) (t : String) (v : Int) (x : Val) : d.look [.s "circuit", .i n] = some x → Chosen enOnOff t v →
      Wants C d (.setCircuit n t) (.setCircuit (.int n) (.int v))
  | color (t : String) (v : Int) : Chosen enColorMode t v → Wants C d (.setColorLights t) (.setColorLights (.int v))
  | heatMode (tb tm : String) (b m : Int) : Chosen enBodyType tb b → Chosen enHeatMode tm m →
      Wants C d (.setHeatMode tb tm) (.setHeatMode (.int b) (.int m))
  | heatTemp (tb : String) (b t : Int) : Chosen enBodyType tb b → t ≠ -1 → Wants C d (.setHeatTemp tb t) (.setHeatTemp (.int b) (.int t))
  | scg (pool spa : Option Int) (p s : Val) : Arg Val.int pool p → Arg Val.int spa s → pool ≠ none ∨ spa ≠ none →
      Wants C d (.setScg pool spa) (.setScg p s .null .null)
  | super (st : Option String) (time : Option Int) (s t : Val) : Arg Val.str st s → Arg Val.int time t → st ≠ none ∨ time ≠ none →
      Wants C d (.setSuper st time) (.setScg .null .null s t)
  | chemSet (ph : Option Rat) (orp : Option Int) (p o : Val) : Arg Val.flt ph p → Arg Val.int orp o → ph ≠ none ∨ orp ≠ none →
      Wants C d (.setChemSetpoint ph orp) (.setChem p o .null .null .null .null)
  | chemVal (ca ta cya tds : Option Int) (w x y z : Val) : Arg Val.int ca w → Arg Val.int ta x → Arg Val.int cya y → Arg Val.int tds z →
      ca ≠ none ∨ ta ≠ none ∨ cya ≠ none ∨ tds ≠ none → Wants C d (.setChemValue ca ta cya tds) (.setChem .null .null w x y z)
  | date (s : String) (t : DateTime) (dst : Option String) (v : Val) : C.fromIso s = .ok t → Arg Val.str dst v →
      Wants C d (.setDateTime (some s) dst) (.setDateTime (some t) v)
  | flag (s : String) : Wants C d (.setDateTime none (some s)) (.setDateTime none (.str s))
  | now : Wants C d (.setDateTime none none) (.setDateTime (some C.now) .null)

end SL
