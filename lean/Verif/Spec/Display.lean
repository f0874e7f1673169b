import Verif.Spec.Cli
/-!
# What the command line shows
-/
namespace SL

/-- The numbers of an option with the titles shown for them. -/
abbrev Titles := List (Int × String)

/-- Off and on. -/
def onOffTitles : Titles := [(0, "Off"), (1, "On")]

/-- The heat modes. -/
def heatModeTitles : Titles := [(0, "Off"), (1, "Solar"), (2, "Solar Preferred"), (3, "Heater"), (4, "Don't Change")]

/-- The colour light commands. -/
def colorTitles : Titles :=
  [(0, "All Off"), (1, "All On"), (2, "Color Set"), (3, "Color Sync"), (4, "Color Swim"), (5, "Party"), (6, "Romance"), (7, "Caribbean"),
   (8, "American"), (9, "Sunset"), (10, "Royal"), (11, "Save"), (12, "Recall"), (13, "Blue"), (14, "Green"), (15, "Red"), (16, "White"),
   (17, "Magenta"), (18, "Thumper"), (19, "Next Mode"), (20, "Reset"), (21, "Hold")]

/-- How an element is shown: its value (the number, if it is an option); with `--verbose` its name and value (the title, if it is an option). -/
inductive Shows (x : Val) : Bool → Option Titles → Out → Prop
  | plain (v : Val) : x.look [.s "value"] = some v → Shows x false none (.value v)
  | number (v : Val) (ts : Titles) (n : Int) (t : String) : x.look [.s "value"] = some v → v.num = some (n : Rat) → (n, t) ∈ ts →
      Shows x false (some ts) (.value (.int n))
  | named (m v : Val) : x.look [.s "name"] = some m → x.look [.s "value"] = some v → Shows x true none (.named m v)
  | titled (m v : Val) (ts : Titles) (n : Int) (t : String) : x.look [.s "name"] = some m → x.look [.s "value"] = some v →
      v.num = some (n : Rat) → (n, t) ∈ ts → Shows x true (some ts) (.titled m t)

/-- Commands that show one element: the calls they make after the update (on data `d`), where the element is, and what its value is an option
of. -/
inductive Display (d : Val) : CliCmd → List Call → Path → Option Titles → Prop
  | getCircuit (n : Int) (x : Val) : d.look [.s "circuit", .i n] = some x → Display d (.getCircuit n) [] [.s "circuit", .i n] (some onOffTitles)
  | getHeatMode (tb : String) (b : Int) : Chosen enBodyType tb b →
      Display d (.getHeatMode tb) [] [.s "body", .i b, .s "heat_mode"] (some heatModeTitles)
  | getHeatTemp (tb : String) (b : Int) : Chosen enBodyType tb b → Display d (.getHeatTemp tb) [] [.s "body", .i b, .s "heat_setpoint"] none
  | getHeatState (tb : String) (b : Int) : Chosen enBodyType tb b →
      Display d (.getHeatState tb) [] [.s "body", .i b, .s "heat_state"] (some onOffTitles)
  | getCurrentTemp (tb : String) (b : Int) : Chosen enBodyType tb b →
      Display d (.getCurrentTemp tb) [] [.s "body", .i b, .s "last_temperature"] none
  | getAutoDst : Display d .getAutoDst [.getDatetime] [.s "controller", .s "date_time", .s "auto_dst"] none
  | setCircuit (n : Int) (t : String) (v : Int) (x : Val) : d.look [.s "circuit", .i n] = some x → Chosen enOnOff t v →
      Display d (.setCircuit n t) [.setCircuit (.int n) (.int v), .update] [.s "circuit", .i n] (some onOffTitles)
  | setHeatMode (tb tm : String) (b m : Int) : Chosen enBodyType tb b → Chosen enHeatMode tm m →
      Display d (.setHeatMode tb tm) [.setHeatMode (.int b) (.int m), .update] [.s "body", .i b, .s "heat_mode"] (some heatModeTitles)
  | setHeatTemp (tb : String) (b t : Int) : Chosen enBodyType tb b → t ≠ -1 →
      Display d (.setHeatTemp tb t) [.setHeatTemp (.int b) (.int t), .update] [.s "body", .i b, .s "heat_setpoint"] none
  | keepHeatTemp (tb : String) (b : Int) : Chosen enBodyType tb b →
      Display d (.setHeatTemp tb (-1)) [] [.s "body", .i b, .s "heat_setpoint"] none

/-- These calls, made after the history `h` when the data are `d`, all succeed; then the history is `h'` and the data are `d'`. -/
inductive Succeed (G : Gate) : List (Call × Except PyErr Res) → Val → List Call → List (Call × Except PyErr Res) → Val → Prop
  | nil (h : List (Call × Except PyErr Res)) (d : Val) : Succeed G h d [] h d
  | cons (h h' : List (Call × Except PyErr Res)) (d d1 d' : Val) (c : Call) (r : Res) (cs : List Call) : G h c = (.ok r, d1) →
      Succeed G (h ++ [(c, .ok r)]) d1 cs h' d' → Succeed G h d (c :: cs) h' d'

/-- Of these settings, those given and reported are shown, in this order. -/
inductive Listed (verbose : Bool) (conf : Val) : List (String × Val) → List Out → Prop
  | nil : Listed verbose conf [] []
  | shown (k : String) (v x : Val) (o : Out) (rest : List (String × Val)) (l : List Out) : v ≠ .null → conf.look [.s k] = some x →
      Shows x verbose none o → Listed verbose conf rest l → Listed verbose conf ((k, v) :: rest) (o :: l)
  | left (k : String) (rest : List (String × Val)) (l : List Out) : Listed verbose conf rest l → Listed verbose conf ((k, .null) :: rest) l
  | unknown (k : String) (v : Val) (rest : List (String × Val)) (l : List Out) : conf.look [.s k] = none → Listed verbose conf rest l →
      Listed verbose conf ((k, v) :: rest) l

/-- The bodies. -/
def bodyTitles : Titles := [(0, "Pool"), (1, "Spa")]

/-- What the dashboard shows of a body: its temperature with the unit, set point, heat state and heat mode (all by the titles of the heat modes,
which is wrong for heat states: see C70). -/
inductive BodyShown (b : Val) : List Out → Prop
  | mk (bt v u n1 v1 n2 v2 n3 v3 : Val) (k k2 k3 : Int) (t t2 t3 : String) : b.look [.s "body_type"] = some bt → bt.num = some (k : Rat) → (k, t) ∈ bodyTitles →
      b.look [.s "last_temperature", .s "value"] = some v → b.look [.s "last_temperature", .s "unit"] = some u →
      b.look [.s "heat_setpoint", .s "name"] = some n1 → b.look [.s "heat_setpoint", .s "value"] = some v1 →
      b.look [.s "heat_state", .s "name"] = some n2 → b.look [.s "heat_state", .s "value"] = some v2 → v2.num = some (k2 : Rat) →
      (k2, t2) ∈ heatModeTitles →
      b.look [.s "heat_mode", .s "name"] = some n3 → b.look [.s "heat_mode", .s "value"] = some v3 → v3.num = some (k3 : Rat) →
      (k3, t3) ∈ heatModeTitles →
      BodyShown b [.temperature t v u, .named n1 v1, .titled n2 t2, .titled n3 t3, .line]

/-- The bodies on the dashboard, in order. -/
inductive BodiesShown : List (Key × Val) → List Out → Prop
  | nil : BodiesShown [] []
  | cons (k : Key) (b : Val) (rest : List (Key × Val)) (l1 l2 : List Out) : BodyShown b l1 → BodiesShown rest l2 →
      BodiesShown ((k, b) :: rest) (l1 ++ l2)

/-- The circuits on the dashboard, in order: number, Off or On, name; those with interface 5 (don't show) are left out. -/
inductive CircuitsShown : List (Key × Val) → List Out → Prop
  | nil : CircuitsShown [] []
  | hidden (k : Key) (c i : Val) (rest : List (Key × Val)) (l : List Out) : c.look [.s "interface"] = some i → i.num = some 5 →
      CircuitsShown rest l → CircuitsShown ((k, c) :: rest) l
  | shown (k : Key) (c i v m : Val) (n : Int) (t : String) (rest : List (Key × Val)) (l : List Out) : c.look [.s "interface"] = some i →
      i.num ≠ some 5 → c.look [.s "value"] = some v → v.num = some (n : Rat) → (n, t) ∈ onOffTitles → c.look [.s "name"] = some m →
      CircuitsShown rest l → CircuitsShown ((k, c) :: rest) (.circuit k t m :: l)

end SL
