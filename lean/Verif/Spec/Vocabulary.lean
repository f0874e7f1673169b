import Verif.Spec.Handshake
import Verif.Props.TimeProps
/-!
# Everything a gateway may say
-/
namespace SL

/-- What a gateway with client id `id` may send (message code and payload) when the API was used as in `es`: the greetings of
a connection, the queries, the keepalive, its own registration as a client, and the commands its user asked for: values
the user gave are sent as given. -/
inductive Says (id : Int) (es : List Ev) : Int → Bytes → Prop
  /-- the challenge and the login, on connecting -/
  | challenge : Says id es 14 []
  | login : Says id es 27 loginBytes
  /-- the keepalive -/
  | ping : Says id es 16 []
  /-- the queries -/
  | version : Says id es 8120 []
  | dateTime : Says id es 8110 []
  | status : Says id es 12526 (words [0])
  | config : Says id es 12532 (words [0, 0])
  | scg : Says id es 12572 (words [0])
  | chemistry : Says id es 12592 (words [0])
  | pump (i : Nat) (hi : i < 8) : Says id es 12584 (words [0, i])
  /-- registration as a client, and its end -/
  | addClient (n : Nat) (hid : id = n) (hn : n < 2 ^ 32) : Says id es 12522 (words [0, n])
  | removeClient (n : Nat) (hid : id = n) (hn : n < 2 ^ 32) : Says id es 12524 (words [0, n])
  /-- the commands -/
  | setCircuit (circuit st : Nat) (h : Ev.call (.setCircuit (.int circuit) (.int st)) ∈ es) (h1 : circuit < 2 ^ 32) (h2 : st ≤ 1) :
      Says id es 12530 (words [0, circuit, st])
  | setHeatTemp (body temp : Nat) (h : Ev.call (.setHeatTemp (.int body) (.int temp)) ∈ es) (h1 : body < 2 ^ 32) (h2 : temp < 2 ^ 32) :
      Says id es 12528 (words [0, body, temp])
  | setHeatMode (body mode : Nat) (h : Ev.call (.setHeatMode (.int body) (.int mode)) ∈ es) (h1 : body < 2 ^ 32) (h2 : mode ≤ 4) :
      Says id es 12538 (words [0, body, mode])
  | setColorLights (cmd : Nat) (h : Ev.call (.setColorLights (.int cmd)) ∈ es) (h1 : cmd ≤ 21) : Says id es 12556 (words [0, cmd])
  | setScg (pool spa chlor timer : Val) (h : Ev.call (.setScg pool spa chlor timer) ∈ es) (p s c t : Nat)
      (hp : pool ≠ .null → pool = .int p) (hs : spa ≠ .null → spa = .int s) (ht : timer ≠ .null → timer = .int t)
      (h1 : p ≤ 100) (h2 : s ≤ 100) (h3 : c ≤ 1) (h4 : t ≤ 72) : Says id es 12576 (words [0, p, s, c, t])
  | setChem (ph orp ca ta cya salt : Val) (h : Ev.call (.setChem ph orp ca ta cya salt) ∈ es) (n o c t y l : Nat)
      (ho : orp ≠ .null → orp = .int o) (hc : ca ≠ .null → ca = .int c) (ht : ta ≠ .null → ta = .int t)
      (hy : cya ≠ .null → cya = .int y) (hl : salt ≠ .null → salt = .int l)
      (h1 : 720 ≤ n ∧ n ≤ 760) (h2 : 400 ≤ o ∧ o ≤ 800) (h3 : 25 ≤ c ∧ c ≤ 800) (h4 : 25 ≤ t ∧ t ≤ 800) (h5 : y ≤ 201)
      (h6 : 500 ≤ l ∧ l ≤ 6500) : Says id es 12594 (words [0, n, o, c, t, y, l])
  | setDateTime (date : Option DateTime) (dst : Val) (h : Ev.call (.setDateTime date dst) ∈ es) (t : DateTime) (n : Nat)
      (hd : ∀ t', date = some t' → t = t') (hn : dst ≠ .null → dst = .int n) (h1 : n < 2 ^ 32) :
      Says id es 8112 (timeBlock t.year t.month t.weekday t.day t.hour t.minute 0 (t.microsecond / 1000) ++ words [n])
  /-- what the user sends by hand with `async_send_message` -/
  | byHand (code : Int) (data : Bytes) (h : Ev.call (.send code data) ∈ es) : Says id es code data

end SL
