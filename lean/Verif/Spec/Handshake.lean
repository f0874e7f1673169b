import Verif.Spec.Gateway
/-!
# Specification: how a connection to the adapter begins
-/
namespace SL

/-- What is written to a new connection before any message. -/
def helloBytes : Bytes := "CONNECTSERVERHOST\r\n\r\n".toUTF8.data.toList

/-- The payload of the login message: schema 348, connection type 0, client version "Android", sixteen zeros as password, a
padding byte, process id 2. -/
def loginBytes : Bytes :=
  [92, 1, 0, 0] ++ [0, 0, 0, 0] ++ ([7, 0, 0, 0] ++ [65, 110, 100, 114, 111, 105, 100, 0]) ++
    ([16, 0, 0, 0] ++ [48, 48, 48, 48, 48, 48, 48, 48, 48, 48, 48, 48, 48, 48, 48, 48]) ++ [0] ++ [2, 0, 0, 0]

/-- The three requests a new connection starts with: code and payload. -/
def greetings : List (Int × Bytes) := [(14, []), (27, loginBytes), (8120, [])]

/-- The requests made on connection `c`, in order. -/
def asksOn (c : Nat) (l : List (Nat × Act)) : List (Int × Bytes) :=
  l.filterMap (fun x => match x.2 with
    | .ask c' code data => if c' = c then some (code, data) else none
    | _ => none)

/-- What an `async_connect` that has to connect to host `h` and port `p` may have done so far, and its result if it has
ended: the TCP connection, the challenge, the login and the request of the version follow one another on the same
connection, each one only when the one before was answered; then comes the rest. -/
inductive Begins (h : String) (p : Int) : List Act → Option (Except PyErr Res) → Prop
  /-- connecting, or waiting a moment after the first write -/
  | opening : Begins h p [.opn h p] none
  | unopened (e : PyErr) : Begins h p [.opn h p] (some (.error e))
  | challenge (c : Nat) : Begins h p [.opn h p, .ask c 14 []] none
  | noChallenge (c : Nat) (e : PyErr) : Begins h p [.opn h p, .ask c 14 [], .got (.error e)] (some (.error e))
  | swallowed (c : Nat) : Begins h p [.opn h p, .ask c 14 [], .got (.ok none)] (some (.error .typeError))
  | badMac (c : Nat) (b : Bytes) (e : PyErr) (hd : decodeMessageString b = .error e) :
      Begins h p [.opn h p, .ask c 14 [], .got (.ok (some b))] (some (.error e))
  | login (c : Nat) (b : Bytes) (m : String) (hd : decodeMessageString b = .ok m) :
      Begins h p [.opn h p, .ask c 14 [], .got (.ok (some b)), .ask c 27 loginBytes] none
  | noLogin (c : Nat) (b : Bytes) (m : String) (hd : decodeMessageString b = .ok m) (e : PyErr) :
      Begins h p [.opn h p, .ask c 14 [], .got (.ok (some b)), .ask c 27 loginBytes, .got (.error e)] (some (.error e))
  | loginSwallowed (c : Nat) (b : Bytes) (m : String) (hd : decodeMessageString b = .ok m) :
      Begins h p [.opn h p, .ask c 14 [], .got (.ok (some b)), .ask c 27 loginBytes, .got (.ok none)]
        (some (.ok (.bool false)))
  | version (c : Nat) (b b' : Bytes) (m : String) (hd : decodeMessageString b = .ok m) :
      Begins h p [.opn h p, .ask c 14 [], .got (.ok (some b)), .ask c 27 loginBytes, .got (.ok (some b')), .ask c 8120 []]
        none
  | later (c : Nat) (b b' : Bytes) (m : String) (hd : decodeMessageString b = .ok m)
      (o : Except PyErr (Option Bytes)) (l : List Act) (r : Option (Except PyErr Res))
      (he : ∀ e, o = .error e → l = [] ∧ r = some (.error e)) (hf : r = some (.ok (.bool false)) → l = []) :
      Begins h p ([.opn h p, .ask c 14 [], .got (.ok (some b)), .ask c 27 loginBytes, .got (.ok (some b')),
        .ask c 8120 [], .got o] ++ l) r

/-- What the answer `v` to the version request makes of the data: nothing if it is missing or empty. -/
def decodedVersion (E : Env) (v : Option Bytes) (d : Val) : Except PyErr Unit × Val :=
  match v with
  | some (b :: bs) => decodeWith (Decoder.version.prog E.pyFloat) (b :: bs) d
  | _ => (.ok (), d)

/-- The adapter's version is known: a non-empty text, or another true value, is stored as `adapter`/`firmware`. -/
def versionKnown (d : Val) : Bool :=
  match getValue false [.s "adapter", .s "firmware"] d with
  | .ok v => v.truthy
  | .error _ => false

end SL
