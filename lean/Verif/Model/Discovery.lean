import Verif.Model.Utility
/-!
# screenlogicpy/discovery.py
-/
namespace SL

/-- What discovery reports of a gateway: discovery.py:60-66. -/
structure Host where
  ip : String
  port : Int
  gtype : Int
  subtype : Int
  name : String
deriving DecidableEq, Repr

/-- `process_discovery_response`: discovery.py:38-66. -/
def processDiscoveryResponse (data : Bytes) : Except PyErr Host := do
  let (chk, off) ← getSome .I data 0
  if chk ≠ 2 then .error .slError
  else do
    let (ip1, off) ← getSome .B data off
    let (ip2, off) ← getSome .B data off
    let (ip3, off) ← getSome .B data off
    let (ip4, off) ← getSome .B data off
    let ip := toString ip1 ++ "." ++ toString ip2 ++ "." ++ toString ip3 ++ "." ++ toString ip4
    let (port, off) ← getSome .H data off
    let (gtype, off) ← getSome .B data off
    let (subtype, off) ← getSome .B data off
    let (raw, _) ← getRaw (data.length - off) data off
    let name ← decodeText false raw
    return { ip, port, gtype, subtype, name := String.ofList (stripNul name) }

/-- `datagram_received`: discovery.py:84-89.  Every exception `process_discovery_response` can raise is an
`Exception`, so it is caught; the warning is not modelled. -/
def datagramReceived (hosts : List Host) (data : Bytes) : List Host :=
  match processDiscoveryResponse data with
  | .ok h => hosts ++ [h]
  | .error _ => hosts

/-- `hosts` after these datagrams have arrived, i.e. what `async_discover` returns: discovery.py:72-75, 95-109.  (The
sockets, the broadcast and the one second of waiting are not modelled.) -/
def discoveredHosts (ds : List Bytes) : List Host := ds.foldl datagramReceived []

/-- `DISCOVERY_PAYLOAD`, the datagram broadcast: discovery.py:18. -/
def discoveryPayload : Bytes := [1, 0, 0, 0, 0, 0, 0, 0]

end SL
