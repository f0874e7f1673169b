import Verif.Model.Utility
/-!
# Reassembly of the TCP stream: `complete_messages` in screenlogicpy/requests/protocol.py:98-125
-/
namespace SL

/-- The `while` loop of `complete_messages`: requests/protocol.py:110-119.  Returns the messages
(or the exception `takeMessage` raised) and the remaining `self._buff`.  `fuel` bounds the number of
iterations; each one removes at least 8 bytes, so the buffer length is enough
(proved: `completeLoop_fuel`). -/
def completeLoop : Nat → Bytes → List Msg → Except PyErr (List Msg) × Bytes
  | 0, buff, acc => (.ok acc, buff)
  | fuel + 1, buff, acc =>
    if headerLength ≤ buff.length then
      let dataLen := leVal ((buff.drop 4).take 4)
      let totalLen := headerLength + dataLen
      if totalLen ≤ buff.length then
        match takeMessage (buff.take totalLen) with
        | .ok m => completeLoop fuel (buff.drop totalLen) (acc ++ [m])
        | .error e => (.error e, buff.drop totalLen)
      else (.ok acc, buff)
    else (.ok acc, buff)

/-- `complete_messages(data)`: requests/protocol.py:98-125 (`self._buff.extend(data)`, then the
loop; the debug logging is not modelled). -/
def completeMessages (buff data : Bytes) : Except PyErr (List Msg) × Bytes :=
  completeLoop (buff ++ data).length (buff ++ data) []

end SL
