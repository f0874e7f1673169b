import Verif.Model.Utility
import Verif.Model.Time
import Verif.Model.Val
/-!
# The language the decoders are written in

Every `decode_*` function is a program made of: reads at a running offset (`getSome`, `getString`,
`getArray`, `getTime`), stores into the data dict, `setdefault`s and `.get` chains.  `Prog` is that
language as data, `Prog.run` its meaning.  Stores made before an exception stay (the dict is mutated).
-/
namespace SL

/-- Decoder programs returning an `α`. -/
inductive Prog (α : Type) where
  | pure (a : α)
  | raise (e : PyErr)
  /-- `x, offset = getSome(f, buff, offset)` -/
  | num (f : Fmt) (k : Int → Prog α)
  /-- `x, offset = getString(buff, offset)` -/
  | str (k : String → Prog α)
  /-- `x, offset = getArray(buff, offset)` -/
  | arr (k : List Int → Prog α)
  /-- `x, offset = getTime(buff, offset)` -/
  | time (k : DateTime → Prog α)
  /-- `x = decodeMessageString(buff)` -/
  | msgStr (k : String → Prog α)
  /-- the current `offset` -/
  | off (k : Nat → Prog α)
  /-- `ref[key] = x` where `ref` is the dict at the parent of the path -/
  | set (p : Path) (x : Val) (k : Prog α)
  /-- `ref.setdefault(key, x)` -/
  | setdef (p : Path) (x : Val) (k : Prog α)
  /-- `data.get(k1, {}).get(k2, {})...get(kn)` -/
  | get (p : Path) (k : Option Val → Prog α)

namespace Prog

/-- Sequencing. -/
def bind {α β : Type} : Prog α → (α → Prog β) → Prog β
  | .pure a, g => g a
  | .raise e, _ => .raise e
  | .num f k, g => .num f (fun x => (k x).bind g)
  | .str k, g => .str (fun x => (k x).bind g)
  | .arr k, g => .arr (fun x => (k x).bind g)
  | .time k, g => .time (fun x => (k x).bind g)
  | .msgStr k, g => .msgStr (fun x => (k x).bind g)
  | .off k, g => .off (fun x => (k x).bind g)
  | .set p x k, g => .set p x (k.bind g)
  | .setdef p x k, g => .setdef p x (k.bind g)
  | .get p k, g => .get p (fun x => (k x).bind g)

instance : Monad Prog where
  pure := .pure
  bind := bind

/-- `x, offset = getSome(f, buff, offset)`. -/
def rd (f : Fmt) : Prog Int := .num f .pure
/-- `x, offset = getString(buff, offset)`. -/
def rdString : Prog String := .str .pure
/-- `x, offset = getArray(buff, offset)`. -/
def rdArray : Prog (List Int) := .arr .pure
/-- `x, offset = getTime(buff, offset)`. -/
def rdTime : Prog DateTime := .time .pure
/-- `x = decodeMessageString(buff)`. -/
def rdMsgString : Prog String := .msgStr .pure
/-- The value of `offset`. -/
def offset : Prog Nat := .off .pure
/-- `ref[key] = x`. -/
def store (p : Path) (x : Val) : Prog Unit := .set p x (.pure ())
/-- `ref.setdefault(key, x)`. -/
def setdefault (p : Path) (x : Val) : Prog Unit := .setdef p x (.pure ())
/-- `data.get(...)...get(...)`. -/
def lookup (p : Path) : Prog (Option Val) := .get p .pure
/-- `raise e`. -/
def throw {α : Type} (e : PyErr) : Prog α := .raise e

/-- `for i in range(start, start + n)` with a loop variable of the body carried along. -/
def loop {σ : Type} (body : Nat → σ → Prog σ) : Nat → Nat → σ → Prog σ
  | 0, _, s => .pure s
  | n + 1, i, s => (body i s).bind (fun s => loop body n (i + 1) s)

/-- `for i in range(n)`. -/
def forRange (n : Nat) (body : Nat → Prog Unit) : Prog Unit := loop (fun i _ => body i) n 0 ()

/-- Result of running a program: what it returned (with the final offset) or raised, and the data. -/
abbrev Res (α : Type) := Except PyErr (α × Nat) × Val

/-- Continue with a read result. -/
def andThen {α γ : Type} (r : Except PyErr (γ × Nat)) (d : Val) (k : γ → Nat → Res α) : Res α :=
  match r with
  | .ok (x, o) => k x o
  | .error e => (.error e, d)

/-- Running a program on a buffer, from an offset, on the data. -/
def run {α : Type} (buff : Bytes) : Prog α → Nat → Val → Res α
  | .pure a, o, d => (.ok (a, o), d)
  | .raise e, _, d => (.error e, d)
  | .num f k, o, d => andThen (SL.getSome f buff o) d (fun x o => (k x).run buff o d)
  | .str k, o, d => andThen (SL.getString buff o) d (fun x o => (k x).run buff o d)
  | .arr k, o, d => andThen (SL.getArray buff o) d (fun x o => (k x).run buff o d)
  | .time k, o, d => andThen (SL.getTime buff o) d (fun x o => (k x).run buff o d)
  | .msgStr k, o, d =>
    match SL.decodeMessageString buff with
    | .ok x => (k x).run buff o d
    | .error e => (.error e, d)
  | .off k, o, d => (k o).run buff o d
  | .set p x k, o, d =>
    match d.look p.dropLast with
    | some (.dict _) => k.run buff o (Val.put p x d)
    | _ => (.error .typeError, d)
  | .setdef p x k, o, d =>
    match d.look p.dropLast with
    | some (.dict _) => k.run buff o (Val.putNew p x d)
    | _ => (.error .attributeError, d)
  | .get p k, o, d =>
    match d.chain p with
    | .ok v => (k v).run buff o d
    | .error e => (.error e, d)

end Prog

/-- Calling a decoder on a message payload and the data dict: what it raised (if anything) and the data
afterwards. -/
def decodeWith (p : Prog Unit) (buff : Bytes) (d : Val) : Except PyErr Unit × Val :=
  let r := p.run buff 0 d
  (r.1.map (fun _ => ()), r.2)

end SL
