import Verif.Model.Basic
/-!
# Python's `struct` module, as far as the library uses it

Only standard-size formats occur (`<` or `>` prefix): `B H I i <n>s`.
-/
namespace SL

/-- The `n` low-order base-256 digits of `v`, least significant first
(`struct.pack` of an unsigned `n`-byte little-endian field). -/
def leBytes : Nat → Nat → Bytes
  | 0, _ => []
  | n + 1, v => UInt8.ofNat (v % 256) :: leBytes n (v / 256)

/-- Value of a little-endian byte string (`struct.unpack`). -/
def leVal : Bytes → Nat
  | [] => 0
  | b :: bs => b.toNat + 256 * leVal bs

/-- The field formats used with `getSome`/`struct.pack` in the library. -/
inductive Fmt
  | B     -- "<B"
  | H     -- "<H"
  | I     -- "<I"
  | i     -- "<i"  (signed)
  | beH   -- ">H"
  | beI   -- ">I"
deriving DecidableEq, Repr

/-- `struct.calcsize`. -/
def Fmt.size : Fmt → Nat
  | .B => 1
  | .H | .beH => 2
  | .I | .i | .beI => 4

/-- The value `struct.unpack` gives for the bytes of one field. -/
def Fmt.value : Fmt → Bytes → Int
  | .B, bs | .H, bs | .I, bs => (leVal bs : Int)
  | .beH, bs | .beI, bs => (leVal bs.reverse : Int)
  | .i, bs =>
      let v := leVal bs
      if v < 2 ^ 31 then (v : Int) else (v : Int) - 2 ^ 32

/-- `struct.pack` of one unsigned little-endian field of `n` bytes; out-of-range values raise
`struct.error`. -/
def packU (n : Nat) (v : Int) : Except PyErr Bytes :=
  if 0 ≤ v ∧ v < 256 ^ n then .ok (leBytes n v.toNat) else .error .structError

/-- `struct.unpack_from(f"<{n}s", buff, off)[0]`: `n` raw bytes at `off`, `struct.error` if they
are not all there. -/
def unpackRaw (n : Nat) (buff : Bytes) (off : Nat) : Except PyErr Bytes :=
  if off + n ≤ buff.length then .ok ((buff.drop off).take n) else .error .structError

/-- `struct.unpack_from(fmt, buff, off)[0]` for one integer field. -/
def unpackFrom (f : Fmt) (buff : Bytes) (off : Nat) : Except PyErr Int := do
  let raw ← unpackRaw f.size buff off
  return f.value raw

end SL
