/-!
# Wire layout, written down independently of the model

Source: the protocol notes in /repo (README, `HEADER_FORMAT = "<HHI"` in const/msg.py:6) — all integers
are little-endian.  Nothing here uses the model.
-/
namespace Spec

/-- Low byte of a number. -/
def byte (n : Nat) : UInt8 := UInt8.ofNat (n % 256)

/-- Two-byte little-endian number. -/
def u16 (v : Nat) : List UInt8 := [byte v, byte (v / 256)]

/-- Four-byte little-endian number. -/
def u32 (v : Nat) : List UInt8 :=
  [byte v, byte (v / 256), byte (v / 65536), byte (v / 16777216)]

/-- Four-byte little-endian two's-complement number. -/
def s32 (v : Int) : List UInt8 := u32 ((v % 4294967296).toNat)

/-- A complete message: id, code, payload length, payload. -/
def frame (id code : Nat) (payload : List UInt8) : List UInt8 :=
  u16 id ++ u16 code ++ u32 payload.length ++ payload

/-- How many padding bytes bring `n` up to a multiple of 4. -/
def pad4 (n : Nat) : Nat := (4 - n % 4) % 4

/-- A counted, zero-padded byte block: the layout of strings and arrays. -/
def block (bs : List UInt8) : List UInt8 :=
  u32 bs.length ++ bs ++ List.replicate (pad4 bs.length) 0

end Spec
