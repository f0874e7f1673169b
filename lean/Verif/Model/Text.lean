import Verif.Model.Basic
/-!
# Python text: UTF-8 / UTF-16 codecs and `str` helpers

`str` is modelled as a list of Unicode scalar values (`List Char`); lone surrogates, which Python's
`str` can hold but its strict codecs refuse, are not representable.
-/
namespace SL

/-- `str.encode("utf-8")` of one character. -/
def utf8EncodeChar (c : Char) : Bytes :=
  let n := c.toNat
  if n < 0x80 then [UInt8.ofNat n]
  else if n < 0x800 then [UInt8.ofNat (0xC0 + n / 64), UInt8.ofNat (0x80 + n % 64)]
  else if n < 0x10000 then
    [UInt8.ofNat (0xE0 + n / 4096), UInt8.ofNat (0x80 + n / 64 % 64), UInt8.ofNat (0x80 + n % 64)]
  else
    [UInt8.ofNat (0xF0 + n / 262144), UInt8.ofNat (0x80 + n / 4096 % 64),
     UInt8.ofNat (0x80 + n / 64 % 64), UInt8.ofNat (0x80 + n % 64)]

/-- `str.encode("utf-8")`. -/
def utf8Encode (s : List Char) : Bytes := s.flatMap utf8EncodeChar

/-- Continuation byte 10xxxxxx. -/
def isCont (b : UInt8) : Bool := 0x80 ≤ b.toNat && b.toNat < 0xC0

/-- The scalar value `n`, if it is one (not a surrogate, at most 0x10FFFF). -/
def scalar? (n : Nat) : Option Char :=
  if h : n.isValidChar then some (Char.ofNatAux n h) else none

/-- Strict UTF-8 decoding of the character that starts with byte `b0` and continues in `t`; the rest
of the input is returned with it.  Overlong forms, surrogates, values above 0x10FFFF and truncated
sequences are refused. -/
def utf8Next (b0 : UInt8) (t : Bytes) : Option (Char × Bytes) :=
  let x := b0.toNat
  if x < 0x80 then (scalar? x).map (·, t)
  else if x < 0xC2 then none
  else if x < 0xE0 then
    match t with
    | b1 :: t1 =>
      if isCont b1 then (scalar? ((x - 0xC0) * 64 + (b1.toNat - 0x80))).map (·, t1) else none
    | _ => none
  else if x < 0xF0 then
    match t with
    | b1 :: b2 :: t2 =>
      let n := (x - 0xE0) * 4096 + (b1.toNat - 0x80) * 64 + (b2.toNat - 0x80)
      if isCont b1 && isCont b2 && decide (0x800 ≤ n) then (scalar? n).map (·, t2) else none
    | _ => none
  else if x < 0xF5 then
    match t with
    | b1 :: b2 :: b3 :: t3 =>
      let n := (x - 0xF0) * 262144 + (b1.toNat - 0x80) * 4096 + (b2.toNat - 0x80) * 64
                + (b3.toNat - 0x80)
      if isCont b1 && isCont b2 && isCont b3 && decide (0x10000 ≤ n) then (scalar? n).map (·, t3)
      else none
    | _ => none
  else none

/-- Decode up to `fuel` characters. -/
def utf8DecodeN : Nat → Bytes → Option (List Char)
  | _, [] => some []
  | 0, _ :: _ => none
  | fuel + 1, b0 :: t =>
    match utf8Next b0 t with
    | some (c, t') => (utf8DecodeN fuel t').map (c :: ·)
    | none => none

/-- `bytes.decode("utf-8")` with the strict error handler: `none` models `UnicodeDecodeError`.  Every
character takes at least one byte, so the number of bytes is enough fuel. -/
def utf8Decode (bs : Bytes) : Option (List Char) := utf8DecodeN bs.length bs

/-- UTF-16 code units of one character. -/
def utf16EncodeChar (c : Char) : List Nat :=
  let n := c.toNat
  if n < 0x10000 then [n]
  else [0xD800 + (n - 0x10000) / 1024, 0xDC00 + (n - 0x10000) % 1024]

/-- One 16-bit unit in little-endian byte order. -/
def unitLE (u : Nat) : Bytes := [UInt8.ofNat (u % 256), UInt8.ofNat (u / 256)]

/-- `str.encode("utf-16")`: byte-order mark FF FE, then little-endian code units
(native order of a little-endian host; simplification: big-endian hosts are not modelled). -/
def utf16Encode (s : List Char) : Bytes :=
  [0xFF, 0xFE] ++ (s.flatMap utf16EncodeChar).flatMap unitLE

/-- Bytes to 16-bit units; `none` for an odd number of bytes ("truncated data"). -/
def utf16Units (bigEndian : Bool) : Bytes → Option (List Nat)
  | [] => some []
  | [_] => none
  | a :: b :: t =>
    match utf16Units bigEndian t with
    | some r =>
      some ((if bigEndian then 256 * a.toNat + b.toNat else a.toNat + 256 * b.toNat) :: r)
    | none => none

/-- The character that starts with unit `u` and continues in `t`; `none` for unpaired surrogates. -/
def utf16Next (u : Nat) (t : List Nat) : Option (Char × List Nat) :=
  if 0xD800 ≤ u ∧ u < 0xDC00 then
    match t with
    | v :: t' =>
      if 0xDC00 ≤ v ∧ v < 0xE000 then
        (scalar? (0x10000 + (u - 0xD800) * 1024 + (v - 0xDC00))).map (·, t')
      else none
    | [] => none
  else (scalar? u).map (·, t)

/-- Units to characters, up to `fuel` of them. -/
def utf16CharsN : Nat → List Nat → Option (List Char)
  | _, [] => some []
  | 0, _ :: _ => none
  | fuel + 1, u :: t =>
    match utf16Next u t with
    | some (c, t') => (utf16CharsN fuel t').map (c :: ·)
    | none => none

/-- Units to characters. -/
def utf16Chars (us : List Nat) : Option (List Char) := utf16CharsN us.length us

/-- `bytes.decode("utf-16")`: a leading byte-order mark selects the byte order and is removed;
without one the native (little-endian) order is used. -/
def utf16Decode (bs : Bytes) : Option (List Char) :=
  let (be, body) :=
    match bs with
    | 0xFF :: 0xFE :: t => (false, t)
    | 0xFE :: 0xFF :: t => (true, t)
    | t => (false, t)
  match utf16Units be body with
  | some us => utf16Chars us
  | none => none

/-- `str.strip(chars)` for a predicate on characters: remove matching characters at both ends. -/
def stripBy (p : Char → Bool) (s : List Char) : List Char :=
  ((s.dropWhile p).reverse.dropWhile p).reverse

/-- The NUL character `"\0"`. -/
def nul : Char := Char.ofNat 0

/-- `str.strip("\0")`. -/
def stripNul (s : List Char) : List Char := stripBy (· == nul) s

end SL
