/-!
# IEEE double arithmetic, on exact rationals

A double is represented by its exact value.  `round53` rounds to the nearest number with a 53-bit
significand, ties to even.  The exponent range is not limited (over- and underflow are not modelled: the
numbers here are integers below 2^32, divided or multiplied by 100).
-/
namespace SL

/-- `n / d` rounded to the nearest integer, ties to even. -/
def divRoundEven (n d : Nat) : Nat :=
  let q := n / d
  let r := n % d
  if 2 * r < d then q else if d < 2 * r then q + 1 else if q % 2 = 0 then q else q + 1

/-- ⌊log2 (n / d)⌋ for positive n, d. -/
def log2Ratio (n d : Nat) : Int :=
  let e : Int := (n.log2 : Int) - (d.log2 : Int)
  if 0 ≤ e then (if d * 2 ^ e.toNat ≤ n then e else e - 1)
  else (if d ≤ n * 2 ^ (-e).toNat then e else e - 1)

/-- The double nearest to the positive rational `n / d`. -/
def roundPos (n d : Nat) : Rat :=
  let s : Int := 52 - log2Ratio n d
  if 0 ≤ s then ((divRoundEven (n * 2 ^ s.toNat) d : Nat) : Rat) / ((2 ^ s.toNat : Nat) : Rat)
  else ((divRoundEven n (d * 2 ^ (-s).toNat) * 2 ^ (-s).toNat : Nat) : Rat)

/-- The double nearest to a rational. -/
def round53 (q : Rat) : Rat :=
  if q.num = 0 then 0
  else if 0 < q.num then roundPos q.num.toNat q.den
  else -roundPos (-q.num).toNat q.den

/-- Python's `a / b` for ints (correctly rounded true division), `b` positive. -/
def intDiv (a : Int) (b : Nat) : Rat := round53 (mkRat a b)

/-- Python's float multiplication. -/
def fmul (a b : Rat) : Rat := round53 (a * b)

/-- Python's `int(x)` for a float: truncation towards zero. -/
def truncRat (q : Rat) : Int := q.num.tdiv q.den

end SL
