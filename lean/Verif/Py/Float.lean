import Verif.Py.Round

/-!
# Binary floating point numbers

A float is the rational number it stands for. `roundTo p` is the rounding of IEEE 754 to `p` significant binary digits (to
the nearest number, ties to the even one): what every operation `+`, `-`, `*`, `/` on floats does with its exact result.
Overflow, subnormal numbers, infinities, NaN and the sign of zero are left out: all values are zero or between `2^-126` and
`2^127` in magnitude, where the range of exponents plays no role, neither in double nor in single precision.
-/

namespace SeisMIC

/-- `2^e` -/
def pow2 : Int → Rat
  | .ofNat n => ((2 ^ n : Nat) : Rat)
  | .negSucc n => 1 / ((2 ^ (n + 1) : Nat) : Rat)

/-- the exponent of `x ≠ 0`: `2^e ≤ |x| < 2^(e+1)` -/
def ilog2 (x : Rat) : Int :=
  let e : Int := (Nat.log2 x.num.natAbs : Int) - (Nat.log2 x.den : Int)
  if pow2 e ≤ |x| then e else e - 1

/-- rounding to `p` significant binary digits -/
def roundTo (p : Nat) (x : Rat) : Rat :=
  if x = 0 then 0
  else (pyRound (x * pow2 ((p : Int) - 1 - ilog2 x)) : Rat) / pow2 ((p : Int) - 1 - ilog2 x)

/-- double precision, Python's `float` and numpy's `float64` -/
def f64 (x : Rat) : Rat := roundTo 53 x

/-- single precision, numpy's `float32` -/
def f32 (x : Rat) : Rat := roundTo 24 x

end SeisMIC
