import Mathlib.Data.Rat.Floor

/-! # Python's `round` -/

namespace SeisMIC

/-- `round(x)`: to the nearest integer, ties to the even one -/
def pyRound (x : Rat) : Int :=
  if x - x.floor < 1 / 2 then x.floor
  else if 1 / 2 < x - x.floor then x.floor + 1
  else if x.floor % 2 = 0 then x.floor
  else x.floor + 1

end SeisMIC
