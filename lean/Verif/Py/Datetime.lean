import Verif.Py.Calendar

/-!
# `datetime.datetime`

A date and the time of the day in microseconds.
-/

namespace SeisMIC

structure Civil where
  year : Int
  month : Nat
  day : Nat
  /-- microseconds since midnight -/
  us : Nat
  deriving DecidableEq

/-- microseconds in an hour and in a day -/
def hourUs : Int := 3600000000
def dayUs : Int := 86400000000

/-- the dates that exist -/
def Civil.Valid (c : Civil) : Prop :=
  1 ≤ c.year ∧ c.year ≤ 9999 ∧ 1 ≤ c.month ∧ c.month ≤ 12 ∧ 1 ≤ c.day ∧ (c.day : Int) ≤ monthLength c.year c.month ∧
    (c.us : Int) < dayUs

instance (c : Civil) : Decidable c.Valid := by unfold Civil.Valid; infer_instance

/-- the constructor `datetime.datetime(...)`: a ValueError for dates that do not exist -/
def mkCivil (year : Int) (month day us : Nat) : Except PyErr Civil :=
  let c : Civil := ⟨year, month, day, us⟩
  if c.Valid then .ok c else .error .valueError

/-- number of the day, 0 is the first of January of year 1 -/
def Civil.dayNo (c : Civil) : Int := daysBeforeYear c.year + daysBeforeMonth c.year c.month + (c.day : Int) - 1

/-- microseconds since the beginning of year 1 -/
def Civil.abs (c : Civil) : Int := c.dayNo * dayUs + c.us

/-- the first year from `y` on that ends after day `n` -/
def findYear (n : Int) : Nat → Int → Int
  | 0, y => y
  | fuel + 1, y => if daysBeforeYear (y + 1) ≤ n then findYear n fuel (y + 1) else y

/-- the first month from `m` on that ends after day `r` of the year -/
def findMonth (y r : Int) : Nat → Nat → Nat
  | 0, m => m
  | fuel + 1, m => if daysBeforeMonth y (m + 1) ≤ r then findMonth y r fuel (m + 1) else m

/-- the date and time with this number of microseconds since year 1 -/
def civilOf (t : Int) : Civil :=
  let n := t / dayUs
  let y := findYear n n.toNat (n / 366 + 1)
  let r := n - daysBeforeYear y
  let m := findMonth y r 11 1
  ⟨y, m, (r - daysBeforeMonth y m + 1).toNat, (t % dayUs).toNat⟩

/-- `starttime + timedelta`: an OverflowError outside of the years 1 to 9999 -/
def Civil.add (c : Civil) (d : Int) : Except PyErr Civil :=
  let t := c.abs + d
  if 0 ≤ t ∧ t < daysBeforeYear 10000 * dayUs then .ok (civilOf t) else .error .overflowError

end SeisMIC
