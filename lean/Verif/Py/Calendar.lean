import Verif.Py.Basic

/-!
# Calendar

The proleptic Gregorian calendar of Python's `datetime` and obspy's `UTCDateTime`.
-/

namespace SeisMIC

def isLeap (y : Int) : Bool := decide (y % 4 = 0) && (decide (y % 100 ≠ 0) || decide (y % 400 = 0))

/-- days before the first of January of year `y`, counted from year 1 -/
def daysBeforeYear (y : Int) : Int := 365 * (y - 1) + (y - 1) / 4 - (y - 1) / 100 + (y - 1) / 400

def yearLength (y : Int) : Int := if isLeap y then 366 else 365

/-- length of month `m` (1 to 12) -/
def monthLength (y : Int) (m : Nat) : Int :=
  if m = 2 then (if isLeap y then 29 else 28) else if m = 4 ∨ m = 6 ∨ m = 9 ∨ m = 11 then 30 else 31

/-- days of the year before the first of month `m` -/
def daysBeforeMonth (y : Int) : Nat → Int
  | 0 => 0
  | 1 => 0
  | m + 2 => daysBeforeMonth y (m + 1) + monthLength y (m + 1)

/-- value of a string of digits -/
def digitsVal : Str → Nat
  | [] => 0
  | c :: s => (c.toNat - '0'.toNat) * 10 ^ s.length + digitsVal s

def isDigits (s : Str) : Bool := s.all fun c => decide ('0' ≤ c) && decide (c ≤ '9')

/-- `int(s)` for a string. Simplified: only strings of digits are accepted, a ValueError is
raised for all others (signs, spaces and underscores do not occur). -/
def pyInt (s : Str) : Except PyErr Nat := if s ≠ [] ∧ isDigits s then .ok (digitsVal s) else .error .valueError

end SeisMIC
