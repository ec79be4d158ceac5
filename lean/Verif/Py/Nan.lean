import Verif.Py.Basic

/-!
# Arrays with `nan`

A floating point number is `Option Rat`: `none` is `nan`. Infinities do not
exist in the model: a division by zero gives `nan`.
-/

namespace SeisMIC

abbrev F := Option Rat

namespace F

def add (a b : F) : F := do pure ((← a) + (← b))
def sub (a b : F) : F := do pure ((← a) - (← b))
def mul (a b : F) : F := do pure ((← a) * (← b))
def div (a b : F) : F := do
  let x ← a
  let y ← b
  if y = 0 then none else some (x / y)
def abs (a : F) : F := a.map fun x => if x < 0 then -x else x

end F

/-- the values that are not `nan` -/
def notNan (l : List F) : List Rat := l.filterMap id

/-- `np.nansum` -/
def nansum (l : List F) : Rat := (notNan l).sum

/-- `np.nanmean`: `nan` (with a warning) if there are no values -/
def nanmean (l : List F) : F :=
  match notNan l with
  | [] => none
  | v => some (v.sum / v.length)

/-- maximum of a list -/
def maxList : List Rat → Option Rat
  | [] => none
  | a :: l => some (l.foldl (fun x y => if x < y then y else x) a)

/-- minimum of a list -/
def minList : List Rat → Option Rat
  | [] => none
  | a :: l => some (l.foldl (fun x y => if y < x then y else x) a)

/-- `np.nanmax`: `nan` (with a warning) if there are no values -/
def nanmax (l : List F) : F := maxList (notNan l)

/-- `np.nanmin` -/
def nanmin (l : List F) : F := minList (notNan l)

/-- column `j` of a matrix given as list of rows; missing entries are `nan` -/
def column {α : Type} (A : List (List (Option α))) (j : Nat) : List (Option α) :=
  A.map fun r => r.getD j none

end SeisMIC
