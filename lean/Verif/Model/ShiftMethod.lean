import Verif.Model.AverageDv
import Verif.Py.Sort

/-!
# The correction of a shift with either method

`correct_dv_shift` (src/seismic/monitor/monitor.py:806-888) with the methods `mean` and
`median`. `Model/AverageDv.lean` has the window that is compared and the method `mean`.
-/

namespace SeisMIC

/-- the median of sorted values: the middle one, or the mean of the two in the middle -/
def middleQ (v : List Rat) : Rat :=
  if v.length % 2 = 1 then v.getD (v.length / 2) 0
  else (v.getD (v.length / 2 - 1) 0 + v.getD (v.length / 2) 0) / 2

/-- `np.nanmedian` (monitor.py:880-881): NaN if there is no number -/
def nanmedian (l : List F) : F :=
  match notNan l with
  | [] => none
  | v => some (middleQ (isort (fun a b => decide (a ≤ b)) v))

/-- the measured shift (monitor.py:876-883) from the values and correlations that are compared -/
def shiftOf (method : Str) (v0 c0 v1 c1 : List F) : Except PyErr F :=
  if method = c!"mean" then .ok (F.sub (weightedMean v0 c0) (weightedMean v1 c1))
  else if method = c!"median" then .ok (F.sub (nanmedian v0) (nanmedian v1))
  else .error .valueError

/-- the number of samples to roll by (monitor.py:884): rounding NaN to an integer is a
ValueError; an axis with fewer than two points is an IndexError -/
def rollOf (axis : List Rat) (shift : F) : Except PyErr Int :=
  match axis with
  | a :: b :: _ =>
    match F.div (shift.map fun x => -x) (some (b - a)) with
    | none => .error .valueError
    | some q => .ok (pyRound q)
  | _ => .error .indexError

/-- `correct_dv_shift` (monitor.py:806-888); `t0`, `t1` are the start times of the curves -/
def correctDvShiftM (method : Str) (d0 d1 : Dv) (t0 t1 : List Int) (nOverlap : Nat) : Except PyErr Dv := do
  let (start, stop) ← shiftWindow t0 t1 (d0.corr.map (·.isSome)) (d1.corr.map (·.isSome)) nOverlap d0.value.length
  let s (l : List F) := pySlice l (some start) (some stop)
  let shift ← shiftOf method (s d0.value) (s d0.corr) (s d1.value) (s d1.corr)
  let roll ← rollOf d0.axis shift
  pure (applyRoll d0 roll)

end SeisMIC
