import Verif.Model.AverageDv
import Verif.Model.TraceUtils

/-!
# Model: smoothing of a similarity matrix (monitor/dv.py)
-/

namespace SeisMIC

/-- one similarity in `sim_mat[sim_mat < exclude_corr_below] = nan` (dv.py:214-215); comparisons with NaN are false -/
def belowToNan (c : Rat) : F → F
  | some v => if v < c then none else some v
  | none => none

/-- the matrix after `sim_mat[sim_mat < exclude_corr_below] = nan` (dv.py:214-215) -/
def excludeBelow (sim : List (List F)) (c : Rat) : List (List F) := sim.map fun row => row.map (belowToNan c)

/-- `nan_moving_av(data, h, axis=0)` (miic_utils.py:366-391) of a matrix with `ncol` columns -/
def nanMovingAvCols (ncol : Nat) (data : List (List F)) (h : Nat) : List (List F) :=
  (List.range data.length).map fun ii : Nat =>
    let start : Int := if (ii : Int) - h < 0 then 0 else (ii : Int) - h
    let win := pySlice data (some start) (some ((ii + h + 1 : Nat) : Int))
    (List.range ncol).map fun j => nanmean (column win j)

/-- `second_axis[argmax(nan_to_num(row))]` (dv.py:220-221) for one time -/
def firstBest (axis : List Rat) (row : List F) : Except PyErr F :=
  match axis[argmaxR (row.map nan0)]? with
  | some v => .ok (some v)
  | none => .error .indexError

/-- `DV.smooth_sim_mat` (dv.py:197-222) for a window length that is not negative and a matrix with `ncol` columns: the object afterwards. `np.argmax` of
no columns is a `ValueError`, a second axis that is too short an `IndexError`. -/
def smoothSimMat (d : Dv) (ncol winLen : Nat) (below : Option Rat) : Except PyErr Dv := do
  let sim := match below with
    | some c => excludeBelow d.sim c
    | none => d.sim
  let sm := nanMovingAvCols ncol sim (winLen / 2)
  if ncol = 0 then throw .valueError
  let value ← sm.mapM (firstBest d.axis)
  pure { d with sim := sm, corr := sm.map nanmax, value := value }

end SeisMIC
