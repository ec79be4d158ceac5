import Verif.Model.Stretch
import Verif.Model.PostCorr
import Verif.Model.Reference
import Verif.Py.Round

/-!
# Model: measuring and correcting time shifts (post_corr_process.py:1031-1226, stretch_mod.py:1223-1270,
stream.py:211-226)

Lags, sampling rate and shifts that are arguments are rational, the data are real numbers
without NaN. The spline (`UnivariateSpline(times, values, s=0)`) is a parameter.
-/

namespace SeisMIC

noncomputable section

/-- `np.linspace(start, stop, n)` -/
def linspaceR (start stop : ℝ) (n : Nat) : List ℝ :=
  (List.range n).map fun k : Nat => start + k * ((stop - start) / ((n : ℝ) - 1))

/-- `times = np.linspace(stats.start_lag, stats.end_lag, stats.npts)` (stretch_mod.py:1236,
post_corr_process.py:1218) -/
def lagTimes (s : LagStats) : List ℝ := linspaceR (s.startLag : ℝ) (s.endLag : ℝ) s.npts

/-- `create_shifted_ref_mat` (stretch_mod.py:1223-1242) -/
def shiftedRefMat (spline : List ℝ → List ℝ → ℝ → ℝ) (ref : List ℝ) (s : LagStats) (shifts : List ℝ) : List (List ℝ) :=
  shifts.map fun v => (lagTimes s).map fun t => spline (lagTimes s) ref (t + v)

/-- `row[indices]` -/
def takeIdx (row : List ℝ) (idx : List Int) : Except PyErr (List ℝ) :=
  idx.mapM fun k : Int =>
    if 0 ≤ k ∧ k < row.length then .ok (row.getD k.toNat 0)
    else if -(row.length : Int) ≤ k ∧ k < 0 then .ok (row.getD (k + row.length).toNat 0)
    else .error .indexError

/-- one row of `compare_with_modified_reference` (stretch_mod.py:1245-1270) -/
def compareRow (refMat : List (List ℝ)) (idx : List Int) (row : List ℝ) : Except PyErr (List (Option ℝ)) := do
  let first ← takeIdx row idx
  refMat.mapM fun r => do
    let second ← takeIdx r idx
    .ok (similarity first second)

/-- the samples of one time window (post_corr_process.py:1174-1180) -/
def lagIndices (sides : Str) (s : LagStats) (t0 t1 : Rat) : List Int :=
  let lo := (t0 * s.sr).ceil
  let hi := (t1 * s.sr).floor
  let ks := (List.range (hi - lo).toNat).map fun k : Nat => lo + k
  let ks := if sides = c!"both" then ks.reverse.map (fun k => -k) ++ ks else ks
  ks.map fun k => k - pyRound (s.startLag * s.sr)

/-- the part of `measure_shift` after the trimming (post_corr_process.py:1157-1202): correlation and
value for each row -/
def measureTrimmed (spline : List ℝ → List ℝ → ℝ → ℝ) (data : List (List ℝ)) (ref : List ℝ) (s : LagStats)
    (wins : List (Rat × Rat)) (range : Rat) (steps : Nat) (sides : Str) : Except PyErr (List (Option ℝ × Option ℝ)) := do
  let shifts := linspaceR (-(range : ℝ)) (range : ℝ) steps
  let refMat := shiftedRefMat spline ref s shifts
  data.mapM fun row => do
    let sims ← wins.mapM fun w => compareRow refMat (lagIndices sides s w.1 w.2) row
    -- `np.nanmean(sim_mats, axis=0)`
    bestMatch shifts ((List.range steps).map fun k => maMean (sims.map fun l => l.getD k none))

/-- `measure_shift` (post_corr_process.py:1031-1202). The matrix has `s.npts` columns and at least
one row. The result is the one before `np.squeeze`. -/
def measureShift (spline : List ℝ → List ℝ → ℝ → ℝ) (data : List (List ℝ)) (s : LagStats) (ref : Option (List ℝ))
    (tw : Option (List (List Rat))) (range : Rat) (steps : Int) (sides : Str) :
    Except PyErr (List (Option ℝ × Option ℝ)) :=
  if steps % 2 = 0 then .error .valueError
  else if sides ≠ c!"both" ∧ sides ≠ c!"single" then .error .valueError
  else if (tw.getD []).any (fun w => w.length != 2) then .error .valueError
  else if sides = c!"both" ∧ (tw.getD []).any (fun w => w.any fun t => decide (t < 0)) then .error .valueError
  else if (match ref with | some r => decide (r.length ≠ s.npts) | none => false) then .error .valueError
  else
    let wins : List (Rat × Rat) := (tw.getD [[s.startLag + range, s.endLag - range]]).map fun w => (w.getD 0 0, w.getD 1 0)
    let ends := wins.flatMap fun w => [w.1, w.2]
    match ends.max?, ends.min? with
    | some hi, some lo =>
      let twmax := hi + range
      let twmin := if sides = c!"both" then -twmax else lo - range
      if ¬ twmax ≤ s.endLag then .error .assertionError
      else if ¬ s.startLag ≤ twmin then .error .assertionError
      else
        let t := corrMatTrim (data ++ ref.toList) s twmin twmax
        let refTr := match ref with
          | some _ => t.1.getLastD []
          | none => (List.range t.2.npts).map fun j => meanR (t.1.map fun row => row.getD j 0)
        let rows := match ref with
          | some _ => t.1.dropLast
          | none => t.1
        if steps < 0 then .error .valueError
        else measureTrimmed spline rows refTr t.2 wins range steps.toNat sides
    | _, _ => .error .valueError

/-- a result array after `np.squeeze`: an array of one element becomes a scalar -/
inductive Squeezed where
  | scalar (x : Option ℝ)
  | array (l : List (Option ℝ))

/-- `np.squeeze` of an array with one dimension -/
def squeeze : List (Option ℝ) → Squeezed
  | [x] => .scalar x
  | l => .array l

/-- `interp1d(times, row, fill_value='extrapolate')(x)` for an equidistant axis with at least two
samples: piecewise linear, continued with the outermost pieces. `searchsorted` takes the piece
that ends at `x` if `x` is a sample. NaN if one of the two samples is. -/
def interpLin (t0 delta : ℝ) (row : List (Option ℝ)) (x : ℝ) : Option ℝ :=
  let i := (min (max ⌈(x - t0) / delta⌉ 1) ((row.length : Int) - 1)).toNat - 1
  match row.getD i none, row.getD (i + 1) none with
  | some a, some b => some (a + (b - a) * ((x - (t0 + i * delta)) / delta))
  | _, _ => none

/-- `apply_shift` (post_corr_process.py:1205-1226): the data afterwards, which are changed row by
row, and the exception. A NaN shift makes the row NaN. Matrices with at least two columns. -/
def applyShift (s : LagStats) : List (List (Option ℝ)) → List (Option ℝ) → List (List (Option ℝ)) × Option PyErr
  | [], _ => ([], none)
  | row :: rows, [] => (row :: rows, some .indexError)
  | row :: rows, v :: vs =>
    let new := (lagTimes s).map fun t => match v with
      | some v => interpLin (s.startLag : ℝ) (1 / (s.sr : ℝ)) row (t + v)
      | none => none
    let rest := applyShift s rows vs
    (new :: rest.1, rest.2)

/-- `CorrBulk.correct_shift` (stream.py:211-226). A scalar has no element 0. -/
def correctShift (s : LagStats) (data : List (List (Option ℝ))) (value : Squeezed) : List (List (Option ℝ)) × Option PyErr :=
  match value with
  | .scalar _ => if data = [] then (data, none) else (data, some .indexError)
  | .array l => applyShift s data (l.map fun v => v.map fun x => -x)

end

end SeisMIC
