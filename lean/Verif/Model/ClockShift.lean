import Verif.Model.StretchMeasure

/-!
# Model: clock shifts by comparison with delayed references (stretch_mod.py:955-1157, post_corr_process.py:903-1028, stream.py:400-437)

As for stretches the data are real numbers (NaN are replaced by zero, stretch_mod.py:1036-1037), the spline is a parameter that is not defined for
fewer than four samples, and time windows hold whole numbers. Shifts are in samples.
-/

namespace SeisMIC

noncomputable section

/-- `UnivariateSpline(times, values, s=0, ext='const')` -/
def splineConst (spline : List ℝ → List ℝ → ℝ → ℝ) (times values : List ℝ) (x : ℝ) : ℝ :=
  spline times values (max (times.headD 0) (min (times.getLastD 0) x))

/-- the time axis of the reference in samples (stretch_mod.py:1060-1063). Its origin is of no importance for shifts. -/
def shiftIdx (single : Bool) (n : Nat) : List ℝ :=
  (List.range n).map fun i : Nat => if single then i - ((n : ℝ) - 1) / 2 else (i : ℝ)

/-- `ref_shift` (stretch_mod.py:1066-1074) -/
def delayedRefs (spline : List ℝ → List ℝ → ℝ → ℝ) (ref : List ℝ) (single : Bool) (shifts : List ℝ) : List (List ℝ) :=
  shifts.map fun v => (shiftIdx single ref.length).map fun t => splineConst spline (shiftIdx single ref.length) ref (t - v)

/-- `time_shift_estimate` (stretch_mod.py:955-1103): for each window and each row correlation and value. `n` is the number of columns of the data. The
reference is given (`corr_mat_shift` always gives one). -/
def timeShiftEstimate (spline : List ℝ → List ℝ → ℝ → ℝ) (n : Nat) (data : List (List ℝ)) (ref : List ℝ) (tw : Option (List (List Int))) (range : ℝ)
    (steps : Nat) (single : Bool) : Except PyErr (List (List (Option ℝ × Option ℝ))) := do
  let sides : Str := if single then c!"single" else c!"both"
  let w ← match tw with
    | none => defaultWindow sides n
    | some w => .ok w
  let shifts := linspaceR (-range) range steps
  velocityChange n ref.length (data.map fun row => row.map some) w (delayedRefs spline ref single shifts) shifts sides true

/-- `corr_mat_shift` (post_corr_process.py:903-1028; `CorrBulk.find_clock_shift`, stream.py:400-437). The matrix has `s.npts` columns. A reference is
appended to the matrix, which fails if it has another length, trimmed together with it and removed again. -/
def corrMatShift (spline : List ℝ → List ℝ → ℝ → ℝ) (data : List (List ℝ)) (s : LagStats) (ref : Option (List ℝ)) (tw : Option (List (List Int)))
    (range : ℝ) (steps : Nat) (sides : Str) : Except PyErr (List (List (Option ℝ × Option ℝ))) :=
  match ref with
  | none => do
    let t := shiftTrim data s sides
    let d ← t.1
    let r ← extractTrace t.2.npts (d.map fun row => row.map some) c!"mean" 50
    timeShiftEstimate spline t.2.npts d (r.map fun x => x.getD 0) tw range steps (decide (sides ≠ c!"both"))
  | some r =>
    if r.length ≠ s.npts then .error .valueError
    else do
      let t := shiftTrim (data ++ [r]) s sides
      let d ← t.1
      timeShiftEstimate spline t.2.npts d.dropLast (d.getLastD []) tw range steps (decide (sides ≠ c!"both"))

/-- `interp1d(time_idx, row, kind='linear', bounds_error=False, fill_value=0)(x)` for the axis `c, c + 1, …` -/
def interpZero (c : ℝ) (row : List ℝ) (x : ℝ) : ℝ :=
  if x < c ∨ c + (row.length - 1) < x then 0
  else
    let i := (min (max ⌈x - c⌉ 1) ((row.length : Int) - 1)).toNat - 1
    row.getD i 0 + (row.getD (i + 1) 0 - row.getD i 0) * (x - (c + i))

/-- the shifts of `time_shift_apply`: one for each trace, or a matrix with one row for each trace -/
inductive ShiftArg where
  | one (l : List ℝ)
  | two (columns : Nat) (l : List (List ℝ))

/-- `time_shift_apply` (stretch_mod.py:1106-1157) for a matrix with `n` columns. Rows without a shift stay zero; a shift without a row is not used.
`interp1d` needs a sample; for a single one there is no piece (not modelled: `n ≠ 1`). -/
def timeShiftApply (n : Nat) (data : List (List ℝ)) (shift : ShiftArg) (single : Bool) : Except PyErr (List (List ℝ)) :=
  let c : ℝ := if single then 0 else -(((n : ℝ) - 1) / 2)
  let apply (rows : List (List ℝ)) : List (List ℝ) :=
    (List.range data.length).map fun i => match data[i]?, rows[i]? with
      | some row, some d => (List.range n).map fun k : Nat => interpZero c row (c + k - (if d.length = 1 then d.headD 0 else d.getD k 0))
      | _, _ => List.replicate n 0
  match shift with
  | .one l => .ok (apply (l.map fun v => [v]))
  | .two columns l =>
    if l.length ≠ data.length then .error .valueError
    else if columns > 1 ∧ columns ≠ n then .error .valueError
    else .ok (apply l)

end

end SeisMIC
