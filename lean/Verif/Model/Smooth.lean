import Verif.Model.Amplitude
import Verif.Py.Nan

/-!
# Model: smoothing of correlation matrices (post_corr_process.py:58-170)

Real numbers instead of floats, `none` is NaN. Infinite values are not modelled.
-/

namespace SeisMIC

noncomputable section

/-- the windows `np.ones`, `np.hanning`, `np.hamming`, `np.bartlett`, `np.blackman` with `L` samples,
`L ≥ 2` (used in post_corr_process.py:111-114) -/
def smoothWindow (window : Str) (L : Nat) : Except PyErr (List ℝ) :=
  let c (k : ℝ) (j : Nat) : ℝ := Real.cos (k * Real.pi * j / ((L : ℝ) - 1))
  if window = c!"flat" then .ok ((List.range L).map fun _ => 1)
  else if window = c!"hanning" then .ok ((List.range L).map fun j => 1 / 2 - 1 / 2 * c 2 j)
  else if window = c!"hamming" then .ok ((List.range L).map fun j => 54 / 100 - 46 / 100 * c 2 j)
  else if window = c!"bartlett" then .ok ((List.range L).map fun j : Nat => 1 - |2 * (j : ℝ) / ((L : ℝ) - 1) - 1|)
  else if window = c!"blackman" then .ok ((List.range L).map fun j => 42 / 100 - 1 / 2 * c 2 j + 8 / 100 * c 4 j)
  else .error .valueError

/-- the signal with its reflected copies (post_corr_process.py:108-109). `x[L:1:-1]` has the samples
from `min(L, n - 1)` down to 2, `x[-1:-L:-1]` the ones from `n - 1` down to `n - L + 1`. -/
def reflected (x : List ℝ) (L : Nat) : List ℝ :=
  ((List.range (min L (x.length - 1) - 1)).map fun j => 2 * x.getD 0 0 - x.getD (min L (x.length - 1) - j) 0) ++ x ++
  ((List.range (L - 1)).map fun j => 2 * x.getD (x.length - 1) 0 - x.getD (x.length - 1 - j) 0)

/-- `_smooth` for an array with one dimension (post_corr_process.py:58-117) -/
def smooth1 (x : List ℝ) (windowLen : Int) (window : Str) : Except PyErr (List ℝ) :=
  if (x.length : Int) < windowLen then .error .valueError
  else if windowLen < 3 then .ok x
  else do
    let L := windowLen.toNat
    -- an unknown window is rejected before the signal is extended
    let w ← smoothWindow window L
    let y := convSame (reflected x L) (w.map (· / w.sum))
    .ok ((y.drop (L - 1)).take (y.length - 2 * (L - 1)))

/-- the loop over the rows in `corr_mat_smooth` with the assignment `data[i] = scsig`: the data
afterwards and the exception. A result of other length than the row can't be assigned. -/
def smoothRows (windowLen : Int) (window : Str) : List (List ℝ) → List (List ℝ) × Option PyErr
  | [] => ([], none)
  | row :: rows =>
    match smooth1 row windowLen window with
    | .error e => (row :: rows, some e)
    | .ok s =>
      if s.length = row.length then
        let r := smoothRows windowLen window rows
        (s :: r.1, r.2)
      else (row :: rows, some .valueError)

/-- columns as rows for a matrix with `m` columns -/
def transposeR (m : Nat) (data : List (List ℝ)) : List (List ℝ) :=
  (List.range m).map fun j => data.map fun row => row.getD j 0

/-- `corr_mat_smooth` for a matrix with `m` columns (post_corr_process.py:120-170): the data
afterwards, which the function changes in place, and the exception -/
def corrMatSmooth (m : Nat) (data : List (List (Option ℝ))) (wsize : Int) (wtype : Str) (axis : Int) :
    List (List ℝ) × Option PyErr :=
  -- `np.nan_to_num(data, copy=False)`
  let data := data.map fun row => row.map fun x => x.getD 0
  if axis = 0 then smoothRows wsize wtype data
  else if axis = 1 then
    let r := smoothRows wsize wtype (transposeR m data)
    (transposeR data.length r.1, r.2)
  else (data, none)

end

end SeisMIC
