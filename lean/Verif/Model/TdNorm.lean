import Verif.Model.Amplitude

/-!
# Model: amplitude dependent normalisation of traces (preprocessing_td.py:335-431)

Real numbers instead of floats; `none` is NaN or an infinite value.
-/

namespace SeisMIC

noncomputable section

/-- the smoothed squares of a filtered trace (preprocessing_td.py:379-392): smoothed in both directions with a window of `n` samples -/
def tdEnvelope (n : Nat) (x : List ℝ) : List ℝ :=
  let win := List.replicate n (1 / (n : ℝ))
  (convSame (convSame (x.map (· ^ 2)) win).reverse win).reverse

/-- one row of `TDnormalization` (preprocessing_td.py:370-397). A NaN makes the maximum NaN, and so the whole trace. `filt` is the filter
(`TDfilter`, preprocessing_td.py:400-431) or the identity. -/
def tdNormRow (filt : List ℝ → List ℝ) (n : Nat) (row : List (Option ℝ)) : List (Option ℝ) :=
  open Classical in
  if none ∈ row then row.map fun _ => none
  else
    let a := row.filterMap id
    let b := tdEnvelope n (filt a)
    let m := (maxR b).getD 0
    List.zipWith (fun x y => if y + m * (1 / 1000000) = 0 then none else some (x / Real.sqrt (y + m * (1 / 1000000)))) a b

/-- `TDnormalization` (preprocessing_td.py:335-397) for a matrix with `npts` columns. `np.convolve` with a window that is longer than the
trace has a result as long as the window, which can't be assigned to the row. -/
def tdNormalization (filt : List ℝ → List ℝ) (npts : Nat) (sr windowLength : Rat) (A : List (List (Option ℝ))) :
    Except PyErr (List (List (Option ℝ))) :=
  if windowLength ≤ 0 then .error .valueError
  else
    let n := (windowLength * sr).ceil.toNat
    if npts < n ∧ A ≠ [] then .error .valueError
    else .ok (A.map (tdNormRow filt n))

end

end SeisMIC
