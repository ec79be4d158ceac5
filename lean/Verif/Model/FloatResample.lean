import Verif.Model.Floats

/-!
# Model: the lengths that are chosen on resampling the lag axis, with the rounding of durations (post_corr_process.py:592-644)

The exact counterpart is `resampleTimePlan` in `Model/PostCorr.lean`.
-/

namespace SeisMIC

/-- lengths in `corr_mat_resample_time` (post_corr_process.py:592-644), as `resampleTimePlan`: `num = int(np.floor(otime * freq))` with the rounded duration -/
def resampleTimePlanF (fuel : Nat) (s : LagStats) (freq : Rat) : Option (Except PyErr (Option (Nat × Nat × Nat))) :=
  if freq > s.sr then some (.error .valueError)
  else if freq = s.sr then some (.ok none)
  else
    let num := (resampledF s.npts s.sr freq).toNat
    match searchF s.npts num s.sr freq fuel with
    | .run _ _ => none
    | .fail => some (.error .typeError)
    | .done n1 n2 => some (.ok (some (s.npts + 2 * n2, 2 * (num + n1), num)))

end SeisMIC
