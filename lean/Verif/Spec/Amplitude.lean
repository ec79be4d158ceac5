import Verif.Model.Amplitude
import Verif.Spec.PostCorr

/-!
# Specification vocabulary for amplitudes
-/

namespace SeisMIC

/-- sample `i` belongs to the window `(starttime, endtime]` shifted by one sample:
these are the samples from the last one at or before `starttime` to the one
before the last one at or before `endtime`. An omitted bound does not restrict. -/
def LagStats.normWindow (s : LagStats) (starttime endtime : Option Rat) (i : Nat) : Bool :=
  (starttime.all fun t => decide (t < s.lag (i + 1))) && (endtime.all fun t => decide (s.lag (i + 1) ≤ t))

/-- the samples have unit size in the sense of the type of normalisation -/
def UnitSize (ty : Str) (w : List ℝ) : Prop :=
  (ty = c!"energy" → (w.map fun x => x ^ 2).sum / (w.length : ℝ) = 1) ∧
  (ty = c!"abssum" → (w.map fun x => |x|).sum / (w.length : ℝ) = 1) ∧
  (ty = c!"absmax" → (∀ x ∈ w, |x| ≤ 1) ∧ ∃ x ∈ w, |x| = 1)

end SeisMIC
