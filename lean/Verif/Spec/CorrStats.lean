import Verif.Model.CorrStats

/-!
# What the header of a correlation trace has to satisfy
-/

namespace SeisMIC

/-- The relations between the header fields: sampling interval and sampling
rate, lag of the last sample, times of the correlated window. -/
structure CorrStats.Consistent {V : Type} (s : CorrStats V) : Prop where
  delta_rate : (s.samplingRate = 0 ∧ s.delta = 0) ∨ s.samplingRate * s.delta = 1
  end_lag : s.npts ≠ 0 → s.endLag = s.startLag + (s.npts - 1) * s.delta
  end_lag_empty : s.npts = 0 → s.endLag = s.startLag
  start : s.starttime = s.corrStart
  stop : s.endtime = s.corrEnd

/-- the header without the lag times -/
def CorrStats.noLags {V : Type} (s : CorrStats V) : CorrStats V := { s with startLag := 0, endLag := 0 }

/-- the samples of a correlation trace with their lag times -/
def lagged {V δ : Type} (tr : CorrStats V × List δ) : List (Rat × δ) := tr.1.times.zip tr.2

end SeisMIC
