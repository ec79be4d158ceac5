import Verif.Model.Stream
import Verif.Model.Floats

/-!
# Model: windows of a stream of correlations, with the rounding of times (correlate/stream.py)

obspy keeps a time as a whole number of nanoseconds, gives it to others as a float in seconds and compares times after rounding them to microseconds.
-/

namespace SeisMIC

variable {V : Type}

/-- `UTCDateTime.timestamp` of obspy: `ns / 1e9` -/
def timestampF (ns : Int) : Rat := f64 (f64 ns / 1000000000)

/-- `UTCDateTime(timestamp)` of obspy: `round(timestamp * 10**9)` -/
def fromTimestampF (t : Rat) : Int := pyRound (f64 (t * 1000000000))

/-- what obspy compares: the time rounded to microseconds, `round(ns, -3)` -/
def roundUs (ns : Int) : Int := pyRound ((ns : Rat) / 1000) * 1000

/-- `CorrStream.select_corr_time` (stream.py:1038-1079) with the comparisons of obspy. Simplification: the order of the stream is that of the nanoseconds. -/
def selectCorrTimeUs (st : List (CTr V)) (starttime endtime : Int) (partly : Bool) : List (CTr V) :=
  let self := isort startLe st
  if partly then
    self.filter fun tr =>
      (decide (roundUs tr.stats.corrEnd > roundUs starttime) && decide (roundUs tr.stats.corrEnd < roundUs endtime)) ||
        decide (roundUs tr.stats.corrEnd = roundUs endtime)
  else
    self.filter fun tr => decide (roundUs tr.stats.corrStart ≥ roundUs starttime) && decide (roundUs tr.stats.corrEnd ≤ roundUs endtime)

/-- `CorrStream.slide` (stream.py:1111-1190) with the rounding of times; `step` in seconds. Simplification: the length of the window and the longest correlation are
compared in nanoseconds. -/
def slideF (st : List (CTr V)) (windowLength : Int) (step : Rat) (partly : Bool)
    (starttime endtime : Option Int) : Except PyErr (List (List (CTr V))) := do
  let starttime ← match starttime with
    | some t => .ok t
    | none => pyMin (st.map fun tr => tr.stats.corrStart)
  let endtime ← match endtime with
    | some t => .ok t
    | none => pyMax (st.map fun tr => tr.stats.corrEnd)
  let longest ← pyMax (st.map fun tr => tr.stats.corrEnd - tr.stats.corrStart)
  if windowLength < longest then throw .valueError
  if step ≤ 0 then throw .valueError
  pure (((arangeF (timestampF starttime) (timestampF endtime) step).map fun start =>
    selectCorrTimeUs st (fromTimestampF start) (fromTimestampF start + windowLength) partly).filter fun temp => !temp.isEmpty)

end SeisMIC
