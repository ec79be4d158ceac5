import Verif.Model.Floats
import Verif.Model.TraceUtils

/-!
# Model: axes, masks and numbers of steps computed with floating point numbers

As in `Model/Floats.lean`, every operation is rounded.
-/

namespace SeisMIC

/-- `np.linspace(start, stop, n)` for `n > 1` (stretch_mod.py:445, 1057, 1236; post_corr_process.py:1166, 1218): the step is
computed first, the last element is set to `stop` -/
def linspaceF (start stop : Rat) (n : Nat) : List Rat :=
  let step := f64 (f64 (stop - start) / ((n : Rat) - 1))
  (List.range n).map fun k : Nat => if k + 1 = n then stop else f64 (f64 (k * step) + start)

/-- `roll = int(round(-shift/(second_axis[1]-second_axis[0])))` (monitor.py:884) and `np.around(m / delta)`
(stretch_mod.py:799) for `m = -shift` -/
def rollF (shift a0 a1 : Rat) : Int := pyRound (f64 (-shift / f64 (a1 - a0)))

/-- `tl_n = round(taper_len*tr.stats.sampling_rate)` (preprocessing_stream.py:100) -/
def cosTaperSamplesF (sr len : Rat) : Int := pyRound (f64 (len * sr))

/-- `int(np.ceil(read_len/subdivision['corr_inc']))` (correlate.py:1433-1434): the number of empty windows of a process
without data -/
def emptyWindowsF (readLen inc : Rat) : Int := (f64 (readLen / inc)).ceil

/-- the mask of `trace_mask_at_utc` (preprocessing_stream.py:259-306), with rounding. `secs` is the float that obspy returns
for a difference of two times; comparisons of times are exact. -/
def maskAtUtcF (secs : Rat → Rat) (npts : Nat) (sr start : Rat) (ivs : List (Rat × Rat)) (reverse : Bool) : List Bool :=
  let stop := start + ((npts : Rat) - 1) / sr
  let ii := fun iv : Rat × Rat => decide (iv.1 < stop) && decide (iv.1 > start)
  let jj := fun iv : Rat × Rat => decide (iv.2 < stop) && decide (iv.2 > start)
  let ns := fun s : Rat => (f64 (sr * secs (s - start))).floor
  let ne := fun e : Rat => (f64 (sr * secs (e - start))).ceil + 1
  let mask := List.replicate npts false
  let mask := (ivs.filter fun iv => jj iv && ii iv).foldl (fun m iv => setMask m (some (ns iv.1)) (some (ne iv.2))) mask
  let mask := (ivs.filter fun iv => ii iv && !jj iv).foldl (fun m iv => setMask m (some (ns iv.1)) none) mask
  let mask := (ivs.filter fun iv => !ii iv && jj iv).foldl (fun m iv => setMask m none (some (ne iv.2))) mask
  if reverse then mask.map (!·) else mask

end SeisMIC
