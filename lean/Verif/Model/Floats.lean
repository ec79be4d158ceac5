import Verif.Py.Float
import Verif.Model.Partition
import Verif.Model.PostCorr

/-!
# Model: computations with floating point numbers

The functions whose result depends on the rounding of floats because they turn them into integers or compare them. Every
operation is rounded as on the machine (`Py/Float.lean`). The other models use exact numbers; the theorems about these
definitions say when that makes a difference. The arguments are floats, that is, numbers that `f64` does not change; a decimal
number `x` in a file of options is the float `f64 x`.
-/

namespace SeisMIC

/-! ## distribution of work -/

/-- `pmap = np.arange(n)*psize/n; pmap.astype(np.int32)`, element `i` (correlate.py:422-423, 489-491, 648-651, 714-715;
monitor.py:350-351, 505-506): the product is one of integers, the quotient one of floats. -/
def pmapF (n psize i : Nat) : Int := truncRat (f64 (f64 (i * psize : Nat) / f64 n))

/-- `np.arange(n)[pmap == rank]` (correlate.py:424, 492-493, 654, 716-717; monitor.py:352-353, 507-508) -/
def ownIndicesF (n psize rank : Nat) : List Nat := (List.range n).filter fun i => pmapF n psize i == (rank : Int)

/-! ## lags -/

/-- `int(np.ceil(lengthToSave * sampling_rate))` (correlate.py:709-711) -/
def savedSamplesF (sr lts : Rat) : Nat := (f64 (lts * sr)).ceil.toNat

/-- `np.fix(offset * sampling_rate) / sampling_rate` (correlate.py:728-730) -/
def roffsetF (sr offset : Rat) : Rat := f64 ((truncRat (f64 (offset * sr)) : Rat) / sr)

/-- the start lag in the header of a correlation: `startlags[ii] = - sampleToSave / sampling_rate - roffset`, an array of
single precision (correlate.py:718, 763-764). numpy 1.x (setup.cfg:31) goes on in double precision when a scalar of single
precision meets a float of Python, so the functions below take it as it is. -/
def startLagF (sr lts offset : Rat) : Rat :=
  f32 (f64 (f64 (-(savedSamplesF sr lts : Rat) / sr) - roffsetF sr offset))

/-- `int(np.floor((time-start_lag)*sampling_rate))` (trim.py:44-46, post_corr_process.py:412-419) -/
def lagIndexF (startLag sr time : Rat) : Int := (f64 (f64 (time - startLag) * sr)).floor

/-- `corr_mat_trim` (trim.py:21-68) for a matrix, with rounding -/
def corrMatTrimF {α : Type} (data : List (List α)) (s : LagStats) (starttime endtime : Rat) :
    List (List α) × LagStats :=
  let start := lagIndexF s.startLag s.sr starttime
  let stop := lagIndexF s.startLag s.sr endtime
  if start < 0 then (data, s)
  else if stop ≥ s.npts then (data, s)
  else
    let data' := data.map fun row => pySlice row (some start) (some (stop + 1))
    let npts := match data' with
      | [] => (pySlice (List.replicate s.npts ()) (some start) (some (stop + 1))).length
      | row :: _ => row.length
    (data', { s with npts := npts, startLag := starttime })

/-- `stats['end_lag']` (stats.py:200-214), with rounding -/
def endLagF (s : LagStats) : Rat :=
  f64 (s.startLag + (if s.npts = 0 then 0 else f64 (((s.npts : Rat) - 1) * (if s.sr = 0 then 0 else f64 (1 / s.sr)))))

/-- `corr_mat_mirror` (post_corr_process.py:449-499), with rounding. `none`: the function returns the number 0. -/
def corrMatMirrorF (data : List (List F)) (s : LagStats) : Option (List (List F) × LagStats) :=
  let zeroSample := -f64 (s.startLag * s.sr)
  if zeroSample ≤ 0 then some (data, s)
  else if endLagF s ≤ 0 then some (data, s)
  else if zeroSample.den ≠ 1 then none
  else
    let acausal := (truncRat (f64 (zeroSample + 1))).toNat
    let causal := s.npts - acausal + 1
    some (data.map fun row => mirrorRow row acausal causal, { s with startLag := 0, npts := max acausal causal })

/-- first tapered sample in `corr_mat_taper_center` (post_corr_process.py:566, 576): `length` samples around zero lag -/
def taperLengthF (sr width : Rat) : Int := truncRat (f64 (2 * (f64 (f64 (width * sr) / 2)).ceil))

def taperStartF (s : LagStats) (length : Int) : Int := truncRat (f64 (f64 (-s.startLag * s.sr) - f64 ((length : Rat) / 2)))

/-- `np.round(start_lag * sampling_rate)` in `measure_shift` (post_corr_process.py:1179) -/
def zeroIndexF (s : LagStats) : Int := -pyRound (f64 (s.startLag * s.sr))

/-! ## sampling rates -/

/-- `x // y` of positive floats: the quotient rounded down. Python computes it from the exact remainder. -/
def floorDivF (x y : Rat) : Int := (x / y).floor

/-- `sr/freq == sr//freq` and `int(sr//freq)` (post_corr_process.py:711-712, miic_utils.py:180-181) -/
def decimationFactorF (sr freq : Rat) : Option Int :=
  if f64 (sr / freq) = (floorDivF sr freq : Rat) then some (floorDivF sr freq) else none

/-- `stats.delta` after `stats.sampling_rate = sr` (stats.py:200-204) -/
def deltaF (sr : Rat) : Rat := if sr = 0 then 0 else f64 (1 / sr)

/-- `stats.sampling_rate` after `stats.delta = d` (stats.py:186-191) -/
def rateF (d : Rat) : Rat := if d = 0 then 0 else f64 (1 / d)

/-! ## times -/

/-- `np.arange(start, stop, step)` of floats, as in correlate.py:480, stream.py:1174-1175 and monitor.py:745: the length is
computed first; the difference of the first two elements is the step of all others. -/
def arangeF (start stop step : Rat) : List Rat :=
  let n := (f64 (f64 (stop - start) / step)).ceil.toNat
  let next := f64 (start + step)
  let d := f64 (next - start)
  (List.range n).map fun i : Nat => if i = 0 then start else if i = 1 then next else f64 (start + f64 (i * d))

/-! ## numbers of samples in windows given in seconds -/

/-- samples of the time window of a stretching measurement: `np.arange(tw_start*sampling_rate, trim1*sampling_rate, 1)`
(monitor.py:280-282), with the decimals cut off (stretch_mod.py:120, 296) -/
def stretchWindowF (sr t0 t1 : Rat) : List Int := (arangeF (f64 (t0 * sr)) (f64 (t1 * sr)) 1).map truncRat

/-- `np.arange(np.ceil(tw[0]*sampling_rate), np.floor(tw[1]*sampling_rate))` (post_corr_process.py:1174-1176) -/
def shiftWindowF (sr t0 t1 : Rat) : List Rat := arangeF ((f64 (t0 * sr)).ceil : Int) ((f64 (t1 * sr)).floor : Int) 1

/-- `int(taper_len*sampling_rate)` (preprocessing_td.py:205) -/
def taperSamplesF (sr len : Rat) : Int := truncRat (f64 (len * sr))

/-- `int(np.ceil(windowLength * sampling_rate))` (preprocessing_td.py:382-383) -/
def smoothSamplesF (sr len : Rat) : Int := (f64 (len * sr)).ceil

/-- `otime = npts/sampling_rate; num = int(np.floor(otime * freq))` (post_corr_process.py:620-621) -/
def resampledF (npts : Nat) (sr freq : Rat) : Int := (f64 (f64 (npts / sr) * freq)).floor

/-- one iteration of the loop in `corr_mat_resample_time` (post_corr_process.py:626-635), with rounding -/
def searchStepF (npts num : Nat) (sr freq : Rat) : Search → Search
  | .run n1 n2 =>
    let ntime := f64 ((num + n1 : Rat) / freq)
    let otime := f64 ((npts + n2 : Rat) / sr)
    if ntime = otime then .done n1 n2
    else
      let (n1, n2) := if ntime < otime then (n1 + 1, n2) else (n1, n2 + 1)
      if n1 > num then .fail else .run n1 n2
  | s => s

/-- `k` iterations of the loop, with rounding -/
def searchF (npts num : Nat) (sr freq : Rat) (k : Nat) : Search :=
  Nat.rec (.run 0 0) (fun _ s => searchStepF npts num sr freq s) k

end SeisMIC
