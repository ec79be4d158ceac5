import Verif.Model.PostCorr
import Mathlib.Analysis.SpecialFunctions.Trigonometric.Basic
import Mathlib.Analysis.SpecialFunctions.Log.Basic
import Mathlib.Analysis.Real.Sqrt

/-!
# Correction of the amplitude decay and tapering of correlations (src/seismic/monitor/post_corr_process.py)

Correlations are real, `none` is NaN. The matrix has one row for each correlation, and `s.npts` columns.
-/

namespace SeisMIC

noncomputable section

/-- one row of `corr_mat_envelope` (post_corr_process.py:355-375). `hilb` is the imaginary part of `scipy.signal.hilbert`. -/
def envelopeRow (hilb : List ℝ → List ℝ) (x : List ℝ) : List ℝ := List.zipWith (fun a b => Real.sqrt (a ^ 2 + b ^ 2)) x (hilb x)

/-- one row of `corr_mat_mirror` (post_corr_process.py:476-490) with `z` samples before lag zero: the mean of both sides, or the one that
is present -/
def mirrorRowR (z : Nat) (x : List ℝ) : List ℝ :=
  (List.range (max (z + 1) (x.length - z))).map fun i =>
    if i < z + 1 ∧ i < x.length - z then (x.getD (z + i) 0 + x.getD (z - i) 0) / 2
    else if i < z + 1 then x.getD (z - i) 0 else x.getD (z + i) 0

/-- `np.nanmean(env, 0)` (post_corr_process.py:333) of `n` columns; rows that have NaN are left out by the caller, because the Fourier
transform in `hilbert` spreads a NaN over its row -/
def meanRows (n : Nat) (rows : List (List ℝ)) : List ℝ := (List.range n).map fun i => (rows.map fun r => r.getD i 0).sum / rows.length

/-- `np.polyfit(np.arange(n), y, 1)` (post_corr_process.py:337-339): slope and intercept, for at least two values -/
def lineFit (y : List ℝ) : ℝ × ℝ :=
  let tm : ℝ := ((y.length : ℝ) - 1) / 2
  let ym := y.sum / y.length
  let slope := ((List.range y.length).map fun k : Nat => ((k : ℝ) - tm) * (y.getD k 0 - ym)).sum / ((List.range y.length).map fun k : Nat => ((k : ℝ) - tm) ^ 2).sum
  (slope, ym - slope * tm)

/-- the average envelope that is fitted in `corr_mat_correct_decay` (post_corr_process.py:327-333): both sides are averaged, if lag zero
is inside of the correlations. If it is between two samples, `corr_mat_mirror` returns 0, which cannot be unpacked. -/
def decayEnvelope (hilb : List ℝ → List ℝ) (data : List (List (Option ℝ))) (s : LagStats) : Except PyErr (List ℝ) :=
  let rows := (data.filterMap fun row => row.mapM id).map (envelopeRow hilb)
  let z := -(s.startLag * s.sr)
  if z ≤ 0 ∨ s.endLag ≤ 0 then .ok (meanRows s.npts rows)
  else if z.den ≠ 1 then .error .typeError
  else .ok (meanRows (max (z.num.toNat + 1) (s.npts - z.num.toNat)) (rows.map (mirrorRowR z.num.toNat)))

/-- `corr_mat_correct_decay` (post_corr_process.py:307-352). The fit fails (`LinAlgError`, here a `ValueError`) if the logarithm is not
finite, so if all rows have NaN or the average envelope is zero at some lag. -/
def correctDecay (hilb : List ℝ → List ℝ) (data : List (List (Option ℝ))) (s : LagStats) : Except PyErr (List (List (Option ℝ))) := do
  let env ← decayEnvelope hilb data s
  if (data.filterMap fun row => row.mapM id) = [] ∨ (0 : ℝ) ∈ env then .error .valueError
  else
    let f := lineFit (env.map Real.log)
    let z : Rat := -(s.startLag * s.sr)
    let tenv := (List.range s.npts).map fun k : Nat => Real.exp f.2 * Real.exp (f.1 * |(k : ℝ) - (z : ℝ)|)
    .ok (data.map fun row => List.zipWith (fun (x : Option ℝ) t => x.map (· / t)) row tenv)

/-- `obspy.signal.invsim.cosine_taper(npts, p)` (used in post_corr_process.py:524-525). If two corners are the same sample, one is moved.
Later assignments overwrite earlier ones. -/
def cosineTaper (npts : Nat) (p : Rat) : Except PyErr (List ℝ) :=
  if p < 0 ∨ 1 < p then .error .valueError
  else
    let frac : Int := if p = 0 ∨ p = 1 then (npts * p / 2).floor else (npts * p / 2 + 1 / 2).floor
    let i2 : Int := if frac - 1 = 0 then 1 else frac - 1
    let i3 : Int := if npts - frac = npts - 1 then npts - 2 else npts - frac
    .ok ((List.range npts).map fun k : Nat =>
      if i3 ≤ k then 1 / 2 * (1 + Real.cos (Real.pi * ((i3 : ℝ) - k) / ((npts : ℝ) - 1 - i3)))
      else if i2 < k then 1
      else 1 / 2 * (1 - Real.cos (Real.pi * (k : ℝ) / i2)))

/-- `corr_mat_taper` (post_corr_process.py:502-530) -/
def corrMatTaper (data : List (List (Option ℝ))) (s : LagStats) (width : Rat) : Except PyErr (List (List (Option ℝ))) :=
  if width = 0 then .ok data
  else if (s.npts : Rat) / s.sr < width then .error .valueError
  else do
    let tap ← cosineTaper s.npts (2 * width * s.sr / s.npts)
    .ok (data.map fun row => List.zipWith (fun (x : Option ℝ) t => x.map (· * t)) row tap)

end

end SeisMIC
