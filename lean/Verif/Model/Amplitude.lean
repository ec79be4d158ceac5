import Mathlib.Analysis.SpecialFunctions.Trigonometric.Basic
import Verif.Model.PostCorr

/-!
# Amplitude processing: clipping, normalisation, muting, whitening

src/seismic/monitor/post_corr_process.py:33-55,378-446,
src/seismic/correlate/preprocessing_td.py:26-53,148-299,
src/seismic/correlate/preprocessing_fd.py:80-120. Samples are real numbers, a
matrix is the list of its rows; rounding is not modelled.
-/

namespace SeisMIC

noncomputable section

/-- `np.mean` of a non-empty array -/
def meanR (l : List ℝ) : ℝ := l.sum / l.length

/-- `np.std` of a non-empty array -/
def stdR (l : List ℝ) : ℝ := Real.sqrt (meanR (l.map fun x => (x - meanR l) ^ 2))

/-- `np.max`; `none` is the `ValueError` of an empty array -/
def maxR : List ℝ → Option ℝ
  | [] => none
  | x :: l => some (l.foldl max x)

/-- `np.clip` of one number: `minimum(maximum(x, lo), hi)` -/
def npClip (lo hi x : ℝ) : ℝ := min (max x lo) hi

/-- the argument `axis` of `corr_mat_clip` -/
inductive ClipAxis where
  | all
  | columns
  | rows

/-- `clipv` for the sample in row `i` and column `j` (post_corr_process.py:50):
`axis=None`, `axis=0`, `axis=1` -/
def clipLevel (A : List (List ℝ)) (thres : ℝ) (axis : ClipAxis) (i j : Nat) : ℝ :=
  thres * match axis with
    | .all => stdR A.flatten
    | .columns => stdR (A.filterMap fun row => row[j]?)
    | .rows => stdR (A.getD i [])

/-- `np.clip` with the level `v i j` for each sample (post_corr_process.py:51-54) -/
def clipAt (v : Nat → Nat → ℝ) (A : List (List ℝ)) : List (List ℝ) :=
  A.mapIdx fun i row => row.mapIdx fun j x => npClip (-v i j) (v i j) x

/-- `corr_mat_clip` (post_corr_process.py:33-55) -/
def corrMatClip (A : List (List ℝ)) (thres : ℝ) (axis : ClipAxis) : List (List ℝ) :=
  clipAt (clipLevel A thres axis) A

/-- `clip` of the time-domain preprocessing for one trace
(preprocessing_td.py:48-52); `none` is NaN. Comparisons with NaN are false; for a
trace without valid sample the standard deviation is NaN. -/
def tdClip (factor : ℝ) (row : List (Option ℝ)) : List (Option ℝ) :=
  let valid := row.filterMap id
  if valid = [] then row
  else
    let ts := factor * stdR valid
    let row := row.map fun x => x.map fun x => if x > ts then ts else x
    row.map fun x => x.map fun x => if x < -ts then -ts else x

/-- the factor for one row in `corr_mat_normalize` (post_corr_process.py:432-441);
`none` is NaN, the mean of an empty window -/
def normFactor (ty : Str) (w : List ℝ) : Except PyErr (Option ℝ) :=
  if ty = c!"energy" then
    .ok (if w = [] then none else some (Real.sqrt (meanR (w.map (· ^ 2)))))
  else if ty = c!"abssum" then
    .ok (if w = [] then none else some (meanR (w.map (|·|))))
  else if ty = c!"max" then
    match maxR w with
    | none => .error .valueError
    | some m => .ok (some m)
  else if ty = c!"absmax" then
    match maxR (w.map (|·|)) with
    | none => .error .valueError
    | some m => .ok (some m)
  else .error .valueError

/-- `norm[norm == 0] = 1` and the division of a row (post_corr_process.py:444-445) -/
def normDivide (m : Option ℝ) (row : List ℝ) : List (Option ℝ) :=
  match m with
  | none => row.map fun _ => none
  | some m => row.map fun x => some (x / (if m = 0 then 1 else m))

/-- `corr_mat_normalize` (post_corr_process.py:378-446) -/
def corrMatNormalize (data : List (List ℝ)) (s : LagStats) (starttime endtime : Option Rat) (ty : Str) :
    Except PyErr (List (List (Option ℝ))) := do
  let start := starttime.map fun t => ((t - s.startLag) * s.sr).floor
  let stop := endtime.map fun t => ((t - s.startLag) * s.sr).floor
  -- `if start and start < 0`, `if end and end >= npts`
  if start.any (fun k => decide (k ≠ 0) && decide (k < 0)) then
    return data.map fun row => row.map some
  if stop.any (fun k => decide (k ≠ 0) && decide (k ≥ (s.npts : Int))) then
    return data.map fun row => row.map some
  let norm ← data.mapM fun row => normFactor ty (pySlice row start stop)
  return List.zipWith normDivide norm data

/-- `normalizeStandardDeviation` for one trace (preprocessing_td.py:268-272) -/
def normalizeStd (row : List ℝ) : List ℝ :=
  row.map fun x => x / (if stdR row = 0 then 1 else stdR row)

/-- `np.sign` -/
def npSign (x : ℝ) : ℝ := if 0 < x then 1 else if x < 0 then -1 else 0

/-- `signBitNormalization` for one trace (preprocessing_td.py:275-293) -/
def signBit (row : List ℝ) : List ℝ := row.map npSign

/-- `np.convolve(a, v, mode='same')` with `len(v) ≤ len(a)`: sample `i` is
`full[i + (len(v) - 1) // 2]` -/
def convSame (a v : List ℝ) : List ℝ :=
  (List.range a.length).map fun i =>
    ((List.range v.length).map fun j =>
      v.getD j 0 * if j ≤ i + (v.length - 1) / 2 then a.getD (i + (v.length - 1) / 2 - j) 0 else 0).sum

/-- the taper in `mute` (preprocessing_td.py:240-241) -/
def muteTap (n : Nat) : List ℝ :=
  (List.range n).map fun j : Nat => (2 - (Real.cos ((j : ℝ) / n * 2 * Real.pi) + 1)) / n

/-- arguments of `mute` other than the filter -/
structure MuteArgs where
  taperLen : Rat
  threshold : Option ℝ
  stdFactor : Option ℝ
  extendGaps : Bool

/-- threshold for one trace (preprocessing_td.py:219-224); `c` is the filtered trace -/
def MuteArgs.thres (args : MuteArgs) (c : List ℝ) : ℝ :=
  match args.threshold, args.stdFactor with
  | some t, _ => t
  | none, some f => stdR c * f
  | none, none => stdR c

/-- the weights of `mute` for one trace (preprocessing_td.py:227-243) -/
def muteWeights (args : MuteArgs) (ntap : Nat) (c : List ℝ) : List ℝ :=
  let mask := c.map fun x => if |x| > args.thres c then (0 : ℝ) else 1
  let nmask :=
    if args.extendGaps then
      (convSame mask (List.replicate ntap (1 / (ntap : ℝ)))).map fun x => if x < 1 then 0 else 1
    else mask
  convSame nmask (muteTap ntap)

/-- `mute` (preprocessing_td.py:148-247) for a matrix `A` of traces with `npts`
samples. `filt` is the filter of `args['filter']` for one trace or the identity. A
taper shorter than one sample lets `np.convolve` (or `np.ones`) raise
`ValueError`. -/
def mute (filt : List ℝ → List ℝ) (A : List (List ℝ)) (npts : Nat) (sr : Rat) (args : MuteArgs) :
    Except PyErr (List (List ℝ)) :=
  if args.taperLen = 0 then .error .valueError
  else
    let ntap := truncRat (args.taperLen * sr)
    if (npts : Int) ≤ ntap then .ok (A.map fun row => row.map fun _ => 0)
    else if ntap ≤ 0 then .error .valueError
    else .ok (A.map fun row => List.zipWith (· * ·) row (muteWeights args ntap.toNat (filt row)))

/-- amplitudes in `spectralWhitening` (preprocessing_fd.py:101-108) -/
def whitenAbs (joint : Bool) (B : List (List ℂ)) : List (List ℝ) :=
  let absB := B.map fun row => row.map fun z => ‖z‖
  if joint then
    absB.mapIdx fun i row => row.mapIdx fun j _ =>
      (((absB.drop (i / 3 * 3)).take 3).map fun r => r.getD j 0).sum / 3
  else absB

/-- `spectralWhitening` (preprocessing_fd.py:80-120). `0/0` in one sample raises
`FloatingPointError`, which is caught: then no sample is divided. -/
def spectralWhitening (joint : Bool) (B : List (List ℂ)) : Except PyErr (List (List ℂ)) :=
  open Classical in
  if joint ∧ B.length % 3 ≠ 0 then .error .assertionError
  else
    let absB := whitenAbs joint B
    let B := if ∃ row ∈ absB, (0 : ℝ) ∈ row then B
      else List.zipWith (List.zipWith fun (z : ℂ) (a : ℝ) => z / (a : ℂ)) B absB
    .ok (B.map fun row => row.set 0 0)

end

end SeisMIC
