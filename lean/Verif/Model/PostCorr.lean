import Verif.Py.Slice
import Verif.Py.Nan
import Verif.Model.Stream

/-!
# Post-processing of correlation matrices

src/seismic/monitor/trim.py:21-68, src/seismic/monitor/post_corr_process.py,
src/seismic/monitor/monitor.py:712-747. A matrix is the list of its rows. Numbers
are rationals.
-/

namespace SeisMIC

/-- the part of the header of a correlation matrix that describes the lag axis.
`end_lag` and `delta` are derived (property C21). -/
structure LagStats where
  startLag : Rat
  npts : Nat
  sr : Rat
  deriving DecidableEq

/-- `stats['end_lag']` (stats.py:200-214) -/
def LagStats.endLag (s : LagStats) : Rat :=
  s.startLag + (if s.npts = 0 then 0 else ((s.npts : Rat) - 1) * (if s.sr = 0 then 0 else 1 / s.sr))

/-- `corr_mat_trim` (trim.py:21-68) for a matrix. -/
def corrMatTrim {α : Type} (data : List (List α)) (s : LagStats) (starttime endtime : Rat) :
    List (List α) × LagStats :=
  let start := ((starttime - s.startLag) * s.sr).floor
  let stop := ((endtime - s.startLag) * s.sr).floor
  if start < 0 then (data, s)
  else if stop ≥ s.npts then (data, s)
  else
    let data' := data.map fun row => pySlice row (some start) (some (stop + 1))
    let npts := match data' with
      | [] => (pySlice (List.replicate s.npts ()) (some start) (some (stop + 1))).length
      | row :: _ => row.length
    (data', { s with npts := npts, startLag := starttime })

/-- one bin in `corr_mat_resample` (post_corr_process.py:286-295) -/
def resampleBin (m : Nat) (data : List (List F)) (otime : List Int) (s e : Int) : List F :=
  let ind := ((otime.zip data).filter fun td => decide (s ≤ td.1) && decide (td.1 < e)).map Prod.snd
  match ind with
  | [] => List.replicate m none
  | [row] => row
  | ind => (List.range m).map fun j => nanmean (column ind j)

/-- `corr_mat_resample` (post_corr_process.py:226-303). `m` is the number of
columns, `otime`/`oend` start and end times of the correlations; the times of the
bins are in nanoseconds. The result holds the new rows, start and end times. -/
def corrMatResample (m : Nat) (data : List (List F)) (otime oend : List Int) (startTimes endTimes : List Int) :
    Except PyErr (List (List F) × List Int × List Int) := do
  if endTimes ≠ [] ∧ endTimes.length ≠ startTimes.length then throw .valueError
  let etime ← match startTimes with
    | [] => throw .indexError
    | [_] =>
      if endTimes ≠ [] then pure endTimes
      else match oend.getLast? with
        | none => throw .indexError
        | some e => pure [e]
    | s0 :: s1 :: _ => if endTimes ≠ [] then pure endTimes else pure (startTimes.map fun s => s + (s1 - s0))
  pure ((startTimes.zip etime).map (fun b => resampleBin m data otime b.1 b.2), startTimes, etime)

/-- `make_time_list` (monitor.py:712-747). Simplification: the dates are given as
times in nanoseconds, and so are the increment and the length. -/
def makeTimeList (start stop inc winLen : Int) : Except PyErr (List Int × List Int) :=
  if inc ≤ 0 ∨ winLen ≤ 0 then .error .valueError
  else if start ≥ stop then .error .valueError
  else
    let starttimes := arange start stop inc
    .ok (starttimes, starttimes.map (· + winLen))

/-- one row in `corr_mat_mirror` (post_corr_process.py:479-490): the causal part
is copied, the reversed acausal part added, and the common part halved. -/
def mirrorRow (row : List F) (acausal causal : Nat) : List F :=
  let size := max acausal causal
  let both := min acausal causal
  (List.range size).map fun i =>
    let v : F := if i < causal then row.getD (acausal - 1 + i) none else some 0
    let v := if i < acausal then F.add v (row.getD (acausal - 1 - i) none) else v
    if i < both then F.div v (some 2) else v

/-- `corr_mat_mirror` (post_corr_process.py:449-499). `none`: the function returns
the number 0 instead of data and header. -/
def corrMatMirror (data : List (List F)) (s : LagStats) : Option (List (List F) × LagStats) :=
  let zeroSample := -(s.startLag * s.sr)
  if zeroSample ≤ 0 then some (data, s)
  else if s.endLag ≤ 0 then some (data, s)
  else if zeroSample.den ≠ 1 then none
  else
    let acausal := (zeroSample + 1).floor.toNat
    let causal := s.npts - acausal + 1
    some (data.map fun row => mirrorRow row acausal causal, { s with startLag := 0, npts := max acausal causal })

/-- Python's `int()`: rounding towards zero -/
def truncRat (x : Rat) : Int := if x < 0 then -((-x).floor) else x.floor

/-- `row[start:stop] *= taper` with the broadcasting rules of numpy -/
def mulSlice (row : List Rat) (start stop : Nat) (taper : List Rat) : Except PyErr (List Rat) :=
  let part := (row.drop start).take (stop - start)
  if taper.length = part.length then
    .ok (row.take start ++ List.zipWith (· * ·) part taper ++ row.drop (start + part.length))
  else match taper with
    | [t] => .ok (row.take start ++ part.map (· * t) ++ row.drop (start + part.length))
    | _ => .error .valueError

/-- `corr_mat_taper_center` (post_corr_process.py:533-589). `cosTaper n` are the
values of `cosine_taper(n, p=1)`. Only for `0 < slope_frac ≤ 1` (else the two
slopes are empty or overlap). -/
def corrMatTaperCenter (cosTaper : Nat → List Rat) (data : List (List Rat)) (s : LagStats) (width slopeFrac : Rat) :
    Except PyErr (List (List Rat)) :=
  if width = 0 then .ok data
  else if width < 0 then .error .valueError
  else if width > s.npts / s.sr then .error .valueError
  else
    let length := (2 * (width * s.sr / 2).ceil).toNat
    let slope := (length * slopeFrac / 2).ceil.toNat
    let tap := cosTaper (slope * 2)
    -- `taper[0:slope] = tap[slope:]`, then `taper[-slope:] = tap[:slope]`
    let taper := tap.drop slope ++ List.replicate (length + 1 - 2 * slope) 0 ++ tap.take slope
    let start := truncRat (-s.startLag * s.sr - (length : Rat) / 2)
    let taper' := if start < 0 then taper.drop start.natAbs else taper
    let start' := if start < 0 then 0 else start.toNat
    let stop := start' + length
    let taper'' := if stop > s.npts then taper'.take (s.npts - start') else taper'
    let stop' := if stop > s.npts then s.npts else stop
    data.mapM fun row => mulSlice row start' (stop' + 1) taper''

/-- `corr_mat_decimate` (post_corr_process.py:647-685). `filt` is the Butterworth
low-pass filter applied to a row. -/
def corrMatDecimate {α : Type} (filt : List α → List α) (data : List (List α)) (s : LagStats) (factor : Int) :
    Except PyErr (List (List α) × LagStats) :=
  if factor < 1 then .error .valueError
  else if factor = 1 then .ok (data, s)
  else
    let data := data.map filt
    -- `lfilter(b, a, data[:, ::-1])[:, ::-factor][:, :-1]`
    let data := data.map fun row => (everyNth factor.toNat (filt row.reverse).reverse).dropLast
    let npts := match data with
      | [] => (everyNth factor.toNat (List.replicate s.npts ())).dropLast.length
      | row :: _ => row.length
    .ok (data, { s with npts := npts, sr := s.sr / factor })

/-- state of the search for a common length -/
inductive Search where
  | run (n1 n2 : Nat)
  | done (n1 n2 : Nat)
  | fail
  deriving DecidableEq

/-- one iteration of the loop in `corr_mat_resample_time`
(post_corr_process.py:626-635). Simplification: exact arithmetic. -/
def searchStep (npts num : Nat) (sr freq : Rat) : Search → Search
  | .run n1 n2 =>
    let ntime := (num + n1 : Rat) / freq
    let otime := (npts + n2 : Rat) / sr
    if ntime = otime then .done n1 n2
    else
      let (n1, n2) := if ntime < otime then (n1 + 1, n2) else (n1, n2 + 1)
      if n1 > num then .fail else .run n1 n2
  | s => s

/-- `k` iterations of the loop -/
def search (npts num : Nat) (sr freq : Rat) (k : Nat) : Search :=
  Nat.rec (.run 0 0) (fun _ s => searchStep npts num sr freq s) k

/-- lengths in `corr_mat_resample_time` (post_corr_process.py:592-644): what the
function decides after at most `fuel` iterations. `none`: still running;
`some (.ok none)`: nothing to do; `some (.ok (some (a, b, n)))`: `a` zeros are
appended to the `npts` samples, resampled to `b` samples, of which the first `n`
are kept. -/
def resampleTimePlan (fuel : Nat) (s : LagStats) (freq : Rat) : Option (Except PyErr (Option (Nat × Nat × Nat))) :=
  if freq > s.sr then some (.error .valueError)
  else if freq = s.sr then some (.ok none)
  else
    let num := ((s.npts : Rat) / s.sr * freq).floor.toNat
    match search s.npts num s.sr freq fuel with
    | .run _ _ => none
    | .fail => some (.error .typeError)
    | .done n1 n2 => some (.ok (some (s.npts + 2 * n2, 2 * (num + n1), num)))

/-- `corr_mat_resample_or_decimate` (post_corr_process.py:688-714): the decimation
factor, or `none` if the matrix is resampled -/
def decimationFactor (sr freq : Rat) : Option Int :=
  if sr / freq = (sr / freq).floor then some (sr / freq).floor else none

end SeisMIC
