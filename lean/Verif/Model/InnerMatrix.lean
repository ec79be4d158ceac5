import Verif.Model.Segments

/-!
# Model: from the stream of a correlation window to the matrix of samples

correlate.py:358-374 (`Correlator._pxcorr_inner`), correlate.py:781-797 (`st_to_np_array`),
correlate.py:666-667 (`np.nan_to_num`), correlate.py:639-640 and 1383-1391 (merging, padding),
preprocessing_stream.py:259-306 (`trace_mask_at_utc`).

The samples of a trace are given with what is stored beneath the mask: a sample is the stored value
(`none` is NaN) and whether it is masked. Sample `k` of all traces belongs to the same time.
-/

namespace SeisMIC

/-- a sample of a numpy masked array: the stored value and the mask -/
abbrev MSample := F × Bool

/-- a trace: number of the first sample and samples -/
abbrev MTrace := Int × List MSample

/-- the sample of obspy's `create_empty_data_chunk` for floats, used by `Stream.merge` and
`Trace.trim(pad=True)`: masked, NaN stored beneath -/
def emptySample : MSample := (none, true)

/-- the trace as it is seen through its mask: `none` is a masked sample -/
def MTrace.seen (tr : MTrace) : GapTr F := (tr.1, tr.2.map fun x => if x.2 then none else some x.1)

/-- a trace with masked samples as `Stream.merge` makes it -/
def MTrace.ofGap (tr : GapTr F) : MTrace := (tr.1, tr.2.map fun x => match x with | none => emptySample | some v => (v, false))

/-- `tr.data = np.ma.array(tr.data, mask=mask, hard_mask=True, fill_value=0)`
(preprocessing_stream.py:305): `keep_mask` is true by default, so an old mask stays; the stored
values are not changed. The start time of the trace is that of sample `tr.1`, sample 0 is at time 0. -/
def maskTrace (sr : Rat) (ivs : List (Rat × Rat)) (reverse : Bool) (tr : MTrace) : MTrace :=
  (tr.1, List.zipWith (fun x m => (x.1, x.2 || m)) tr.2 (maskAtUtc tr.2.length sr (tr.1 / sr) ivs reverse))

/-- `stream_filter` (preprocessing_stream.py:136-209) of one trace: split at the masked samples,
filter, merge -/
def filterMTrace (op : List F → List F) (tr : MTrace) : Option MTrace := (filterTrace op tr.seen).map MTrace.ofGap

/-- `trim(starttime, endtime, pad=True)` (correlate.py:640, 1388) with the first and last sample
given by number -/
def trimPad (a b : Int) (tr : MTrace) : MTrace :=
  (a, (List.range (b - a + 1).toNat).map fun k : Nat =>
    if a + k < tr.1 then emptySample else tr.2.getD (a + k - tr.1).toNat emptySample)

/-- `A[ii, :tr.stats.npts] = tr.data` in a row of zeros (correlate.py:793-795). numpy copies the
stored values, the mask is ignored. Broadcasting fails if the trace is longer than the row, except
for a single sample, which fits into an empty row. -/
def fillRow (npts : Nat) (d : List MSample) : Except PyErr (List F) :=
  if d.length ≤ npts then .ok (d.map (·.1) ++ List.replicate (npts - d.length) (some 0))
  else if d.length = 1 then .ok []
  else .error .valueError

/-- `st_to_np_array` (correlate.py:781-797). `del tr.data` is not modelled. -/
def stToNpArray (st : List MTrace) (npts : Nat) : Except PyErr (List (List F)) := st.mapM fun tr => fillRow npts tr.2

/-- `np.max(np.array(npts))` (correlate.py:369-372), a ValueError for an empty list -/
def maxNpts (st : List MTrace) : Except PyErr Nat :=
  match st.map fun tr => tr.2.length with
  | [] => .error .valueError
  | n :: l => .ok (l.foldl max n)

/-- `np.nan_to_num` (correlate.py:667). Infinite values are not modelled. -/
def nanZero (x : F) : Rat := x.getD 0

/-- the matrix that is processed and correlated: correlate.py:364-374, 667 -/
def innerMatrix (st : List MTrace) : Except PyErr (List (List Rat)) := do
  let npts ← maxNpts st
  let A ← stToNpArray st npts
  pure (A.map fun r => r.map nanZero)

end SeisMIC
