import Verif.Model.PostCorr

/-!
# Model: sequences of methods of `CorrBulk` (stream.py:36-825)

The methods act on data and header. Those that return new samples for the same header (`normalize`, `clip`, `correct_decay`,
`correct_stretch`, `correct_shift`, `envelope`, `filter`, `smooth`, `taper`, `taper_center`) are one call with a function; the functions
themselves are modelled elsewhere. The list of the processing is not modelled here.
-/

namespace SeisMIC

variable {V : Type}

/-- the lag axis in the header of a bulk -/
def BulkStats.lag (b : BulkStats V) : LagStats := ⟨b.base.startLag, b.base.npts.toNat, b.base.samplingRate⟩

/-- `stats['npts'] = ...`, `stats['start_lag'] = ...`, `stats['sampling_rate'] = ...`: each refreshes the derived entries
(stats.py:181-215) -/
def BulkStats.setLag (b : BulkStats V) (l : LagStats) : BulkStats V :=
  { b with base := { b.base with startLag := l.startLag, npts := l.npts, samplingRate := l.sr }.refresh }

/-- `corr_mat_resample_time` (post_corr_process.py:592-644) with the decision `resampleTimePlan`: filter, append zeros, resample, cut.
`fft n x` is `scipy.signal.resample` to `n` samples. `none`: the search for a common length has not ended. -/
def corrMatResampleTime (fuel : Nat) (filt : List F → List F) (fft : Nat → List F → List F) (data : List (List F)) (s : LagStats)
    (freq : Rat) : Option (Except PyErr (List (List F) × LagStats)) :=
  match resampleTimePlan fuel s freq with
  | none => none
  | some (.error e) => some (.error e)
  | some (.ok none) => some (.ok (data, s))
  | some (.ok (some (zeros, len, num))) =>
    let data := data.map fun row => (fft len (filt row ++ List.replicate zeros (some 0))).take num
    some (.ok (data, { s with npts := num, sr := freq }))

/-- calls of methods -/
inductive BulkCall where
  /-- methods that replace the samples only (stream.py:104-157, 169-226, 263-300, 555-589, 683-726) -/
  | values (f : List (List F) → LagStats → Except PyErr (List (List F)))
  | mirror
  | trim (starttime endtime : Rat)
  | resample (starttimes endtimes : List Int)
  | resampleTimeAxis (freq : Rat)
  /-- `cb = cb.slice(...)`, `cb = cb[lo:hi]`, `cb = cb.select_corr_time(...)` -/
  | slice (starttime endtime : Int) (inclPartial : Bool)
  | getSlice (lo hi : Nat)
  | selectTime (starttime endtime : Int) (partly : Bool)

/-- one call; an exception of the method, or the bulk afterwards. A search that does not end is not an exception, the bulk is as before.
- `mirror` (stream.py:489-500): the number that `corr_mat_mirror` returns for lag zero between two samples cannot be unpacked
- `resample` (stream.py:502-533): `corr_start` and `corr_end` are replaced (post_corr_process.py:300-301), no other entry
- `resample_time_axis` (stream.py:535-553), `trim` (stream.py:728-747) -/
def Bulk.call (fuel : Nat) (filt : List F → List F) (fft : Nat → List F → List F) (b : Bulk V) : BulkCall → Except PyErr (Bulk V)
  | .values f => do
    let data ← f b.data b.stats.lag
    pure { b with data := data }
  | .mirror =>
    match corrMatMirror b.data b.stats.lag with
    | none => .error .typeError
    | some (data, s) => .ok ⟨data, b.stats.setLag s⟩
  | .trim a e =>
    let r := corrMatTrim b.data b.stats.lag a e
    .ok ⟨r.1, b.stats.setLag r.2⟩
  | .resample st en => do
    let r ← corrMatResample b.stats.lag.npts b.data b.stats.corrStart b.stats.corrEnd st en
    pure ⟨r.1, { b.stats with corrStart := r.2.1, corrEnd := r.2.2 }⟩
  | .resampleTimeAxis freq =>
    match decimationFactor b.stats.base.samplingRate freq with
    | some factor => do
      let r ← corrMatDecimate filt b.data b.stats.lag factor
      pure ⟨r.1, b.stats.setLag r.2⟩
    | none =>
      match corrMatResampleTime fuel filt fft b.data b.stats.lag freq with
      | none => .ok b
      | some (.error e) => .error e
      | some (.ok r) => .ok ⟨r.1, b.stats.setLag r.2⟩
  | .slice s e p => b.slice s e p
  | .getSlice lo hi => .ok (b.getSlice lo hi)
  | .selectTime s e p => b.selectCorrTime s e p

/-- a sequence of calls; the user goes on after an exception -/
def Bulk.calls (fuel : Nat) (filt : List F → List F) (fft : Nat → List F → List F) (b : Bulk V) (cs : List BulkCall) : Bulk V :=
  cs.foldl (fun b c => match b.call fuel filt fft c with
    | .ok b' => b'
    | .error _ => b) b

end SeisMIC
