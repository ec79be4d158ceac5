import Verif.Py.Nan
import Verif.Py.Slice
import Mathlib.Data.Rat.Floor

/-!
# Utilities for traces and streams

src/seismic/utils/miic_utils.py, src/seismic/correlate/preprocessing_stream.py,
src/seismic/utils/io.py:24-47. Samples are rationals.
-/

namespace SeisMIC

/-- the parts of an obspy `Trace` that are used here. `masked` says whether the data
are a masked array; then `none` is a masked sample, otherwise it is NaN. -/
structure Wave where
  id : Str
  sr : Rat
  masked : Bool
  data : List F
  deriving DecidableEq

/-- `for tr in st: if p(tr): st.remove(tr)`. An obspy stream iterates over a copy of
its list of traces; `remove` removes the first trace that is equal to its
argument. -/
def removeIf {α : Type} [DecidableEq α] (p : α → Bool) (st : List α) : List α :=
  st.foldl (fun acc tr => if p tr then acc.erase tr else acc) st

/-- `get_valid_traces` (miic_utils.py:331-345) -/
def getValidTraces (st : List Wave) : List Wave :=
  removeIf (fun tr => tr.masked && tr.data.all (·.isNone)) st

/-- `discard_short_traces` (miic_utils.py:348-363) -/
def discardShortTraces (st : List Wave) (length : Rat) : List Wave :=
  removeIf (fun tr => decide ((tr.data.length : Rat) / tr.sr ≤ length)) st

/-- `nan_moving_av` (miic_utils.py:366-391) of a vector, `h ≥ 0` -/
def nanMovingAv (data : List F) (h : Nat) : List F :=
  (List.range data.length).map fun ii : Nat =>
    nanmean (pySlice data (some (if (ii : Int) - h < 0 then 0 else (ii : Int) - h)) (some ((ii + h + 1 : Nat) : Int)))

/-- `nan_moving_av` of a matrix along the last axis (`axis=-1`) -/
def nanMovingAvRows (data : List (List F)) (h : Nat) : List (List F) := data.map fun row => nanMovingAv row h

/-- positions at which a list of Booleans is true: `np.where(l)[0]` -/
def whereTrue (l : List Bool) : List Nat := (List.range l.length).filter fun i => l.getD i false

/-- `np.diff` -/
def npDiff (l : List Nat) : List Nat := List.zipWith (fun a b => b - a) l l.tail

/-- `np.interp(x, xp, fp, left=nan, right=nan)` for integers `xp` in increasing
order and an `x` that is not among them -/
def npInterp (xp : List Nat) (fp : List Rat) (x : Nat) : F :=
  match ((xp.zip fp).filter fun p => p.1 < x).getLast?, ((xp.zip fp).filter fun p => x < p.1).head? with
  | some (p, a), some (q, b) => some ((b - a) / ((q : Rat) - p) * ((x : Rat) - p) + a)
  | _, _ => none

/-- the runs `(start, length)` of masked samples as computed in `interpolate_gaps`
(miic_utils.py:502-507) -/
def maskRuns (mask : List Bool) : List (Nat × Nat) :=
  let maskconc := [mask.headD false] ++ List.zipWith (fun a b => a != b) mask.dropLast mask.tail ++ [true]
  let maskstart := whereTrue (List.zipWith (fun a b => a && b) maskconc.dropLast mask)
  let masklen := everyNth 2 (npDiff (whereTrue maskconc))
  maskstart.zip masklen

/-- `interpolate_gaps` (miic_utils.py:488-521). `none` is NaN or masked. `-1` for
`max_gap_len` is `none`. `mask` in the code may be changed by the assignments to
`A`; this adds only interpolated samples, which lie on the line between their
neighbours, or NaN at the ends; the model uses the mask before the loop. The mask is
not a hard mask (a hard mask is not changed by assignments). An
interpolation without any valid sample raises `ValueError`. -/
def interpolateGaps (A : List F) (maxGapLen : Option Nat) : Except PyErr (List F) :=
  let mask := A.map (·.isNone)
  if mask.any id then
    let runs := maskRuns mask
    let maxGapLen := maxGapLen.getD A.length
    let xp := (List.range A.length).filter fun i => !(mask.getD i false)
    let fp := notNan A
    if xp = [] ∧ runs.any (fun r => decide (r.2 ≤ maxGapLen)) then .error .valueError
    else
      .ok (runs.foldl (fun A r =>
        if r.2 > maxGapLen then A
        else A.mapIdx fun i x => if r.1 ≤ i ∧ i < r.1 + r.2 then npInterp xp fp i else x) A)
  else .ok A

/-- a Python value that is a nested iterable; strings are leaves -/
inductive Nested (α : Type) where
  | leaf (a : α)
  | node (l : List (Nested α))

/-- `flatten` (io.py:24-47), called with an iterable -/
def flatten {α : Type} : List (Nested α) → List α
  | [] => []
  | .leaf a :: rest => a :: flatten rest
  | .node l :: rest => flatten l ++ flatten rest

/-- `resample_or_decimate` of a trace (miic_utils.py:157-183). `filt` is the
anti-alias filter of the trace with the given corner frequency, `res` is
`Trace.resample`; `Trace.decimate` without filter keeps every `factor`-th sample. -/
def resampleTrace (filt : Rat → List F → List F) (res : Rat → Rat → List F → List F) (tr : Wave) (srn : Rat)
    (filter : Bool) : Except PyErr Wave :=
  let sr := tr.sr
  if srn > sr then .error .valueError
  else if srn = sr then .ok tr
  else
    let factor := sr / srn
    let data := if filter then
        (if factor ≤ 16 then filt (sr * (1 / 2) / factor) tr.data else filt (sr * (45 / 100) / factor) tr.data)
      else tr.data
    if sr / srn = ((sr / srn).floor : Rat) then
      .ok { tr with data := everyNth (sr / srn).floor.toNat data, sr := sr / ((sr / srn).floor : Rat) }
    else .ok { tr with data := res sr srn data, sr := srn }

/-- `resample_or_decimate` of a stream (miic_utils.py:142-183): traces with
different sampling rates are handled one by one and left as they are if the
requested rate is higher; otherwise the first rate decides. -/
def resampleStream (filt : Rat → List F → List F) (res : Rat → Rat → List F → List F) (st : List Wave) (srn : Rat)
    (filter : Bool) : Except PyErr (List Wave) :=
  match st with
  | [] => .ok []
  | tr0 :: rest =>
    if rest.all (fun tr => decide (tr.sr = tr0.sr)) then
      (tr0 :: rest).mapM fun tr => resampleTrace filt res tr srn filter
    else
      .ok ((tr0 :: rest).map fun tr => match resampleTrace filt res tr srn filter with
        | .ok tr' => tr'
        | .error _ => tr)

/-- a bound of a slice that may be left out -/
def optBound (n : Nat) (dflt : Nat) : Option Int → Nat
  | none => dflt
  | some i => sliceBound n i

/-- a Boolean array after `mask[a:b] = True`, as in preprocessing_stream.py:284, 292, 300 -/
def setMask (mask : List Bool) (a b : Option Int) : List Bool :=
  mask.mapIdx fun i x => if optBound mask.length 0 a ≤ i ∧ i < optBound mask.length mask.length b then true else x

/-- the mask of `trace_mask_at_utc` (preprocessing_stream.py:259-306) for a trace of
`npts` samples at rate `sr` that starts at `start`; times in seconds -/
def maskAtUtc (npts : Nat) (sr start : Rat) (ivs : List (Rat × Rat)) (reverse : Bool) : List Bool :=
  let stop := start + ((npts : Rat) - 1) / sr
  let ii := fun iv : Rat × Rat => decide (iv.1 < stop) && decide (iv.1 > start)
  let jj := fun iv : Rat × Rat => decide (iv.2 < stop) && decide (iv.2 > start)
  let ns := fun s : Rat => (sr * (s - start)).floor
  let ne := fun e : Rat => (sr * (e - start)).ceil + 1
  let mask := List.replicate npts false
  let mask := (ivs.filter fun iv => jj iv && ii iv).foldl (fun m iv => setMask m (some (ns iv.1)) (some (ne iv.2))) mask
  let mask := (ivs.filter fun iv => ii iv && !jj iv).foldl (fun m iv => setMask m (some (ns iv.1)) none) mask
  let mask := (ivs.filter fun iv => !ii iv && jj iv).foldl (fun m iv => setMask m none (some (ne iv.2))) mask
  if reverse then mask.map (!·) else mask

/-- arguments of `stream_mask_at_utc` (preprocessing_stream.py:212-256): the
intervals that are masked in each trace -/
def maskIntervals (starts : List Rat) (ends : Option (List Rat)) (masklen : Option Rat) :
    Except PyErr (List (Rat × Rat)) :=
  match masklen, ends with
  | none, none => .error .valueError
  | some _, some _ => .error .valueError
  | none, some e => if e.length ≠ starts.length then .error .valueError else .ok (starts.zip e)
  | some l, none => .ok (starts.map fun s => (s, s + l))

end SeisMIC
