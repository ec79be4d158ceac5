import Verif.Model.CorrStats
import Verif.Py.Nan

/-!
# Streams and bulks of correlation traces

src/seismic/correlate/stream.py. Times and lengths are in nanoseconds.
-/

namespace SeisMIC

/-- a `CorrTrace` -/
structure CTr (V : Type) where
  stats : CorrStats V
  data : List F
  deriving DecidableEq

variable {V : Type}

/-- `np.array_equal`: `nan` is not equal to `nan` -/
def arrayEqual : List F → List F → Bool
  | [], [] => true
  | some x :: a, some y :: b => x == y && arrayEqual a b
  | _, _ => false

/-- `ctr == other` (obspy `Trace.__eq__`): equal headers and equal arrays -/
def CTr.pyEq [DecidableEq V] (a b : CTr V) : Bool := decide (a.stats = b.stats) && arrayEqual a.data b.data

/-- order of `self.sort(keys=['corr_start'])`; obspy sorts stably -/
def startLe (a b : CTr V) : Bool := decide (a.stats.corrStart ≤ b.stats.corrStart)

/-- order of `st.sort(keys=['npts'])` -/
def nptsLe (a b : CTr V) : Bool := decide (a.stats.npts ≤ b.stats.npts)

/-- `CorrStream.pop_at_utcs` (stream.py:1005-1022) -/
def popAtUtcs (st : List (CTr V)) (utcs : List Int) : List (CTr V) :=
  st.filter fun ctr => !(utcs.any fun u => decide (u > ctr.stats.corrStart) && decide (u < ctr.stats.corrEnd))

/-- `CorrStream.remove_duplicates` (stream.py:1024-1036). Simplification: the
identity of Python objects is not modelled (the same object twice in a stream
is found by `in` even if it contains `nan`). -/
def removeDuplicates [DecidableEq V] (st : List (CTr V)) : List (CTr V) :=
  st.foldl (fun acc ctr => if acc.any fun x => x.pyEq ctr then acc else acc ++ [ctr]) []

/-- `CorrStream.select_corr_time` (stream.py:1038-1079): the result; the stream
itself is left sorted by `corr_start`. -/
def selectCorrTime (st : List (CTr V)) (starttime endtime : Int) (partly : Bool) : List (CTr V) :=
  let self := isort startLe st
  if partly then
    self.filter fun tr =>
      (decide (tr.stats.corrEnd > starttime) && decide (tr.stats.corrEnd < endtime)) ||
        decide (tr.stats.corrEnd = endtime)
  else
    self.filter fun tr => decide (tr.stats.corrStart ≥ starttime) && decide (tr.stats.corrEnd ≤ endtime)

/-- nanoseconds of a day -/
def dayNs : Int := 86400000000000

/-- `UTCDateTime.time`: time of day in nanoseconds -/
def timeOfDay (t : Int) : Int := t % dayNs

/-- `CorrStream.select_time` (stream.py:1081-1109); `start`, `stop` are times of
day in nanoseconds -/
def selectTime (st : List (CTr V)) (start stop : Int) (exclude : Bool) : List (CTr V) :=
  st.filter fun tr =>
    if decide (timeOfDay tr.stats.corrStart ≥ start) && decide (timeOfDay tr.stats.corrEnd ≤ stop) then !exclude
    else exclude

/-- `np.arange(start, stop, step)` with `step > 0`. Simplification: exact
arithmetic instead of floating point time stamps. -/
def arange (start stop step : Int) : List Int :=
  (List.range (-((start - stop) / step)).toNat).map fun i : Nat => start + i * step

/-- `max(...)` / `min(...)` of a generator; empty is a `ValueError` -/
def pyMax : List Int → Except PyErr Int
  | [] => .error .valueError
  | a :: l => .ok (l.foldl max a)

def pyMin : List Int → Except PyErr Int
  | [] => .error .valueError
  | a :: l => .ok (l.foldl min a)

/-- `CorrStream.slide` (stream.py:1111-1190): all windows that are yielded -/
def slide (st : List (CTr V)) (windowLength step : Int) (partly : Bool)
    (starttime endtime : Option Int) : Except PyErr (List (List (CTr V))) := do
  let starttime ← match starttime with
    | some t => .ok t
    | none => pyMin (st.map fun tr => tr.stats.corrStart)
  let endtime ← match endtime with
    | some t => .ok t
    | none => pyMax (st.map fun tr => tr.stats.corrEnd)
  let longest ← pyMax (st.map fun tr => tr.stats.corrEnd - tr.stats.corrStart)
  if windowLength < longest then throw .valueError
  if step ≤ 0 then throw .valueError
  pure (((arange starttime endtime step).map fun start =>
    selectCorrTime st start (start + windowLength) partly).filter fun temp => !temp.isEmpty)

/-- `key.format(**tr.stats)` (stream.py:1602-1605) -/
def groupKey (regardLoc : Bool) (s : CorrStats V) : Str :=
  let k := s.network ++ c!"." ++ s.station ++ c!"." ++ s.channel
  if regardLoc then k ++ c!"." ++ s.location else k

/-- `stackdict.setdefault(key, CorrStream()).append(tr)` -/
def groupAdd (d : List (Str × List (CTr V))) (k : Str) (tr : CTr V) : List (Str × List (CTr V)) :=
  match d with
  | [] => [(k, [tr])]
  | (k', l) :: d => if k' = k then (k', l ++ [tr]) :: d else (k', l) :: groupAdd d k tr

/-- the grouping of `stack_st_by_group` (stream.py:1602-1607) -/
def groups (regardLoc : Bool) (st : List (CTr V)) : List (Str × List (CTr V)) :=
  st.foldl (fun d tr => groupAdd d (groupKey regardLoc tr.stats) tr) []

/-- type of weighting; any other string makes `stack_st` return `None` -/
inductive Weight where
  | mean
  | byLength
  | other
  deriving DecidableEq

/-- `np.nanmean(A, axis=0)` and `nansum((A.T*dur).T, axis=0)/nansum(dur)`
(stream.py:1640, 1647) for a matrix with `n` columns -/
def stackData (weight : Weight) (n : Nat) (A : List (List F)) (dur : List Rat) : Option (List F) :=
  match weight with
  | .mean => some ((List.range n).map fun j => nanmean (column A j))
  | .byLength => some ((List.range n).map fun j =>
      F.div (some (nansum (List.zipWith (fun a d => F.mul a (some d)) (column A j) dur))) (some dur.sum))
  | .other => none

/-- `norm = np.nanmax(np.abs(data)); data /= norm` (stream.py:1642-1643) -/
def normMax (data : List F) : List F :=
  let norm := nanmax (data.map F.abs)
  data.map fun x => F.div x norm

/-- `stack_st` (stream.py:1613-1651). `IndexError` for an empty stream, `None`
(later `AttributeError`) for an unknown weight. `npts` of a trace is the length
of its data. -/
def stackSt (st : List (CTr V)) (weight : Weight) (norm : Bool) : Except PyErr (CTr V) := do
  let byStart := isort startLe st
  match byStart.head?, byStart.getLast? with
  | some first, some last =>
    let stats := { first.stats with corrEnd := last.stats.corrEnd }.refresh
    let byNpts := isort nptsLe byStart
    let npts := (byNpts.getLastD first).stats.npts
    let sel := byNpts.filter fun tr => tr.stats.npts = npts
    let A := sel.map fun tr => tr.data
    let dur := sel.map fun tr => ((tr.stats.corrEnd - tr.stats.corrStart : Int) : Rat) / 1000000000
    match stackData weight npts.toNat A dur with
    | none => throw .attributeError
    | some data =>
      let data := if norm then normMax data else data
      pure ⟨{ stats with npts := data.length }.refresh, data⟩
  | _, _ => throw .indexError

/-- `stack_st_by_group` (stream.py:1588-1610) -/
def stackByGroup (st : List (CTr V)) (regardLoc : Bool) (weight : Weight) : Except PyErr (List (CTr V)) :=
  (groups regardLoc st).mapM fun g => stackSt g.2 weight true

/-- `stack_len` of `CorrStream.stack` -/
inductive StackLen where
  | all
  | daily
  | len (ns : Int)
  deriving DecidableEq

/-- the windows that `CorrStream.stack` stacks (stream.py:1221-1238) -/
def stackWindows (st : List (CTr V)) (starttime endtime : Option Int) (stackLen : StackLen) :
    Except PyErr (List (List (CTr V))) := do
  match stackLen with
  | .all => pure [st]
  | _ =>
    let self := isort startLe st
    let starttime ← match starttime, self.head? with
      | some t, _ => .ok t
      | none, some tr => .ok tr.stats.corrStart
      | none, none => .error .indexError
    let endtime ← match endtime, self.getLast? with
      | some t, _ => .ok t
      | none, some tr => .ok tr.stats.corrEnd
      | none, none => .error .indexError
    let starttime := if stackLen = .daily then starttime - timeOfDay starttime else starttime
    let len := match stackLen with
      | .len n => n
      | _ => dayNs
    slide self len len true (some starttime) (some endtime)

/-- `CorrStream.stack` (stream.py:1192-1239). A `stack_len` of 0 is `.all`. -/
def stack (st : List (CTr V)) (weight : Weight) (starttime endtime : Option Int) (stackLen : StackLen)
    (regardLoc : Bool) : Except PyErr (List (CTr V)) := do
  let ws ← stackWindows st starttime endtime stackLen
  let ss ← ws.mapM fun w => stackByGroup w regardLoc weight
  pure ss.flatten

/-! ### Bulks -/

/-- header of a `CorrBulk`: `base` holds the fields that are common to all
traces, the others are lists with one entry per trace -/
structure BulkStats (V : Type) where
  base : CorrStats V
  corrStart : List Int
  corrEnd : List Int
  location : List Str
  /-- `none` if all traces have the channel of `base` -/
  channel : Option (List Str)
  ntrcs : Nat
  deriving DecidableEq

/-- the comparison of coordinates, distance and azimuths; missing ones only lead
to a warning (stream.py:1704-1705) -/
def sameGeo (a b : CorrStats V) : Bool :=
  match a.geo, b.geo with
  | some x, some y => decide (x = y)
  | _, _ => true

/-- the comparison of the immutable entries (stream.py:1678-1706,
`varying_loc=True`) -/
def sameImmutables (varyingChannel : Bool) (a b : CorrStats V) : Bool :=
  decide (a.npts = b.npts) && decide (a.samplingRate = b.samplingRate) &&
  decide (a.network = b.network) && decide (a.station = b.station) &&
  decide (a.startLag = b.startLag) && decide (a.endLag = b.endLag) &&
  sameGeo a b &&
  (varyingChannel || decide (a.channel = b.channel))

/-- `convert_statlist_to_bulk_stats` (stream.py:1654-1707) -/
def convertStatlist (statlist : List (CorrStats V)) (varyingChannel : Bool) : Except PyErr (BulkStats V) :=
  match statlist with
  | [] => .error .indexError
  | s :: _ =>
    if statlist.all fun t => sameImmutables varyingChannel s t then
      .ok ⟨s, statlist.map (·.corrStart), statlist.map (·.corrEnd), statlist.map (·.location),
        if varyingChannel then some (statlist.map (·.channel)) else none, statlist.length⟩
    else .error .valueError

/-- a `CorrBulk` -/
structure Bulk (V : Type) where
  data : List (List F)
  stats : BulkStats V
  deriving DecidableEq

/-- `CorrStream.create_corr_bulk` (stream.py:892-951) without selection of
codes. `varyingChannel`: no channel or a wildcard was given. An empty stream
without `times` is a `TypeError` (`times[0]` of `None`). A row of wrong length is
a `ValueError` (simplification: numpy broadcasts rows of length one). -/
def createBulk (st : List (CTr V)) (times : Option (Int × Int)) (varyingChannel : Bool) :
    Except PyErr (Bulk V) := do
  let st := match times with
    | some (a, b) => selectCorrTime st a b true
    | none => st
  match st with
  | [] => throw (if times.isSome then .valueError else .typeError)
  | first :: _ =>
    let sel := st.filter fun tr => tr.stats.samplingRate = first.stats.samplingRate
    if sel.all fun tr => decide ((tr.data.length : Int) = first.stats.npts) then
      let stats ← convertStatlist (sel.map (·.stats)) varyingChannel
      pure ⟨sel.map (·.data), stats⟩
    else throw .valueError

/-- header of row `i` of a bulk (stream.py:241-247); `none`: `IndexError` -/
def BulkStats.row (b : BulkStats V) (i : Nat) : Option (CorrStats V) := do
  let cs ← b.corrStart[i]?
  let ce ← b.corrEnd[i]?
  let loc ← b.location[i]?
  let cha ← match b.channel with
    | some l => l[i]?
    | none => some b.base.channel
  pure { b.base with corrStart := cs, corrEnd := ce, location := loc, channel := cha }

/-- `CorrBulk.create_corr_stream` without `ind` (stream.py:228-261). The entries
`ntrcs` and `processing_bulk` that stay in the header are not modelled. -/
def createStream (b : Bulk V) : Except PyErr (List (CTr V)) :=
  b.data.zipIdx.mapM fun (li, i) =>
    match b.stats.row i with
    | some s => .ok ⟨{ s with npts := li.length }.refresh, li⟩
    | none => .error .indexError

/-- `CorrBulk.__getitem__(int)` (stream.py:72-82) for `0 ≤ i` -/
def Bulk.getItem (b : Bulk V) (i : Nat) : Except PyErr (CTr V) :=
  match b.data[i]?, b.stats.row i with
  | some d, some s => .ok ⟨{ s with npts := d.length }.refresh, d⟩
  | _, _ => .error .indexError

/-- `v for jj, v in zip(ii, value) if jj` / boolean index -/
def selectBool {α : Type} (ii : List Bool) (l : List α) : List α :=
  (ii.zip l).filterMap fun p => if p.1 then some p.2 else none

/-- `CorrBulk._find_slice_index` (stream.py:796-825) before `np.squeeze` -/
def sliceIndex (b : BulkStats V) (starttime endtime : Int) (inclPartial : Bool) : Except PyErr (List Bool) :=
  if endtime ≤ starttime then .error .valueError
  else if inclPartial then
    .ok (List.zipWith (fun s e => decide (e ≥ starttime) && decide (s ≤ endtime)) b.corrStart b.corrEnd)
  else
    .ok (List.zipWith (fun s e => decide (s ≥ starttime) && decide (e ≤ endtime)) b.corrStart b.corrEnd)

/-- `CorrBulk.slice` (stream.py:652-681). `np.squeeze` turns the index of a bulk
with one row into a scalar, over which `zip` cannot iterate (`TypeError`).
`ntrcs` is not updated. -/
def Bulk.slice (b : Bulk V) (starttime endtime : Int) (inclPartial : Bool) : Except PyErr (Bulk V) := do
  let ii ← sliceIndex b.stats starttime endtime inclPartial
  if ii.length = 1 then throw .typeError
  pure ⟨selectBool ii b.data, { b.stats with
    corrStart := selectBool ii b.stats.corrStart
    corrEnd := selectBool ii b.stats.corrEnd
    location := selectBool ii b.stats.location
    channel := b.stats.channel.map (selectBool ii) }⟩

/-- `CorrBulk.__getitem__(slice(lo, hi))` (stream.py:83-91) for
`0 ≤ lo`, `0 ≤ hi` and step one -/
def Bulk.getSlice (b : Bulk V) (lo hi : Nat) : Bulk V :=
  let cut {α : Type} (l : List α) : List α := (l.take hi).drop lo
  let data := cut b.data
  ⟨data, { b.stats with
    corrStart := cut b.stats.corrStart
    corrEnd := cut b.stats.corrEnd
    location := cut b.stats.location
    channel := b.stats.channel.map cut
    ntrcs := data.length }⟩

/-- `CorrBulk.select_corr_time` (stream.py:638-650) -/
def Bulk.selectCorrTime (b : Bulk V) (starttime endtime : Int) (partly : Bool) : Except PyErr (Bulk V) := do
  let cst ← createStream b
  createBulk (SeisMIC.selectCorrTime cst starttime endtime partly) none true

end SeisMIC
