import Verif.Model.FileStructure
import Verif.Py.Fnmatch

/-!
# Model: reading a period from a described file structure (trace_data/waveform.py)

Times are microseconds since year 1 as in `Civil.abs`. The amplitudes are not modelled.
Simplified: the times of samples are full microseconds, and the limits of a period fall on
samples or between traces, so that trimming to the nearest sample keeps the samples in the closed
interval.
-/

namespace SeisMIC

/-- a trace: id, sampling interval and times of the samples that are not masked -/
structure FsTrace where
  id : Str
  delta : Int
  times : List Int
  deriving DecidableEq

/-- `tr.stats.starttime` and `tr.stats.endtime`; traces without samples do not occur -/
def FsTrace.first (tr : FsTrace) : Int := tr.times.head?.getD 0
def FsTrace.last (tr : FsTrace) : Int := tr.times.getLast?.getD 0

/-- `read(fname, starttime, endtime)` for the traces of a file (waveform.py:655-657): traces
without samples in the period are removed -/
def cutTraces (start stop : Int) (f : List FsTrace) : List FsTrace :=
  (f.map fun tr => { tr with times := tr.times.filter fun t => decide (start ≤ t) && decide (t ≤ stop) }).filter fun tr => decide (tr.times ≠ [])

/-- the merged trace with this id -/
def mergeId (st : List FsTrace) (id : Str) : Except PyErr FsTrace :=
  let group := st.filter fun tr => decide (tr.id = id)
  match group with
  | [] => .error .indexError
  | tr :: _ =>
    if group.all fun tr' => decide (tr'.delta = tr.delta) then
      .ok ⟨id, tr.delta, isort (fun a b => decide (a ≤ b)) (group.flatMap FsTrace.times).eraseDups⟩
    else .error .obsPyError

/-- obspy's `Stream.merge()` (called in waveform.py:610, 621, 661): one trace for each id, in the order `le` of the ids.
Traces with the same id and different sampling rates raise an exception. Simplified: different
data types and calibrations, and different values at the same time, do not occur. -/
def mergeStream (le : Str → Str → Bool) (st : List FsTrace) : Except PyErr (List FsTrace) :=
  (isort le (st.map FsTrace.id).eraseDups).mapM (mergeId st)

/-- start of the first and end of the last trace of a file (waveform.py:642-645); reading a file
without traces raises an exception -/
def fileSpan (f : List FsTrace) : Except PyErr (Int × Int) :=
  match f.head?, f.getLast? with
  | some a, some b => .ok (a.first, b.last)
  | _, _ => .error .obsPyError

/-- `_read_filepattern` (waveform.py:633-665) for the files that match -/
def readPattern (le : Str → Str → Bool) (files : List (List FsTrace)) (start stop : Int) (trim : Bool) : Except PyErr (List FsTrace) := do
  let spans ← files.mapM fileSpan
  let st := (files.zip spans).flatMap fun fs =>
    if fs.2.1 < stop ∧ start < fs.2.2 then (if trim then cutTraces start stop fs.1 else fs.1) else []
  match mergeStream le st with
  | .ok st => .ok st
  | .error _ => .ok []

/-- the parameters of `read_from_filesystem` (waveform.py:505-508) and the world: the translation
of times, the files that match a pattern, and the order of the ids -/
structure FsWorld where
  strftime : Civil → Str → Str
  glob : Str → List (List FsTrace)
  le : Str → Str → Bool

/-- the files that match a pattern -/
def FsWorld.read (W : FsWorld) (start stop : Civil) (trim : Bool) (pattern : Str) : Except PyErr (List FsTrace) :=
  readPattern W.le (W.glob pattern) start.abs stop.abs trim

/-- is the first trace missing, or does it end too early? (waveform.py:612) -/
def isShort (stop : Int) (st : List FsTrace) : Bool :=
  match st.head? with
  | none => true
  | some tr => decide (tr.last < stop)

/-- is the first trace missing, or does it start too late? (waveform.py:603-604) -/
def isLate (start : Int) (st : List FsTrace) : Bool :=
  match st.head? with
  | none => true
  | some tr => decide (start < tr.first - tr.delta)

/-- the loop over the following files (waveform.py:611-621); `none`: more than `fuel` passes -/
def fsLoop (W : FsWorld) (id : Str) (fs : List (List Str)) (start stop : Civil) (trim : Bool) :
    Nat → List FsTrace → Civil → Except PyErr (Option (List FsTrace))
  | fuel, st, this =>
    if isShort stop.abs st = true ∧ this.abs < stop.abs then
      match fuel with
      | 0 => .ok none
      | fuel + 1 => do
        let t ← adjacentTime this 1 fs
        let p ← currentPattern W.strftime id t fs
        if t = start then pure (some st)
        else
          let new ← W.read start stop trim p
          let st ← mergeStream W.le (st ++ new)
          fsLoop W id fs start stop trim fuel st t
    else .ok (some st)

/-- the previous file if the data start too late (waveform.py:603-610) -/
def fsPrevious (W : FsWorld) (id : Str) (fs : List (List Str)) (start stop : Civil) (trim : Bool) (st : List FsTrace) : Except PyErr (List FsTrace) :=
  if isLate start.abs st then do
    let t ← adjacentTime start (-1) fs
    let p ← currentPattern W.strftime id t fs
    let new ← W.read start stop trim p
    mergeStream W.le (st ++ new)
  else .ok st

/-- `Stream.select(id=ID)` -/
def selectId (id : Str) (st : List FsTrace) : List FsTrace :=
  st.filter fun tr => fnmatch (tr.id.map Char.toUpper) (id.map Char.toUpper)

/-- `read_from_filesystem` (waveform.py:584-630) and `FS_Client.get_waveforms` (waveform.py:485-499).
`none`: the loop needs more than `fuel` passes. -/
def readFs (W : FsWorld) (id : Str) (fs : List (List Str)) (start stop : Civil) (trim : Bool) (fuel : Nat) : Except PyErr (Option (List FsTrace)) := do
  let p ← currentPattern W.strftime id start fs
  let st ← W.read start stop trim p
  let st ← fsPrevious W id fs start stop trim st
  let r ← fsLoop W id fs start stop trim fuel st start
  pure (r.map fun st => selectId id (if trim then cutTraces start.abs stop.abs st else st))

end SeisMIC
