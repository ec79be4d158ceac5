import Verif.Py.Strings
import Verif.Py.Calendar

/-!
# Model: the archive of raw data (trace_data/waveform.py)

Times are integers (ns), days are numbered. A file of the archive is the list of the times
of its samples; the amplitudes are not modelled.
-/

namespace SeisMIC

/-! ### Storing -/

/-- a continuous trace: start, sampling interval, number of samples -/
structure RawTrace where
  start : Int
  delta : Int
  n : Nat
  deriving DecidableEq

/-- times of the samples -/
def RawTrace.samples (tr : RawTrace) : List Int := (List.range tr.n).map fun k : Nat => tr.start + (k : Int) * tr.delta

/-- `tr.stats.endtime`: time of the last sample -/
def RawTrace.stop (tr : RawTrace) : Int := tr.start + ((tr.n : Int) - 1) * tr.delta

/-- length of a day in ns -/
def archiveDay : Int := 86400000000000

/-- the loop of `_write_local_data` (waveform.py:352-359): day and samples of every piece.
`trim` with `nearest_sample=False` keeps the samples in the closed interval. The end is the
midnight before one and a half days after the midnight before the start. At most `fuel`
passes, `none` if they are not enough. -/
def writePieces (tr : RawTrace) : Nat → Int → Option (List (Int × List Int))
  | fuel, s =>
    if s < tr.stop then
      match fuel with
      | 0 => none
      | fuel + 1 =>
        let e := (s / archiveDay * archiveDay + archiveDay * 3 / 2) / archiveDay * archiveDay
        (writePieces tr fuel e).map fun r => (s / archiveDay, tr.samples.filter fun t => decide (s ≤ t) && decide (t ≤ e)) :: r
    else some []

/-- the archive of one channel: for every day the samples in its file -/
abbrev DayFiles := Int → Option (List Int)

/-- does a list of times have a gap? -/
def hasGap (delta : Int) : List Int → Bool
  | a :: b :: l => decide (delta < b - a) || hasGap delta (b :: l)
  | _ => false

/-- `_sds_write` (waveform.py:361-378). `merge` makes one trace of the traces of the file;
where samples are missing the data is masked, and writing masked data raises a
NotImplementedError. Simplified: traces with samples at different phases or with different
sampling rates are not distinguished. -/
def sdsWrite (delta : Int) (fs : DayFiles) (day : Int) (piece : List Int) : Except PyErr DayFiles :=
  match fs day with
  | none => .ok fun d => if d = day then some piece else fs d
  | some old =>
    let u := isort (fun a b => decide (a ≤ b)) (old ++ piece).eraseDups
    if hasGap delta u then .error .notImplementedError
    else .ok fun d => if d = day then some u else fs d

/-- the pieces one after the other -/
def sdsWriteAll (delta : Int) : DayFiles → List (Int × List Int) → Except PyErr DayFiles
  | fs, [] => .ok fs
  | fs, (d, p) :: l => do sdsWriteAll delta (← sdsWrite delta fs d p) l

/-- `_write_local_data` for one trace (waveform.py:346-359), enough passes -/
def storeTrace (fs : DayFiles) (tr : RawTrace) : Except PyErr DayFiles :=
  match writePieces tr ((tr.stop / archiveDay - tr.start / archiveDay).toNat + 1) tr.start with
  | some ps => sdsWriteAll tr.delta fs ps
  | none => .ok fs

/-- `_write_local_data` (waveform.py:346-359) -/
def storeStream : DayFiles → List RawTrace → Except PyErr DayFiles
  | fs, [] => .ok fs
  | fs, tr :: l => do storeStream (← storeTrace fs tr) l

/-! ### Requests -/

/-- a trace in the answer of a client -/
structure Piece where
  start : Int
  stop : Int
  delta : Int
  deriving DecidableEq

/-- `_load_local` (waveform.py:287-311): `none` if the data have to be loaded remotely.
`st` is the answer of the local client. The response is left out. -/
def loadLocal (st : List Piece) (start stop : Int) (check : Bool) : Option (List Piece) :=
  let st := isort (fun a b => decide (a.start ≤ b.start)) st
  match st.head?, st.getLast? with
  | some a, some b =>
    if check && (decide (start < a.start - a.delta) || decide (b.stop + b.delta < stop)) then none else some st
  | _, _ => if check then none else some st

/-- `get_waveforms` and `_load_remote` (waveform.py:124-139, 257-285): the data that are
returned, and the data that are stored. `remote`: the answer of the remote client, `none`
if it has no data. The assertions are `assert ~(c in s)`: `~True` is -2 and `~False` is -1,
and both are true. -/
def getWaveforms (codes : Str) (loc : List Piece) (remote : Option (List Piece)) (start stop : Int) (check readOnly : Bool) :
    Except PyErr (List Piece × Option (List Piece)) :=
  let invert (b : Bool) : Int := if b then -2 else -1
  if invert (decide ('?' ∈ codes)) = 0 then .error .assertionError
  else if invert (decide ('*' ∈ codes)) = 0 then .error .assertionError
  else
    match loadLocal loc start stop check with
    | some st => .ok (st, none)
    | none =>
      match remote with
      | none => .ok ([], none)
      | some st => .ok (st, if st ≠ [] ∧ readOnly = false then some st else none)

/-! ### Available times -/

/-- `UTCDateTime(year=year, julday=julday)` as number of the day -/
def dayNumber (year julday : Nat) : Except PyErr Int :=
  if 1 ≤ julday ∧ julday ≤ 366 ∧ (julday = 366 → isLeap year = true) then
    .ok (daysBeforeYear year + (julday : Int) - 1)
  else .error .valueError

/-- `i.split('.')[-1]` -/
def lastPart (p : Str) : Str := (splitOn '.' p).getLast?.getD []

/-- the search for a folder with files (waveform.py:813-822): the index runs out of the
list if all folders are empty -/
def firstFilled (files : Str → List Str) : List Str → Except PyErr (Str × List Str)
  | [] => .error .indexError
  | y :: l => if files y = [] then firstFilled files l else .ok (y, (files y).map lastPart)

/-- order of the key `(len(li), li)` -/
def julLe (a b : Str) : Bool := decide (a.length < b.length) || (decide (a.length = b.length) && strLe a b)

/-- `get_day_in_folder` with `start` (waveform.py:805-826) -/
def dayStartIn (files : Str → List Str) (dirs : List Str) : Except PyErr Int := do
  let (year, jul) ← firstFilled files dirs
  match (isort julLe jul).head? with
  | some j => dayNumber (← pyInt year) (← pyInt j)
  | none => throw .indexError

/-- `get_day_in_folder` with `end` (waveform.py:805-829) -/
def dayEndIn (files : Str → List Str) (dirs : List Str) : Except PyErr Int := do
  let (year, jul) ← firstFilled files dirs.reverse
  match (isort julLe jul).getLast? with
  | some j => do pure ((← dayNumber (← pyInt year) (← pyInt j)) + 1)
  | none => throw .indexError

/-- `_get_times` (waveform.py:193-229): first day and the day after the last one; `none` for
`(None, None)`. `dirs`: the folders of the root that contain the station. -/
def getTimes (files : Str → List Str) (dirs : List Str) : Except PyErr (Option (Int × Int)) :=
  let l := dirs.filter (fun d => fnmatch d c!"1???") ++ dirs.filter (fun d => fnmatch d c!"2???")
  if l = [] then .ok none
  else
    let l := isort strLe l
    match (do pure (← dayStartIn files l, ← dayEndIn files l) : Except PyErr (Int × Int)) with
    | .ok p => .ok (some p)
    | .error .fileNotFoundError => .ok none
    | .error e => .error e

end SeisMIC
