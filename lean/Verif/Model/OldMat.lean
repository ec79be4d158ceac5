import Verif.Model.CorrStats
import Verif.Model.TraceUtils
import Verif.Py.Round

/-!
# Model: correlations in files of the predecessor `miic` (utils/io.py)

`scipy.io.loadmat` returns a dictionary of arrays; arrays with named fields are records, whose fields are nested arrays.
-/

namespace SeisMIC

/-- a text or a number in a file -/
inductive MatVal where
  | str (s : Str)
  | num (x : Rat)
  deriving DecidableEq, Repr

/-- an array with named fields, in the order of `dtype.names` -/
abbrev MatRecord := List (Str × List (Nested MatVal))

/-- a record after `flatten_recarray`; `none` is the empty list -/
abbrev FlatRecord := List (Str × Option MatVal)

/-- what `loadmat` returns, as far as it is used; missing variables are `none` -/
structure MatFile where
  stats : Option MatRecord
  statsTr1 : Option MatRecord
  statsTr2 : Option MatRecord
  corrTrace : Option (List (List F))
  corrData : Option (List (List F))
  time : Option (List MatVal)

/-- `UTCDateTime(v)` in ns, `float(v)`, `int(v)` and `str(v)` of a value that is no text -/
structure MatEnv where
  utc : Option MatVal → Except PyErr Int
  float : Option MatVal → Except PyErr Rat
  int : Option MatVal → Except PyErr Int
  repr : Option MatVal → Str

/-- `flatten_recarray` (io.py:49-63) of an array with named fields -/
def flattenRecord (x : MatRecord) : FlatRecord := x.map fun f => (f.1, (flatten f.2).head?)

/-- `d[key]` -/
def FlatRecord.get (d : FlatRecord) (key : Str) : Except PyErr (Option MatVal) :=
  match d.lookup key with
  | some v => .ok v
  | none => .error .keyError

/-- `mat[key]` of a record, flattened (io.py:80-83, 110-113) -/
def matRecord (x : Option MatRecord) : Except PyErr FlatRecord :=
  match x with
  | some r => .ok (flattenRecord r)
  | none => .error .keyError

/-- `str(v)`, the conversion of codes by obspy's `AttribDict._cast_type` -/
def MatEnv.text (env : MatEnv) : Option MatVal → Str
  | some (.str s) => s
  | v => env.repr v

/-- `zerotime = UTCDateTime(1971, 1, 1)` (io.py:66) -/
def zerotime : Int := 31536000 * 1000000000

/-- `UTCDateTime(v) - zerotime` in seconds (io.py:84-85, 115) -/
def MatEnv.lag (env : MatEnv) (v : Option MatVal) : Except PyErr Rat := do
  let t ← env.utc v
  pure (((t - zerotime : Int) : Rat) / 1000000000)

/-- obspy's `Stats`: end time from start time, number of samples and sampling rate -/
def Stats.refreshStop {V : Type} (s : Stats V) : Stats V :=
  let delta := if s.samplingRate = 0 then 0 else 1 / s.samplingRate
  let diff := if s.npts = 0 then 0 else ((s.npts - 1 : Int) : Rat) * delta
  { s with stop := s.start + pyRound (diff * 1000000000) }

/-- obspy's `Stats.__setitem__`, as called by `update`, which skips `endtime`. Simplification: coordinates (`stla` ...), `calib` and
`component` are treated like any other entry. -/
def ostatsSet (env : MatEnv) (s : Stats (Option MatVal)) (kv : Str × Option MatVal) : Except PyErr (Stats (Option MatVal)) :=
  if kv.1 = c!"endtime" then .ok s
  else if kv.1 = c!"delta" then do
    let x ← env.float kv.2
    pure { s with samplingRate := if x = 0 then 0 else 1 / x }.refreshStop
  else if kv.1 = c!"sampling_rate" then do
    let x ← env.float kv.2
    pure { s with samplingRate := x }.refreshStop
  else if kv.1 = c!"starttime" then do
    let t ← env.utc kv.2
    pure { s with start := t }.refreshStop
  else if kv.1 = c!"npts" then do
    let n ← env.int kv.2
    pure { s with npts := n }.refreshStop
  else if kv.1 = c!"network" then .ok { s with net := env.text kv.2 }
  else if kv.1 = c!"station" then .ok { s with sta := env.text kv.2 }
  else if kv.1 = c!"location" then .ok { s with loc := env.text kv.2 }
  else if kv.1 = c!"channel" then .ok { s with cha := env.text kv.2 }
  else .ok { s with extra := dictSet s.extra kv.1 kv.2 }

/-- `Stats(mat['stats_tr1'])`, beginning with obspy's defaults -/
def ostatsOf (env : MatEnv) (d : FlatRecord) : Except PyErr (Stats (Option MatVal)) :=
  d.foldlM (ostatsSet env) ⟨[], [], [], [], 0, 0, 1, 0, 1, none, []⟩

/-- a location that is no text becomes `-` (io.py:86-89) -/
def fixLocation (d : FlatRecord) : Except PyErr FlatRecord := do
  match ← d.get c!"location" with
  | some (.str _) => pure d
  | _ => pure (dictSet d c!"location" (some (.str c!"-")))

/-- `mat_to_corrtrace` (io.py:69-93) -/
def matToCorrtrace (geod : Coord → Coord → Rat × Rat × Rat) (env : MatEnv) (mat : MatFile) : Except PyErr (CorrStats (Option MatVal) × List F) := do
  let stats ← matRecord mat.stats
  let startLag ← env.lag (← stats.get c!"starttime")
  let endLag ← env.lag (← stats.get c!"endtime")
  let tr1 ← fixLocation (← matRecord mat.statsTr1)
  let tr2 ← fixLocation (← matRecord mat.statsTr2)
  match mat.corrTrace with
  | none => .error .keyError
  | some x =>
    let h1 ← ostatsOf env tr1
    let h2 ← ostatsOf env tr2
    pure (corrTrace geod (fun _ _ => none) h1 h2 startLag endLag x.flatten)

/-- `stats.update(mat['stats'])` of a `CorrStats` (io.py:119; stats.py:181-229): read-only keys are skipped. Simplifications: location, channel and
`calib` are converted like the other codes and numbers; `corr_start` is overwritten afterwards and skipped here; `corr_end` and `component` are treated
like any other entry. -/
def cstatsSet (env : MatEnv) (s : CorrStats (Option MatVal)) (kv : Str × Option MatVal) : Except PyErr (CorrStats (Option MatVal)) :=
  if kv.1 = c!"endtime" ∨ kv.1 = c!"end_lag" ∨ kv.1 = c!"starttime" ∨ kv.1 = c!"corr_start" then .ok s
  else if kv.1 = c!"delta" then do s.set (.delta (← env.float kv.2))
  else if kv.1 = c!"sampling_rate" then do s.set (.samplingRate (← env.float kv.2))
  else if kv.1 = c!"start_lag" then do s.set (.startLag (← env.float kv.2))
  else if kv.1 = c!"npts" then do s.set (.npts (← env.int kv.2))
  else if kv.1 = c!"calib" then do s.set (.calib (← env.float kv.2))
  else if kv.1 = c!"network" then s.set (.network (env.text kv.2))
  else if kv.1 = c!"station" then s.set (.station (env.text kv.2))
  else if kv.1 = c!"location" then s.set (.location (env.text kv.2))
  else if kv.1 = c!"channel" then s.set (.channel (env.text kv.2))
  else s.set (.other kv.1 kv.2)

/-- a `CorrBulk` with the header that the import makes: only the start times are a list -/
structure OldBulk where
  data : List (List F)
  header : CorrStats (Option MatVal)
  corrStart : List Int
  deriving DecidableEq

/-- `corrmat_to_corrbulk` (io.py:96-121) and `CorrBulk.__init__` (stream.py:42-70) -/
def corrmatToCorrbulk (env : MatEnv) (mat : MatFile) : Except PyErr OldBulk := do
  let stats ← matRecord mat.stats
  let startLag ← env.lag (← stats.get c!"starttime")
  match mat.corrData with
  | none => .error .keyError
  | some data =>
    match mat.time with
    | none => .error .keyError
    | some time =>
      let corrStart ← time.mapM fun t => env.utc (some t)
      let h ← (stats.filter fun kv => kv.1 ≠ c!"starttime").foldlM (cstatsSet env) .default
      let h ← h.set (.startLag startLag)
      pure ⟨data, h, corrStart⟩

/-- `bulk[i]` (stream.py:72-82), `0 ≤ i`: the entry `ntrcs` is deleted from the header -/
def OldBulk.getItem (b : OldBulk) (i : Nat) : Except PyErr (CorrStats (Option MatVal) × List F) :=
  match b.corrStart[i]? with
  | none => .error .indexError
  | some t =>
    if (b.header.extra.lookup c!"ntrcs").isSome then
      match b.data[i]? with
      | none => .error .indexError
      | some d => .ok ({ b.header with
          corrStart := t, npts := d.length, extra := b.header.extra.filter fun kv => kv.1 ≠ c!"ntrcs" }.refresh, d)
    else .error .keyError

/-- `bulk[lo:hi]` (stream.py:83-91), `0 ≤ lo`, `0 ≤ hi` -/
def OldBulk.getSlice (b : OldBulk) (lo hi : Nat) : OldBulk :=
  let data := (b.data.take hi).drop lo
  ⟨data, { b.header with extra := dictSet b.header.extra c!"ntrcs" (some (.num data.length)) }, (b.corrStart.take hi).drop lo⟩

end SeisMIC
