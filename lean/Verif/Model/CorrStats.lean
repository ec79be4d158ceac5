import Verif.Model.Combis

/-!
# Headers of correlation traces

src/seismic/correlate/stats.py:148-246 (`CorrStats`) and
src/seismic/correlate/stream.py:1304-1316, 1382-1559 (`CorrTrace.__init__`,
`CorrTrace.times`, `alphabetical_correlation`, `combine_stats`).

Floating point numbers are rationals, `UTCDateTime` is an `Int` (nanoseconds).
-/

namespace SeisMIC

/-- geographic coordinates of a station (latitude, longitude, elevation) -/
structure Coord where
  la : Rat
  lo : Rat
  el : Rat
  deriving DecidableEq, Repr

/-- `CorrStats` (stats.py:148-246). `geo` holds `stla ... evel, dist, az, baz`
if they are set; `extra` all keys without a field of their own. -/
structure CorrStats (V : Type) where
  samplingRate : Rat
  delta : Rat
  starttime : Int
  endtime : Int
  corrStart : Int
  corrEnd : Int
  startLag : Rat
  endLag : Rat
  npts : Int
  calib : Rat
  network : Str
  station : Str
  location : Str
  channel : Str
  geo : Option (Coord × Coord × Rat × Rat × Rat)
  extra : List (Str × V)
  deriving DecidableEq

/-- `CorrStats.defaults` (stats.py:150-165) -/
def CorrStats.default {V : Type} : CorrStats V :=
  ⟨1, 1, 0, 0, 0, 0, 0, 0, 0, 1, [], [], [], [], none, []⟩

/-- an assignment `stats[key] = value`. The values have the type that the key
requires (conversion of other types is not modelled). -/
inductive Assign (V : Type) where
  | delta (v : Rat)
  | samplingRate (v : Rat)
  | corrStart (v : Int)
  | corrEnd (v : Int)
  | npts (v : Int)
  | startLag (v : Rat)
  | component (v : Str)
  | network (v : Str)
  | station (v : Str)
  | location (v : Str)
  | channel (v : Str)
  | calib (v : Rat)
  | starttime (v : Int)
  | endtime (v : Int)
  | endLag (v : Rat)
  | other (key : Str) (v : V)
  deriving DecidableEq

/-- derived values (stats.py:200-214): `delta`, `end_lag`, `endtime`,
`starttime`. Python's `1.0 / 0.0` raises `ZeroDivisionError`, which yields 0. -/
def CorrStats.refresh {V : Type} (s : CorrStats V) : CorrStats V :=
  let delta := if s.samplingRate = 0 then 0 else 1 / s.samplingRate
  let timediff := if s.npts = 0 then 0 else ((s.npts - 1 : Int) : Rat) * delta
  { s with delta := delta, endLag := s.startLag + timediff, endtime := s.corrEnd, starttime := s.corrStart }

/-- dictionary assignment -/
def dictSet {V : Type} (d : List (Str × V)) (k : Str) (v : V) : List (Str × V) :=
  match d with
  | [] => [(k, v)]
  | (k', v') :: d => if k' = k then (k, v) :: d else (k', v') :: dictSet d k v

/-- `CorrStats.__setitem__` (stats.py:181-229). The read-only check is the one
of obspy's `AttribDict`. -/
def CorrStats.set {V : Type} (s : CorrStats V) : Assign V → Except PyErr (CorrStats V)
  | .delta v => .ok { s with samplingRate := if v = 0 then 0 else 1 / v }.refresh
  | .samplingRate v => .ok { s with samplingRate := v }.refresh
  | .corrStart v => .ok { s with corrStart := v }.refresh
  | .corrEnd v => .ok { s with corrEnd := v }.refresh
  | .npts v => .ok { s with npts := v }.refresh
  | .startLag v => .ok { s with startLag := v }.refresh
  | .component v =>
    if v.length ≠ 3 then .error .valueError
    else match splitOn '-' s.channel, splitOn '-' v with
      | [a, b], [an, bn] => .ok { s with channel := a.dropLast ++ an ++ c!"-" ++ b.dropLast ++ bn }
      | _, _ => .error .valueError
  | .network v => .ok { s with network := v }
  | .station v => .ok { s with station := v }
  | .location v => .ok { s with location := v }
  | .channel v => .ok { s with channel := v }
  | .calib v => .ok { s with calib := v }
  | .starttime _ => .error .attributeError
  | .endtime _ => .error .attributeError
  | .endLag _ => .error .attributeError
  | .other k v => .ok { s with extra := dictSet s.extra k v }

/-- a program that assigns and ignores exceptions -/
def CorrStats.setAll {V : Type} (s : CorrStats V) (as : List (Assign V)) : CorrStats V :=
  as.foldl (fun s a => match s.set a with
    | .ok s' => s'
    | .error _ => s) s

/-- `CorrStats(header)`: obspy's `AttribDict.update` assigns all keys in order
and skips the read-only ones; other exceptions propagate. -/
def CorrStats.ofHeader {V : Type} (as : List (Assign V)) : Except PyErr (CorrStats V) :=
  as.foldlM (fun s a => match a with
    | .starttime _ | .endtime _ | .endLag _ => .ok s
    | a => s.set a) .default

/-- `CorrStats.__getitem__('component')` (stats.py:233-239); an empty code is an
`IndexError` -/
def CorrStats.component {V : Type} (s : CorrStats V) : Except PyErr Str :=
  match splitOn '-' s.channel with
  | [a, b] =>
    match a.getLast?, b.getLast? with
    | some x, some y => .ok [x, '-', y]
    | _, _ => .error .indexError
  | _ => .error .valueError

/-- `CorrTrace.times` (stream.py:1382-1393) -/
def CorrStats.times {V : Type} (s : CorrStats V) : List Rat :=
  (List.range s.npts.toNat).map fun i : Nat => (i : Rat) * s.delta + s.startLag

/-- the part of obspy's `Stats` that `combine_stats` uses -/
structure Stats (V : Type) where
  net : Str
  sta : Str
  loc : Str
  cha : Str
  start : Int
  stop : Int
  samplingRate : Rat
  npts : Int
  calib : Rat
  coords : Option Coord
  extra : List (Str × V)
  deriving DecidableEq

/-- coordinates of both stations: from the headers, else from the inventory
(stream.py:1500-1547). Simplifications: `sac` headers are not modelled, and
neither is the case that only one of the headers has coordinates and the
inventory lacks the station. -/
def combineGeo {V : Type} (geod : Coord → Coord → Rat × Rat × Rat) (inv : Str → Str → Option Coord)
    (s1 s2 : Stats V) : Option (Coord × Coord × Rat × Rat × Rat) :=
  let build (a b : Coord) :=
    let (az, baz, dist) := geod a b
    some (a, b, dist / 1000, az, baz)
  match s1.coords, s2.coords with
  | some a, some b => build a b
  | _, _ =>
    match inv s1.net s1.sta, inv s2.net s2.sta with
    | some a, some b => build a b
    | _, _ => none

/-- `combine_stats` (stream.py:1442-1559). The keys that both headers have with
equal values are copied (1489-1498); `npts`, `sampling_rate`, `calib` are always
present. `stats['_format']` is not modelled. -/
def combineStats {V : Type} [DecidableEq V] (geod : Coord → Coord → Rat × Rat × Rat)
    (inv : Str → Str → Option Coord) (s1 s2 : Stats V) (startLag : Rat) : CorrStats V :=
  let s : CorrStats V := CorrStats.default
  let s := s.setAll ([.corrStart (max s1.start s2.start), .corrEnd (min s1.stop s2.stop),
    .network (s1.net ++ c!"-" ++ s2.net), .station (s1.sta ++ c!"-" ++ s2.sta),
    .location (s1.loc ++ c!"-" ++ s2.loc), .channel (s1.cha ++ c!"-" ++ s2.cha)]
    ++ (if s1.samplingRate = s2.samplingRate then [.samplingRate s1.samplingRate] else [])
    ++ (if s1.npts = s2.npts then [.npts s1.npts] else [])
    ++ (if s1.calib = s2.calib then [.calib s1.calib] else [])
    ++ (s1.extra.filter fun kv => s2.extra.lookup kv.1 = some kv.2).map fun kv => .other kv.1 kv.2)
  let s := { s with geo := combineGeo geod inv s1 s2 }
  s.setAll [.startLag startLag]

/-- `alphabetical_correlation` (stream.py:1396-1439) -/
def alphabeticalCorrelation {V δ : Type} [DecidableEq V] (geod : Coord → Coord → Rat × Rat × Rat)
    (inv : Str → Str → Option Coord) (h1 h2 : Stats V) (startLag endLag : Rat) (data : List δ) :
    CorrStats V × List δ :=
  let sort1 := h1.net ++ h1.sta ++ h1.cha
  let sort2 := h2.net ++ h2.sta ++ h2.cha
  if isort strLe [sort1, sort2] ≠ [sort1, sort2] then
    (combineStats geod inv h2 h1 (-endLag), data.reverse)
  else
    (combineStats geod inv h1 h2 startLag, data)

/-- `CorrTrace(data, header1, header2, inv, start_lag, end_lag)`
(stream.py:1304-1316) -/
def corrTrace {V δ : Type} [DecidableEq V] (geod : Coord → Coord → Rat × Rat × Rat)
    (inv : Str → Str → Option Coord) (h1 h2 : Stats V) (startLag endLag : Rat) (data : List δ) :
    CorrStats V × List δ :=
  let (h, data) := alphabeticalCorrelation geod inv h1 h2 startLag endLag data
  (h.setAll [.npts data.length], data)

/-- the correlation trace that `_pxcorr_inner` makes of a row of the matrix
(correlate.py:387-394) -/
def innerTrace {V δ : Type} [DecidableEq V] (geod : Coord → Coord → Rat × Rat × Rat)
    (inv : Str → Str → Option Coord) (sr : Rat) (h1 h2 : Stats V) (startLag : Rat) (row : List δ) :
    CorrStats V × List δ :=
  let endLag := startLag + row.length / sr
  corrTrace geod inv h1 h2 startLag endLag row

end SeisMIC
