import Verif.Model.CorrStats

/-!
# Model: the coordinates of correlations of recordings with SAC headers (stream.py:1396-1559, miic_utils.py:33-71)

`combine_stats` looks for coordinates in the headers, then in the SAC parts of the headers, then in the inventory. It changes the
headers of the recordings: the entries of the SAC part are copied into the header.

Model/CorrStats.lean has the other parts of `combine_stats`. Left out here: all entries of the header except codes, sampling rate, number of samples and coordinates.
-/

namespace SeisMIC

/-- `stats.sac`: what the file says about the recording. Entries that are not in the file are `none`. -/
structure SacPart where
  stla : Option Rat
  stlo : Option Rat
  stel : Option Rat
  delta : Option Rat
  npts : Option Nat
  deriving DecidableEq

/-- the header of a recording. `rate` and `npts` describe the samples after what was done with the recording since it was read. -/
structure RecHeader where
  net : Str
  sta : Str
  cha : Str
  rate : Rat
  npts : Nat
  stla : Option Rat
  stlo : Option Rat
  stel : Option Rat
  sac : Option SacPart
  deriving DecidableEq

/-- the part of the header of a correlation that is considered here; `rate` is `none` if it is left at its default (stats.py:148-246) -/
structure CorrGeo where
  stla : Option Rat := none
  stlo : Option Rat := none
  stel : Option Rat := none
  evla : Option Rat := none
  evlo : Option Rat := none
  evel : Option Rat := none
  dist : Option Rat := none
  az : Option Rat := none
  baz : Option Rat := none
  rate : Option Rat := none
  deriving DecidableEq

/-- `stats1.update(stats1['sac'])` (stream.py:1524-1525): obspy's `Stats` replaces the entries; setting `delta` sets the sampling rate -/
def RecHeader.updateSac (s : RecHeader) : RecHeader :=
  match s.sac with
  | none => s
  | some c => { s with
      stla := c.stla.or s.stla, stlo := c.stlo.or s.stlo, stel := c.stel.or s.stel,
      rate := (c.delta.map fun d => 1 / d).getD s.rate, npts := c.npts.getD s.npts }

/-- the six assignments of coordinates in the order of the code (stream.py:1511-1516, 1518-1523). A missing entry is an `AttributeError`: the
assignments before it have been done. The flag tells whether all were done. -/
def CorrGeo.setCoords (g : CorrGeo) (la1 lo1 el1 la2 lo2 el2 : Option Rat) : CorrGeo × Bool :=
  match la1 with
  | none => (g, false)
  | some v =>
    let g := { g with stla := some v }
    match lo1 with
    | none => (g, false)
    | some v =>
      let g := { g with stlo := some v }
      match el1 with
      | none => (g, false)
      | some v =>
        let g := { g with stel := some v }
        match la2 with
        | none => (g, false)
        | some v =>
          let g := { g with evla := some v }
          match lo2 with
          | none => (g, false)
          | some v =>
            let g := { g with evlo := some v }
            match el2 with
            | none => (g, false)
            | some v => ({ g with evel := some v }, true)

/-- `stats['dist'] = dist / 1000` and so on (stream.py:1527-1531, 1545-1549). `geod` is `gps2dist_azimuth` as (azimuth, back azimuth, distance). -/
def CorrGeo.setDist (geod : Rat × Rat → Rat × Rat → Rat × Rat × Rat) (g : CorrGeo) (p q : Rat × Rat) : CorrGeo :=
  let (az, baz, dist) := geod p q
  { g with dist := some (dist / 1000), az := some az, baz := some baz }

/-- the inventory (stream.py:1533-1551): `inv` gives the coordinates of a station, if it is in the inventory. Without an inventory it gives none. -/
def CorrGeo.fromInventory (geod : Rat × Rat → Rat × Rat → Rat × Rat × Rat) (inv : Str → Str → Option Coord) (g : CorrGeo) (s1 s2 : RecHeader) : CorrGeo :=
  match inv s1.net s1.sta with
  | none => g
  | some a =>
    let g := { g with stla := some a.la, stlo := some a.lo, stel := some a.el }
    match inv s2.net s2.sta with
    | none => g
    | some b => ({ g with evla := some b.la, evlo := some b.lo, evel := some b.el }).setDist geod (a.la, a.lo) (b.la, b.lo)

/-- `combine_stats` (stream.py:1499-1551): the header of the correlation and the headers of the recordings afterwards. The condition
`('stla' and 'stlo' and 'stel') in stats1` is `'stel' in stats1`. The positions for the distance are those of the headers after the update. -/
def combineSac (geod : Rat × Rat → Rat × Rat → Rat × Rat × Rat) (inv : Str → Str → Option Coord) (s1 s2 : RecHeader) : CorrGeo × RecHeader × RecHeader :=
  let g : CorrGeo := { rate := if s1.rate = s2.rate then some s1.rate else none }
  if s1.stel.isSome then
    match g.setCoords s1.stla s1.stlo s1.stel s2.stla s2.stlo s2.stel with
    | (g, true) => (g.setDist geod (s1.stla.getD 0, s1.stlo.getD 0) (s2.stla.getD 0, s2.stlo.getD 0), s1, s2)
    | (g, false) => (g.fromInventory geod inv s1 s2, s1, s2)
  else
    match s1.sac with
    | none => (g.fromInventory geod inv s1 s2, s1, s2)
    | some c1 =>
      match g.setCoords c1.stla c1.stlo c1.stel (s2.sac.bind (·.stla)) (s2.sac.bind (·.stlo)) (s2.sac.bind (·.stel)) with
      | (g, false) => (g.fromInventory geod inv s1 s2, s1, s2)
      | (g, true) =>
        let s1 := s1.updateSac
        let s2 := s2.updateSac
        (g.setDist geod (s1.stla.getD 0, s1.stlo.getD 0) (s2.stla.getD 0, s2.stlo.getD 0), s1, s2)

/-- `CorrTrace(data, header1, header2, inv, ...)` for the recordings number `i` and `j` of a stream (stream.py:1304-1312, 1396-1439): the header of the correlation, and the
headers of the recordings afterwards. The headers are combined in alphabetical order. -/
def correlateRec (geod : Rat × Rat → Rat × Rat → Rat × Rat × Rat) (inv : Str → Str → Option Coord) (st : List RecHeader) (i j : Nat) :
    Except PyErr (CorrGeo × List RecHeader) :=
  match st[i]?, st[j]? with
  | some h1, some h2 =>
    let sort1 := h1.net ++ h1.sta ++ h1.cha
    let sort2 := h2.net ++ h2.sta ++ h2.cha
    if isort strLe [sort1, sort2] ≠ [sort1, sort2] then
      let r := combineSac geod inv h2 h1
      .ok (r.1, (st.set j r.2.1).set i r.2.2)
    else
      let r := combineSac geod inv h1 h2
      .ok (r.1, (st.set i r.2.1).set j r.2.2)
  | _, _ => .error .indexError

/-- several correlations of the recordings of a stream, one after the other: the headers of the correlations, and of the recordings afterwards -/
def correlateAll (geod : Rat × Rat → Rat × Rat → Rat × Rat × Rat) (inv : Str → Str → Option Coord) : List RecHeader → List (Nat × Nat) →
    Except PyErr (List CorrGeo × List RecHeader)
  | st, [] => .ok ([], st)
  | st, (i, j) :: rest =>
    match correlateRec geod inv st i j with
    | .error e => .error e
    | .ok (g, st) =>
      match correlateAll geod inv st rest with
      | .error e => .error e
      | .ok (gs, st) => .ok (g :: gs, st)

end SeisMIC
