import Verif.Py.Nan
import Verif.Py.Slice

/-!
# Model: the grid of velocity changes (monitor/spatial.py), apart from the kernels

Coordinates and values are rational numbers. The sensitivity kernels and the conversion of
the longitude to an easting are parameters; the kernels are modelled in `Model/Kernel.lean`.
-/

namespace SeisMIC

/-- a point, as (x, y) or as (latitude, longitude) -/
abbrev Pt := Rat × Rat

/-- `np.argmin`: first position of the minimum -/
def argminQ (l : List Rat) : Nat := l.findIdx fun x => l.all fun y => decide (x ≤ y)

/-! ### Coordinates -/

/-- the lower left corner and the conversion of a longitude (a latitude) to an easting
(northing) in km -/
structure Geo where
  lat0 : Rat
  lon0 : Rat
  east : Rat → Rat
  north : Rat → Rat

/-- `geo2cart` (spatial.py:243-273), for a list of (latitude, longitude) -/
def Geo.cart (g : Geo) (l : List Pt) : Except PyErr (List Pt) :=
  if l.any (fun p => decide (p.1 < g.lat0)) || l.any (fun p => decide (p.2 < g.lon0)) then .error .valueError
  else .ok (l.map fun p => (g.east p.2, g.north p.1))

/-- `np.arange(0, x + res, res)` (spatial.py:312-313): `ceil((x + res)/res)` values -/
def gridAxis (x res : Rat) : List Rat := (List.range ((x + res) / res).ceil.toNat).map fun k : Nat => (k : Rat) * res

/-- `np.meshgrid` and `flatten` (spatial.py:315-317): row by row, x is the fast axis -/
def gridPoints (xs ys : List Rat) : List Pt := ys.flatMap fun y => xs.map fun x => (x, y)

def sqDist (p q : Pt) : Rat := (p.1 - q.1) * (p.1 - q.1) + (p.2 - q.2) * (p.2 - q.2)

def absQ (x : Rat) : Rat := if x < 0 then -x else x

/-- `_find_coord` for two numbers (spatial.py:879-886). In the second condition the
absolute value is taken of the comparison, not of the difference. -/
def findCoord (g : Geo) (grid : List Pt) (res : Rat) (p : Pt) : Except PyErr Nat := do
  match ← g.cart [p] with
  | q :: _ =>
    if grid.all (fun c => decide (res < absQ (c.1 - q.1))) || grid.all (fun c => decide (res < c.2 - q.2)) then
      throw .valueError
    else pure (argminQ (grid.map fun c => sqDist c q))
  | [] => throw .indexError

/-- `_find_coord` for arrays (spatial.py:887-896) -/
def findCoords (g : Geo) (grid : List Pt) (res : Rat) (ps : List Pt) : Except PyErr (List Nat) := do
  let qs ← g.cart ps
  if qs.all (fun q => grid.all fun c => decide (res < absQ (c.1 - q.1))) ||
      qs.all (fun q => grid.all fun c => decide (res < absQ (c.2 - q.2))) then throw .valueError
  pure (qs.map fun q => argminQ (grid.map fun c => sqDist c q))

/-! ### Stations -/

/-- coordinates known to the grid: (x, y) and (latitude, longitude) -/
structure Stations where
  xy : List Pt
  ll : List Pt
  deriving DecidableEq

/-- `_add_stations` (spatial.py:788-820). `none`: no station has been added yet. `ord` is
`list(set(...))`: the order of the elements of a set is not determined. Adding no station
to a fresh grid makes `zip(*coords)` fail with a ValueError. -/
def addStations (g : Geo) (ord : List Pt → List Pt) (s : Option Stations) (l : List Pt) : Except PyErr Stations := do
  let q ← g.cart l
  let xy := match s with
    | some s => s.xy ++ q
    | none => q
  let ll := match s with
    | some s => s.ll ++ l
    | none => l
  if xy = [] then throw .valueError
  pure { xy := ord xy, ll := ord ll }

/-! ### Kernels -/

/-- key of the cache: positions of both stations and lapse time (spatial.py:938) -/
abbrev KKey := Pt × Pt × Rat

/-- the loop over the station pairs (spatial.py:936-948): result and cache afterwards.
`kern` is `res**2/t * sensitivity_kernel(...).flatten()`. -/
def kernelLoop (kern : KKey → Except PyErr (List Rat)) (t : Rat) :
    List (KKey × List Rat) → List (Pt × Pt) → Except PyErr (List (List Rat)) × List (KKey × List Rat)
  | cache, [] => (.ok [], cache)
  | cache, (a, b) :: l =>
    match cache.lookup (a, b, t) with
    | some k =>
      let r := kernelLoop kern t cache l
      (r.1.map (k :: ·), r.2)
    | none =>
      match kern (a, b, t) with
      | .error e => (.error e, cache)
      | .ok k =>
        let r := kernelLoop kern t (((a, b, t), k) :: cache) l
        (r.1.map (k :: ·), r.2)

/-- `_compute_sensitivity_kernels` (spatial.py:898-949) -/
def computeKernels (g : Geo) (kern : KKey → Except PyErr (List Rat)) (cache : List (KKey × List Rat)) (l0 l1 : List Pt)
    (t : Rat) : Except PyErr (List (List Rat)) × List (KKey × List Rat) :=
  match g.cart l0 with
  | .error e => (.error e, cache)
  | .ok q0 =>
    match g.cart l1 with
    | .error e => (.error e, cache)
    | .ok q1 => kernelLoop kern t cache (q0.zip q1)

/-! ### Curves -/

/-- the used part of `dv.dv_processing` -/
structure Proc where
  twStart : Rat
  twLen : Rat
  freqMin : Rat
  freqMax : Rat
  aligned : Option Rat
  deriving DecidableEq

/-- the used part of a `DV` object -/
structure Curve where
  starts : List Int
  ends : List Int
  value : List F
  corr : List F
  stat0 : Pt
  stat1 : Pt
  proc : Option Proc
  deriving DecidableEq

/-- `np.argmin(abs(np.array(dv.stats.corr_start)-utc))` (spatial.py:752, 1047, 1091) -/
def Curve.nearest (c : Curve) (utc : Int) : Nat := argminQ (c.starts.map fun s => absQ ((s - utc : Int) : Rat))

/-- what is taken from a curve -/
structure Datum where
  val : Rat
  corr : Rat
  stat0 : Pt
  stat1 : Pt
  proc : Option Proc
  deriving DecidableEq

/-- the body of the loop over the curves (spatial.py:745-764): `none` for `continue` -/
def extractOne (utc : Int) (c : Curve) : Except PyErr (Option Datum) :=
  match c.starts.head?, c.ends.getLast? with
  | some s, some e =>
    if utc < s ∨ e < utc then .ok none
    else
      match c.value[c.nearest utc]?, c.corr[c.nearest utc]? with
      | some (some v), some (some r) =>
        if r ≤ 1 / 1000 ∨ 1 ≤ r then .ok none
        else .ok (some { val := v, corr := r, stat0 := c.stat0, stat1 := c.stat1, proc := c.proc })
      | some _, some _ => .ok none
      | _, _ => .error .indexError
  | _, _ => .error .indexError

/-- `_extract_info_dvs` (spatial.py:726-786): the data in the order of the curves; stations
afterwards. The windows are those of the last datum. -/
def extractInfo (g : Geo) (ord : List Pt → List Pt) (st : Option Stations) (utc : Int) (curves : List Curve) :
    Except PyErr (List Datum × Stations × Option Proc) := do
  let data := (← curves.mapM (extractOne utc)).filterMap id
  match data.getLast? with
  | none => throw .indexError
  | some d =>
    let st ← addStations g ord st (data.map (·.stat0))
    let st ← addStations g ord (some st) (data.map (·.stat1))
    pure (data, st, d.proc)

def dotQ (a b : List Rat) : Rat := ((a.zip b).map fun p => p.1 * p.2).sum

/-- `forward_model` with curves (spatial.py:328-386): one value for each datum. A missing
`dv_processing` of the last datum is a TypeError (`None[0]`). The cache only saves
computations (`c57_cache`) and is left out, so are the stations. -/
def forwardModel (g : Geo) (ord : List Pt → List Pt) (kern : KKey → Except PyErr (List Rat)) (st : Option Stations)
    (grid : List Rat) (utc : Int) (curves : List Curve) : Except PyErr (List Rat) := do
  let (data, _, proc) ← extractInfo g ord st utc curves
  match proc with
  | none => throw .typeError
  | some p =>
    let rows ← (computeKernels g kern [] (data.map (·.stat0)) (data.map (·.stat1)) ((p.twStart + (p.twStart + p.twLen)) / 2)).1
    pure (rows.map fun r => dotQ r grid)

/-- `dv_starts` (spatial.py:1072-1094); `dv.avail` is where the coherence is not NaN -/
def dvStarts (utc : Int) (thres : Rat) (c : Curve) : Except PyErr Bool :=
  if (notNan c.corr).length < 6 then .ok false
  else
    match c.starts.head?, c.ends.getLast? with
    | some s, some e =>
      if utc < s ∨ e < utc then .ok false
      else
        match c.corr[c.nearest utc]? with
        | some (some r) => .ok (!(decide (r < thres)))
        | some none => .ok false
        | none => .error .indexError
    | _, _ => .error .indexError

/-- the window around position `ii` of a curve with `n` values (spatial.py:1056-1067), three
cases -/
def alignWindow (n ii steps : Nat) (l : List F) : List F :=
  if ii < steps then l.take (ii + steps + 1)
  else if (n : Int) - (steps : Int) < (ii : Int) then l.drop (ii - steps)
  else (l.take (ii + steps + 1)).drop (ii - steps)

/-- `align_dv_curves` (spatial.py:1033-1069) -/
def alignCurve (utc : Int) (steps : Nat) (value : Rat) (c : Curve) : Except PyErr Curve :=
  match c.value[c.nearest utc]? with
  | none => .error .indexError
  | some none => .error .valueError
  | some (some _) =>
    let ii := c.nearest utc
    let v := alignWindow c.value.length ii steps c.value
    let r := alignWindow c.value.length ii steps c.corr
    let shift := F.div (some (nansum (List.zipWith F.mul v r))) (some (nansum r))
    match c.proc with
    | none => .error .typeError
    | some p => .ok { c with
        value := c.value.map fun x => F.sub x (F.sub shift (some value))
        proc := some { p with aligned := some value } }

/-- distribute the shifts over the selected curves (`zip(dvs, shifts)`, spatial.py:1026-1027) -/
def alignLoop (utc : Int) (steps : Nat) : List (Curve × Bool) → List Rat → Except PyErr (List Curve)
  | [], _ => .ok []
  | (c, false) :: l, ss => do pure (c :: (← alignLoop utc steps l ss))
  | (c, true) :: l, [] => do pure (c :: (← alignLoop utc steps l []))
  | (c, true) :: l, s :: ss => do
    let c' ← alignCurve utc steps s c
    pure (c' :: (← alignLoop utc steps l ss))

/-- is the curve aligned now (spatial.py:1009-1013)? `None.get` is an AttributeError. -/
def alignSelected (utc : Int) (thres : Rat) (c : Curve) : Except PyErr Bool :=
  match c.proc with
  | none => .error .attributeError
  | some p => if p.aligned.isSome then .ok false else dvStarts utc thres c

/-- the curves with a flag -/
def flagged (l : List (Curve × Bool)) : List Curve := (l.filter fun x => x.2).map fun x => x.1

/-- the values to align to (spatial.py:1017-1024): forward model of the grid `vel`, or zero -/
def alignShifts (g : Geo) (ord : List Pt → List Pt) (kern : KKey → Except PyErr (List Rat)) (st : Option Stations)
    (vel : Option (List Rat)) (utc : Int) (sel : List Curve) : Except PyErr (List Rat) :=
  match vel with
  | some grid => forwardModel g ord kern st grid utc sel
  | none => pure (List.replicate sel.length 0)

/-- `align_dvs_to_grid` (spatial.py:987-1030): all curves that were passed, changed in
place. `vel`: `self.vel_change` if it exists. Saving is left out; after an exception the
changes made so far are not modelled. -/
def alignDvs (g : Geo) (ord : List Pt → List Pt) (kern : KKey → Except PyErr (List Rat)) (st : Option Stations)
    (vel : Option (List Rat)) (utc : Int) (steps : Nat) (thres : Rat) (curves : List Curve) :
    Except PyErr (List Curve) := do
  let flags ← curves.mapM (alignSelected utc thres)
  if flagged (curves.zip flags) = [] then pure curves
  else
    let shifts ← alignShifts g ord kern st vel utc (flagged (curves.zip flags))
    alignLoop utc steps (curves.zip flags) shifts

end SeisMIC
