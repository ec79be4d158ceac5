import Verif.Py.Nan
import Verif.Py.Slice
import Verif.Py.Round
import Verif.Py.Strings

/-!
# Model: averages of velocity change results (monitor/monitor.py)

Rational numbers, `none` is NaN. The second axis of a result has as many entries as its
similarity matrix has columns.
-/

namespace SeisMIC

/-- the parts of a `DV` (dv.py:28-82) that the averages use -/
structure Dv where
  network : Str
  station : Str
  channel : Str
  method : Str
  valueType : Str
  axis : List Rat
  sim : List (List F)
  value : List F
  corr : List F
  deriving DecidableEq

/-- result of an average: the averaged `DV` with the number of stations and the scatter -/
structure DvAverage where
  dv : Dv
  nStat : List Nat
  stretches : Option (List (List F))
  corrs : Option (List (List F))
  deriving DecidableEq

/-- `'av' in dv.stats.channel+dv.stats.network+dv.stats.station` (monitor.py:974, 1052) -/
def Dv.averaged (d : Dv) : Bool := isSub c!"av" (d.channel ++ d.network ++ d.station)

/-- shape of a matrix -/
def shapeOf (m : List (List F)) : Nat × Nat := (m.length, (m.headD []).length)

/-- the checks of shape and second axis (monitor.py:977-985, 1055-1063) -/
def Dv.sameGrid (d d0 : Dv) : Bool := decide (shapeOf d.sim = shapeOf d0.sim) && decide (d.axis = d0.axis)

/-- `np.nan_to_num` -/
def nan0 (x : F) : Rat := x.getD 0

/-- `np.argmax` of a list of numbers: first position of the maximum -/
def argmaxR (l : List Rat) : Nat := l.findIdx fun x => l.all fun y => decide (y ≤ x)

/-- value and correlation of a row of the averaged similarity matrix
(monitor.py:996-999, 1072-1076) -/
def bestOfRow (axis : List Rat) (row : List F) : F × F :=
  let corr := nanmax row
  (corr, if corr.isNone then none else axis[argmaxR (row.map nan0)]?)

/-- pointwise `np.nanmean` over the matrices (monitor.py:1070) -/
def meanMat (dvs : List Dv) (nrow ncol : Nat) : List (List F) :=
  (List.range nrow).map fun i => (List.range ncol).map fun j =>
    nanmean (dvs.map fun d => (d.sim.getD i []).getD j none)

/-- `'av'` if the codes differ (monitor.py:1007-1012, 1088-1093) -/
def avCode (first : Str) (codes : List Str) : Str := if codes.all fun c => decide (c = first) then first else c!"av"

/-- the selection of the inputs (monitor.py:1048-1064) -/
def selectDvs (d0 : Dv) : List Dv → Except PyErr (List Dv)
  | [] => .ok []
  | d :: l => do
    if d.method ≠ d0.method then throw .typeError
    let rest ← selectDvs d0 l
    if d.averaged then pure rest
    else if !d.sameGrid d0 then pure rest
    else pure (d :: rest)

/-- `average_components` (monitor.py:1020-1098) without correction of shifts. Without
usable input `np.nanargmax` of a number raises an `AxisError`, which is a ValueError. -/
def averageComponents (dvs : List Dv) (saveScatter : Bool) : Except PyErr DvAverage := do
  let use ← match dvs with
    | [] => .ok []
    | d0 :: _ => selectDvs d0 dvs
  match use with
  | [] => .error .valueError
  | u0 :: _ =>
    let (nrow, ncol) := shapeOf u0.sim
    if ncol = 0 then .error .valueError
    else
      let av := meanMat use nrow ncol
      let best := av.map (bestOfRow u0.axis)
      .ok {
        dv := { u0 with
          sim := av, corr := best.map Prod.fst, value := best.map Prod.snd,
          channel := avCode u0.channel (use.map (·.channel)),
          station := avCode u0.station (use.map (·.station)),
          network := avCode u0.network (use.map (·.network)) }
        nStat := (List.range nrow).map fun i => (use.filter fun d => (d.corr.getD i none).isSome).length
        stretches := if saveScatter then some (use.map (·.value)) else none
        corrs := if saveScatter then some (use.map (·.corr)) else none }

/-- `average_components_mem_save` (monitor.py:939-1017). Sums of the similarities with NaN
replaced by zero are divided by the number of results with a value. -/
def averageMemSave (dvs : List Dv) (saveScatter : Bool) : Except PyErr DvAverage := do
  match dvs with
  | [] => .error .unboundLocalError
  | d0 :: _ =>
    let use ← selectDvs d0 dvs
    let (nrow, ncol) := shapeOf d0.sim
    if ncol = 0 then .error .valueError
    else
      let nStat := (List.range nrow).map fun i => (use.filter fun d => (d.value.getD i none).isSome).length
      let av : List (List F) := (List.range nrow).map fun i => (List.range ncol).map fun j =>
        F.div (some ((use.map fun d => nan0 ((d.sim.getD i []).getD j none)).sum)) (some ((nStat.getD i 0 : Nat) : Rat))
      let best := av.map (bestOfRow d0.axis)
      .ok {
        dv := { d0 with
          sim := av, corr := best.map Prod.fst, value := best.map Prod.snd,
          channel := avCode d0.channel (use.map (·.channel)),
          station := avCode d0.station (use.map (·.station)),
          network := avCode d0.network (use.map (·.network)) }
        nStat := nStat
        stretches := if saveScatter then some (use.map (·.value)) else none
        corrs := if saveScatter then some (use.map (·.corr)) else none }

/-- position of a station pair: latitude, longitude and elevation of both stations -/
structure DvPos where
  stla : Rat
  evla : Rat
  stlo : Rat
  evlo : Rat
  stel : Rat
  evel : Rat
  deriving DecidableEq

/-- the selection of `average_dvs_by_coords` (monitor.py:1130-1144) -/
def selectByCoords (dvs : List (Dv × DvPos)) (lat lon el : Rat × Rat) : Except PyErr (List (Dv × DvPos)) :=
  let r := dvs.filter fun d =>
    !(decide (d.1.channel = c!"av")) &&
    (decide (lat.1 ≤ d.2.stla ∧ d.2.stla ≤ lat.2) && decide (lat.1 ≤ d.2.evla ∧ d.2.evla ≤ lat.2) &&
     decide (lon.1 ≤ d.2.stlo ∧ d.2.stlo ≤ lon.2) && decide (lon.1 ≤ d.2.evlo ∧ d.2.evlo ≤ lon.2) &&
     decide (el.1 ≤ d.2.stel ∧ d.2.stel ≤ el.2) && decide (el.1 ≤ d.2.evel ∧ d.2.evel ≤ el.2))
  if r.isEmpty then .error .valueError else .ok r

/-- `average_dvs_by_coords` (monitor.py:1101-1151) up to the coordinates of the header -/
def averageByCoords (dvs : List (Dv × DvPos)) (lat lon el : Rat × Rat) (returnStd : Bool) : Except PyErr DvAverage := do
  let r ← selectByCoords dvs lat lon el
  let a ← averageComponents (r.map Prod.fst) returnStd
  pure { a with dv := { a.dv with network := c!"geoav", station := c!"geoav" } }

/-! ### correction of shifts -/

/-- `np.roll(mat, (roll, 0))` (monitor.py:885) without an axis: the flattened matrix is
rolled by the sum of the shifts -/
def rollFlat {α : Type} (m : List (List α)) (roll : Int) : List (List α) :=
  let flat := m.flatten
  let n : Int := flat.length
  (m.zipIdx).map fun (row, i) => (List.range row.length).filterMap fun j : Nat =>
    flat[(((((i * row.length : Nat) : Int) + (j : Int)) - roll) % n).toNat]?

/-- first index of a value, `np.where(a == v)[0][0]` -/
def whereFirst (l : List Int) (v : Int) : Except PyErr Nat :=
  if l.findIdx (· = v) < l.length then .ok (l.findIdx (· = v)) else .error .indexError

/-- values at which the mask is true -/
def maskSel {α : Type} (l : List α) (m : List Bool) : List α := (l.zip m).filterMap fun x => if x.2 then some x.1 else none

/-- the part of the curves that is compared (monitor.py:834-871); `t0`, `t1` are the start
times, `av0`, `av1` the availabilities -/
def shiftWindow (t0 t1 : List Int) (av0 av1 : List Bool) (nOverlap : Nat) (nval : Nat) : Except PyErr (Int × Int) := do
  let both := List.zipWith (· && ·) av0 av1
  let (start, stop, gap) ←
    if both.any id then
      let ks := (List.range both.length).filter fun k => both.getD k false
      pure (((ks.headD 0 : Nat) : Int) - nOverlap, ((ks.getLastD 0 : Nat) : Int) + nOverlap, (0 : Int))
    else
      match (maskSel t0 av0).head?, (maskSel t1 av1).getLast? with
      | some a, some b =>
        if a > b then do
          let ii ← whereFirst t0 a
          let jj ← whereFirst t1 b
          pure ((jj : Int) - nOverlap, (ii : Int) + nOverlap, (ii : Int) - jj)
        else
          match (maskSel t1 av1).head?, (maskSel t0 av0).getLast? with
          | some a, some b => do
            let ii ← whereFirst t1 a
            let jj ← whereFirst t0 b
            pure ((jj : Int) - nOverlap, (ii : Int) + nOverlap, (ii : Int) - jj)
          | _, _ => .error .indexError
      | _, _ => .error .indexError
  if gap > nOverlap then .error .valueError
  let stop := if stop ≥ nval then (nval : Int) - 1 else stop
  let start := if start < 0 then 0 else start
  pure (start, stop)

/-- weighted mean `nanmean(v*c)/nanmean(c)` (monitor.py:877-878) -/
def weightedMean (v c : List F) : F := F.div (nanmean (List.zipWith F.mul v c)) (nanmean c)

/-- the number of samples the similarity matrix is rolled by, method `mean`
(monitor.py:872-884). Rounding NaN to an integer is a ValueError. -/
def shiftRoll (d0 d1 : Dv) (start stop : Int) : Except PyErr Int :=
  let s (l : List F) := pySlice l (some start) (some stop)
  let shift := F.sub (weightedMean (s d0.value) (s d0.corr)) (weightedMean (s d1.value) (s d1.corr))
  match d0.axis with
  | a :: b :: _ =>
    match F.div (shift.map fun x => -x) (some (b - a)) with
    | none => .error .valueError
    | some q => .ok (pyRound q)
  | _ => .error .indexError

/-- the change of the shifted result (monitor.py:885-887); the correlation is kept -/
def applyRoll (d : Dv) (roll : Int) : Dv :=
  let sim := rollFlat d.sim roll
  { d with sim := sim, value := sim.map fun row => d.axis[argmaxR (row.map nan0)]? }

/-- `correct_dv_shift` (monitor.py:806-888) with method `mean` -/
def correctDvShift (d0 d1 : Dv) (t0 t1 : List Int) (nOverlap : Nat) : Except PyErr Dv := do
  let (start, stop) ← shiftWindow t0 t1 (d0.corr.map (·.isSome)) (d1.corr.map (·.isSome)) nOverlap d0.value.length
  let roll ← shiftRoll d0 d1 start stop
  pure (applyRoll d0 roll)

end SeisMIC
