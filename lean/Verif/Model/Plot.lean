import Verif.Py.Nan
import Verif.Py.Sort
import Verif.Py.Fnmatch
import Verif.Py.Strings
import Verif.Model.ShiftMethod

/-!
# Model: what the figures show (plot/*.py)

A figure is modelled by the data that is handed to matplotlib: points, curves, images with the
extent of their axes, and the name of the file. Colours, fonts, labels, ticks and the rendering
itself are not modelled.
-/

namespace SeisMIC

/-- `a[mask]` (numpy): the entries at which the mask is true; other lengths are an IndexError -/
def boolSel {α : Type} (mask : List Bool) (l : List α) : Except PyErr (List α) :=
  if mask.length = l.length then .ok (((mask.zip l).filter Prod.fst).map Prod.snd) else .error .indexError

/-- a point of the figure `publication` -/
structure DvPoint where
  time : Int
  /-- velocity change in percent -/
  percent : F
  /-- similarity, shown as colour -/
  colour : F
  deriving DecidableEq

/-- the smallest and the largest time; `min([])` is a ValueError -/
def timeRange : List Int → Except PyErr (Int × Int)
  | [] => .error .valueError
  | t :: ts => .ok (ts.foldl min t, ts.foldl max t)

/-- `plot_fancy_dv` (plot_dv.py:40-48, 65-68): the points and the limits of the time axis -/
def plotFancyDv (starts : List Int) (value corr : List F) (xlim : Option (Int × Int)) : Except PyErr (List DvPoint × (Int × Int)) := do
  let mask := corr.map Option.isSome
  let val := (← boolSel mask value).map fun v => v.map fun x => -x * 100
  let times ← boolSel mask starts
  let c ← boolSel mask corr
  let points := (times.zip (val.zip c)).map fun p => ⟨p.1, p.2.1, p.2.2⟩
  let lim ← match xlim with
    | some l => pure l
    | none => timeRange times
  pure (points, lim)

/-- `np.max` of a row: NaN if one entry is NaN -/
def rowMax (r : List F) : F := if r.any Option.isNone then none else maxList (notNan r)

/-- the normalisation of the similarity matrix (plot_dv.py:159-161) -/
def normSim (sim : List (List F)) : List (List F) := sim.map fun r => r.map fun x => F.div x (rowMax r)

/-- an image: its rows from the top to the bottom, and the extent of its axes -/
structure Image where
  rows : List (List F)
  left : Rat
  right : Rat
  bottom : Rat
  top : Rat
  deriving DecidableEq

/-- the area of the pixel in row `r` (from the top) and column `c` that `imshow` draws:
(left, right) and (towards the top, towards the bottom) -/
def Image.pixel (im : Image) (ncol r c : Nat) : (Rat × Rat) × (Rat × Rat) :=
  ((im.left + (im.right - im.left) * c / ncol, im.left + (im.right - im.left) * (c + 1) / ncol),
   (im.top + (im.bottom - im.top) * r / im.rows.length, im.top + (im.bottom - im.top) * (r + 1) / im.rows.length))

/-- `np.flipud(sim.T)` for a matrix with `m` columns (plot_dv.py:207-209) -/
def flipT (m : Nat) (sim : List (List F)) : List (List F) :=
  (List.range m).map fun r => sim.map fun row => row.getD (m - 1 - r) none

/-- the position of the first smallest entry (`np.argmin`) -/
def argminInt : List Int → Nat
  | [] => 0
  | [_] => 0
  | a :: b :: l => let j := argminInt (b :: l); if a ≤ (b :: l).getD j 0 then 0 else j + 1

/-- the index of the time that is closest (plot_dv.py:222-223) -/
def closest (times : List Int) (t : Int) : Nat := argminInt (times.map fun s => |s - t|)

/-- what the figure `technical` shows -/
structure TechFig where
  /-- panel 1: (x, y) of the points -/
  dots : List (Nat × F)
  /-- panel 1: the similarity matrix -/
  image : Option Image
  /-- panel 1: limits of the axis -/
  xlim : Nat × Nat
  /-- panel 2 -/
  curve : List (Int × F)
  /-- panel 3 -/
  corr : List (Int × F)
  deriving DecidableEq

/-- the kinds of measurements that can be drawn (plot_dv.py:168-196) -/
def knownKind (valueType method : Str) : Bool :=
  (valueType = c!"stretch" && (method = c!"single_ref" || method = c!"multi_ref"))
    || (valueType = c!"shift" && (method = c!"time_shift" || method = c!"absolute_shift"))

/-- `plot_technical_dv` (plot_dv.py:123-343): the data of its first three panels. Simplified: the
histogram of all combinations (`plot_scatter`), the marked time and the number of stations are
left out; `m` is the number of columns of the matrix; the empty list has no closest time. -/
def plotTechnicalDv (valueType method : Str) (starts : List Int) (value corr : List F) (sim : List (List F)) (axis : List Rat)
    (normalize : Bool) (clim : List Rat) (xlim : Option (Int × Int)) : Except PyErr TechFig :=
  if clim ≠ [] ∧ clim.length ≠ 2 then .error .valueError
  else
    let m := (sim.head?.map List.length).getD 0
    let sim' := if normalize then normSim sim else sim
    match axis.head?, axis.getLast? with
    | some a0, some a1 =>
      if !knownKind valueType method then .error .valueError
      else if starts.length ≠ value.length ∨ starts.length ≠ corr.length then .error .valueError
      else .ok {
        dots := (List.range value.length).zip (value.map fun v => v.map fun x => -x)
        image := if m = 0 then none else some ⟨flipT m sim', 0, sim.length, a1, a0⟩
        xlim := match xlim with
          | some (l, r) => (closest starts l, closest starts r + 1)
          | none => (0, value.length)
        curve := starts.zip (value.map fun v => v.map fun x => -x)
        corr := starts.zip corr }
    | _, _ => .error .valueError

/-- `'%s_%i' % (name, i)` (plot_dv.py:137) -/
def numbered (name : Str) (i : Nat) : Str := name ++ c!"_" ++ (toString i).toList

/-- the search for a name (plot_dv.py:134-140): `exist` is the variable of the loop. `none`: no
result within `fuel` rounds. -/
def freeName (dir : List Str) (name : Str) : Nat → Nat → Str → Bool → Option Str
  | 0, _, _, _ => none
  | fuel + 1, i, fname, exist =>
    if exist then
      let f := numbered name i
      freeName dir name fuel (i + 1) f (dir.contains (f ++ c!"_change.png"))
    else some fname

/-- the name with an extension (plot_dv.py:339-341) -/
def withExtension (name : Str) : Str :=
  let ext := ((splitOn '.' name).getLast?.getD []).map Char.toLower
  if ext ∈ [c!"png", c!"svg", c!"pdf", c!"jpg"] then name else name ++ c!".png"

/-- the file that `plot_technical_dv` writes into a directory with the files `dir`
(plot_dv.py:132-141, 335-343) -/
def figureFile (dir : List Str) (fuel : Nat) (name : Str) : Option Str :=
  (if name = c!"plot_default" then
      freeName dir name fuel 0 (name ++ c!"_change.png") (dir.contains (name ++ c!"_change.png"))
    else some name).map withExtension

/-- saving figures one after the other: the files in the directory with their content -/
def saveFigure {β : Type} (files : List (Str × β)) (fuel : Nat) (name : Str) (figure : β) : Option (List (Str × β)) :=
  (figureFile (files.map Prod.fst) fuel name).map fun f => (f, figure) :: files.filter fun e => e.1 != f

/-! ## several velocity changes in one figure -/

/-- the part of a velocity change that `plot_multiple_dv` uses -/
structure DvCurve where
  station : Str
  starts : List Int
  value : List F
  deriving DecidableEq

/-- a curve of the figure -/
structure DrawnCurve where
  station : Str
  points : List (Int × F)
  deriving DecidableEq

/-- the files that are read (plot_multidv.py:70-82) from the result of `glob` -/
def multiFiles (found : List Str) (statfilter : Option (List Str)) : List Str :=
  match statfilter with
  | none => found
  | some fs => fs.flatMap fun f => found.filter fun p => fnmatch p (c!"*" ++ f ++ c!"*")

/-- the values that are drawn (plot_multidv.py:88-90) -/
def shownValue (plotAbs : Bool) (v : F) : F :=
  let v := v.map fun x => -x
  if plotAbs then F.abs v else v

/-- the loop over the files (plot_multidv.py:83-96): the variable `dv` keeps its content if reading fails -/
def multiDvLoop (read : Str → Option DvCurve) : Option DvCurve → List Str → Except PyErr (List DvCurve)
  | _, [] => .ok []
  | prev, f :: fs =>
    match (read f).or prev with
    | none => .error .unboundLocalError
    | some dv => (multiDvLoop read (some dv) fs).map (dv :: ·)

/-- `np.nanmedian(vals, axis=0)`: curves of different length are a ValueError -/
def medianCurve (vals : List (List F)) : Except PyErr (List F) :=
  let n := (vals.head?.map List.length).getD 0
  if vals.all fun v => v.length = n then .ok ((List.range n).map fun j => nanmedian (column vals j)) else .error .valueError

/-- `plot_multiple_dv` (plot_multidv.py:69-101): the curves and the median. The values are
collected twice (lines 91 and 94). Without any file the axes are not defined (line 97). -/
def plotMultipleDv (read : Str → Option DvCurve) (found : List Str) (statfilter : Option (List Str)) (plotAbs plotMedian : Bool) :
    Except PyErr (List DrawnCurve × Option (List (Int × F))) := do
  let dvs ← multiDvLoop read none (multiFiles found statfilter)
  if dvs.any fun d => d.starts.length ≠ d.value.length then throw .valueError
  let last ← match dvs.getLast? with
    | none => throw .unboundLocalError
    | some d => pure d
  let curves := dvs.map fun d => (⟨d.station, d.starts.zip (d.value.map (shownValue plotAbs))⟩ : DrawnCurve)
  if plotMedian then
    let med ← medianCurve (dvs.flatMap fun d => [d.value.map (shownValue plotAbs), d.value.map (shownValue plotAbs)])
    pure (curves, some (last.starts.zip med))
  else pure (curves, none)

/-! ## correlations -/

/-- a correlation trace with what the figures use. `lags` are the lag times of the samples. -/
structure PlotTr where
  net : Str
  sta : Str
  cha : Str
  start : Int
  dist : Rat
  az : Rat
  lags : List Rat
  data : List Rat
  deriving DecidableEq

/-- sort key of `cst.sort` -/
inductive SortBy where
  | corrStart
  | dist
  deriving DecidableEq

/-- `cst.sort(keys=[sort_by, 'network', 'station', 'channel'])` (plot_correlation.py:150-152): one
stable sort for each key, beginning with the last one -/
def sortCst (k : SortBy) (st : List PlotTr) : List PlotTr :=
  let st := isort (fun a b => decide (a.net ≤ b.net)) (isort (fun a b => decide (a.sta ≤ b.sta)) (isort (fun a b => decide (a.cha ≤ b.cha)) st))
  match k with
  | .corrStart => isort (fun a b => decide (a.start ≤ b.start)) st
  | .dist => isort (fun a b => decide (a.dist ≤ b.dist)) st

/-- a coloured mesh: horizontal axis, vertical axis and a row of values for each entry of the vertical axis -/
structure Mesh (α : Type) where
  x : List Rat
  y : List α
  rows : List (List Rat)
  deriving DecidableEq

/-- rows of an array with the length of the first trace (plot_correlation.py:295, 344). Simplified:
numpy would also accept a trace with one sample. -/
def meshRows (st : List PlotTr) (rows : List (List Rat)) : Except PyErr (List (List Rat)) :=
  let n := (st.head?.map fun t => t.data.length).getD 0
  if rows.all fun r => r.length = n then .ok rows else .error .valueError

/-- `plot_cst(sort_by='corr_start', type='heatmap')` (plot_correlation.py:152-164, 293-311): the
stream afterwards and the mesh. The horizontal axis is that of the last trace. -/
def heatStart (st : List PlotTr) : Except PyErr (List PlotTr × Mesh Int) :=
  let st := sortCst .corrStart st
  match st.getLast? with
  | none => .error .keyError
  | some last => (meshRows st (st.map PlotTr.data)).map fun r => (st, ⟨last.lags, st.map PlotTr.start, r⟩)

/-- `plot_cst(sort_by='distance', type='heatmap')` (plot_correlation.py:150-152, 173-175, 341-357):
the data of traces to the west are reversed; the horizontal axis is that of the first trace. -/
def heatDist (st : List PlotTr) : Except PyErr (List PlotTr × Mesh Rat) :=
  let st := sortCst .dist st
  match st.head? with
  | none => .error .keyError
  | some t0 => (meshRows st (st.map fun t => if 180 ≤ t.az then t.data.reverse else t.data)).map fun r => (st, ⟨t0.lags, st.map PlotTr.dist, r⟩)

/-- `plot_cst(sort_by='distance', type='section')` (plot_correlation.py:150-152, 168-172, 314-326):
the lines; the lag times of traces to the west change their sign. -/
def sectDist (st : List PlotTr) (scaling : Rat) : Except PyErr (List PlotTr × List (List (Rat × Rat))) :=
  let st := sortCst .dist st
  if st.isEmpty then .error .keyError
  else
    let s := (if scaling = 0 then 1 else scaling) * 4
    .ok (st, st.map fun t => (if 180 ≤ t.az then t.lags.map fun x => -1 * x else t.lags).zip (t.data.map fun y => y * s + t.dist))

/-- second differences (`np.diff(a, 2)`) -/
def diff2 : List Int → List Int
  | a :: b :: c :: l => (c - b - (b - a)) :: diff2 (b :: c :: l)
  | _ => []

/-- `plot_corr_bulk` (plot_correlation.py:235-250): the image of a matrix with the start times
of its rows, or NotImplementedError. Simplified: the times of the vertical axis are in
nanoseconds; differences of times are exact. -/
def plotCorrBulk (starts : List Int) (data : List (List F)) (startLag endLag : Rat) : Except PyErr Image :=
  if (diff2 starts).any (· ≠ 0) then .error .notImplementedError
  else match starts.head?, starts.getLast? with
    | some t0, some t1 => .ok ⟨data, startLag, endLag, t1, t0⟩
    | _, _ => .error .indexError

end SeisMIC
