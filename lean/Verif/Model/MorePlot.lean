import Verif.Model.Plot
import Verif.Model.HeaderStore
import Verif.Model.Spatial

/-!
# Model: axes of figures of correlations, figures of single correlations, maps

Continues `Model/Plot.lean`.
-/

namespace SeisMIC

/-! ## limits of the lag axis -/

/-- the limits of the horizontal axis (plot_correlation.py:184-187 and 61-64): those that are
given, or the first and the last of `times` (an IndexError if there is none) -/
def lagLimits (timelimits : Option (Rat × Rat)) (times : List Rat) : Except PyErr (Rat × Rat) :=
  match timelimits with
  | some l => .ok l
  | none =>
    match times.head?, times.getLast? with
    | some a, some b => .ok (a, b)
    | _, _ => .error .indexError

/-- `times` at the end of `sect_plot_dist` (plot_correlation.py:319-322, 338): those of the last
trace of the sorted stream, with the other sign if it is to the west -/
def sectDistTimes (st : List PlotTr) : List Rat :=
  match (sortCst .dist st).getLast? with
  | none => []
  | some t => if 180 ≤ t.az then t.lags.map fun x => -1 * x else t.lags

/-- `plot_cst(sort_by='distance', type='section')` (plot_correlation.py:145-187, 314-338): the
stream afterwards, the lines and the limits of the horizontal axis -/
def plotSectDist (st : List PlotTr) (scaling : Rat) (timelimits : Option (Rat × Rat)) :
    Except PyErr (List PlotTr × List (List (Rat × Rat)) × (Rat × Rat)) := do
  let r ← sectDist st scaling
  let lim ← lagLimits timelimits (sectDistTimes st)
  pure (r.1, r.2, lim)

/-- `plot_cst(sort_by='corr_start', type='section')` (plot_correlation.py:145-161, 184-187,
272-290): the stream afterwards, the lines and the limits of the horizontal axis. Times are in
seconds; `1e5` seconds are the unit of the amplitude. -/
def plotSectStart (st : List PlotTr) (scaling : Rat) (timelimits : Option (Rat × Rat)) :
    Except PyErr (List PlotTr × List (List (Rat × Rat)) × (Rat × Rat)) :=
  let st := sortCst .corrStart st
  match st.getLast? with
  | none => .error .keyError
  | some last =>
    let s := (if scaling = 0 then 1 else scaling) * 100000
    let lines := st.map fun t => t.lags.zip (t.data.map fun y => y * s + (t.start : Rat) / 1000000000)
    (lagLimits timelimits last.lags).map fun lim => (st, lines, lim)

/-! ## one correlation -/

/-- `strftime('%Y%m%dT%H%M%S')` of a time in nanoseconds (plot_correlation.py:92). Years 1 to
9999, with leading zeros as obspy writes them. -/
def stamp (t : Int) : Str :=
  let c := civilOf (t / 1000)
  let s := c.us / 1000000
  fixedDigits 4 c.year.toNat ++ fixedDigits 2 c.month ++ fixedDigits 2 c.day ++ c!"T" ++
    fixedDigits 2 (s / 3600) ++ fixedDigits 2 (s / 60 % 60) ++ fixedDigits 2 (s % 60)

/-- the name of the file of a figure of a correlation in `outputdir` (plot_correlation.py:90-93).
`starttime` of a header of correlations is `corr_start`. -/
def ctrFile (id : Str) (start : Int) : Str := id ++ c!"_" ++ stamp start ++ c!".pdf"

/-- a figure with one line -/
structure LineFigure where
  points : List (Rat × Rat)
  xlim : Rat × Rat
  ylim : Rat × Rat
  deriving DecidableEq

/-- `plot_ctr` (plot_correlation.py:52-66): the line and the axes. Lags and data of different
length are a ValueError. -/
def plotCtr (lags data : List Rat) (tlim : Option (Rat × Rat)) : Except PyErr LineFigure :=
  if lags.length ≠ data.length then .error .valueError
  else (lagLimits tlim lags).map fun l => ⟨lags.zip data, l, (-1, 1)⟩

/-! ## the map of a grid -/

/-- smallest and largest value of an axis (`min()`, `max()`): a ValueError if it is empty -/
def axisLimits (l : List Rat) : Except PyErr (Rat × Rat) :=
  match l with
  | [] => .error .valueError
  | a :: l => .ok (l.foldl min a, l.foldl max a)

/-- `DVGrid.plot` (spatial.py:968-976): the image of the velocity changes `vel` (one row for each
value of `yaxis`), in percent and with the sign of a change of velocity. `none`: no inversion has
been done. The marks of the stations are at their coordinates. -/
def gridPlot (xaxis yaxis : List Rat) (vel : Option (List (List F))) : Except PyErr Image :=
  match vel with
  | none => .error .attributeError
  | some v => do
    let x ← axisLimits xaxis
    let y ← axisLimits yaxis
    pure ⟨v.reverse.map fun r => r.map fun a => a.map fun q => -100 * q, x.1, x.2, y.1, y.2⟩

end SeisMIC
