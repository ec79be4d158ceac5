import Verif.Model.TraceUtils
import Verif.Py.Round

/-!
# Model: helpers for missing values, rounding and trimming (miic_utils.py, roundhalf.py)
-/

namespace SeisMIC

/-- `nan_helper` (miic_utils.py:434-450): the mask of the `nan`, and the function that yields the positions at which a mask is true -/
def nanHelper (y : List F) : List Bool × (List Bool → List Nat) := (y.map (·.isNone), whereTrue)

/-- `np.interp(x, xp, fp)` for integers `xp` in increasing order and an `x` that is not among them: constant outside -/
def npInterpEnds (xp : List Nat) (fp : List Rat) (x : Nat) : F :=
  match ((xp.zip fp).filter fun p => p.1 < x).getLast?, ((xp.zip fp).filter fun p => x < p.1).head? with
  | some (p, a), some (q, b) => some ((b - a) / ((q : Rat) - p) * ((x : Rat) - p) + a)
  | some (_, a), none => some a
  | none, some (_, b) => some b
  | none, none => none

/-- the use of `nan_helper` that its documentation shows (miic_utils.py:445-448):
`nans, x = nan_helper(y); y[nans] = np.interp(x(nans), x(~nans), y[~nans])`. `np.interp` without any point is a `ValueError`. -/
def fillNans (y : List F) : Except PyErr (List F) :=
  let h := nanHelper y
  let xp := h.2 (h.1.map not)
  if xp = [] then .error .valueError
  else
    let at_ := h.2 h.1
    let vals := at_.map (npInterpEnds xp (notNan y))
    .ok ((at_.zip vals).foldl (fun y p => y.set p.1 p.2) y)

/-- `roundhalf` (roundhalf.py:15-30) -/
def roundHalf (x : Rat) : Rat := (pyRound (x * 2) : Rat) / 2

/-- numpy's `round` away from zero, `obspy.core.compatibility.round_away` -/
def roundAway (x : Rat) : Int := if 0 ≤ x then (x + 1 / 2).floor else (x - 1 / 2).ceil

/-- a trace: time of the first sample (in seconds), sampling rate, samples -/
structure Rec (α : Type) where
  start : Rat
  sr : Rat
  data : List α

/-- time of the last sample -/
def Rec.stop {α : Type} (tr : Rec α) : Rat := tr.start + (if tr.data = [] then 0 else ((tr.data.length : Rat) - 1) / tr.sr)

/-- `Trace._ltrim` without padding (obspy): the number of samples to drop is rounded to the nearest whole number; nothing is dropped if it is
negative; if the trace ends before `t`, no sample is left -/
def Rec.ltrim {α : Type} (tr : Rec α) (t : Rat) : Rec α :=
  let d := roundAway ((t - tr.start) * tr.sr)
  if d ≤ 0 then tr
  else if tr.stop < t then ⟨t, tr.sr, []⟩
  else ⟨tr.start + d / tr.sr, tr.sr, tr.data.drop d.toNat⟩

/-- `Trace._rtrim` without padding (obspy), the same at the end -/
def Rec.rtrim {α : Type} (tr : Rec α) (t : Rat) : Rec α :=
  let d := roundAway ((t - tr.start) * tr.sr) - tr.data.length + 1
  if 0 ≤ d then tr
  else if t < tr.start then ⟨t, tr.sr, []⟩
  else ⟨tr.start, tr.sr, tr.data.take ((tr.data.length : Int) + d).toNat⟩

/-- `Trace.trim(starttime, endtime)` (obspy) -/
def Rec.trim {α : Type} (tr : Rec α) (t0 t1 : Rat) : Except PyErr (Rec α) :=
  if t1 < t0 then .error .valueError else .ok ((tr.ltrim t0).rtrim t1)

/-- `trim_trace_delta` (miic_utils.py:213-237) without further arguments. Both times are made of the trace before. -/
def trimTraceDelta {α : Type} (tr : Rec α) (start stop : Rat) : Except PyErr (Rec α) := tr.trim (tr.start + start) (tr.stop - stop)

/-- `trim_stream_delta` (miic_utils.py:186-210): the traces are changed one after the other, an exception ends it. The stream afterwards
is part of the result. -/
def trimStreamDelta {α : Type} (start stop : Rat) : List (Rec α) → Except PyErr Unit × List (Rec α)
  | [] => (.ok (), [])
  | tr :: st => match trimTraceDelta tr start stop with
    | .error e => (.error e, tr :: st)
    | .ok tr' => ((trimStreamDelta start stop st).1, tr' :: (trimStreamDelta start stop st).2)

end SeisMIC
