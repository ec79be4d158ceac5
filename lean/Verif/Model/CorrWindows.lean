import Verif.Model.WindowOrder
import Verif.Model.Run
import Verif.Model.TraceUtils

/-!
# Model: the windows of a read period (correlate.py:542-554, 1394-1435)

Times are counted in samples as in `Model/WindowOrder.lean`; the length of a window and the step between windows are numbers of samples.
-/

namespace SeisMIC

variable {β : Type}

/-- number of the last sample of a trace -/
def WTr.stop (t : WTr β) : Int := t.head.start + t.data.length - 1

/-- `Trace.trim(a, b, pad=True)` -/
def WTr.trim (a b : Int) (t : WTr β) : WTr β := t.with (trimGap a b (t.head.start, t.data))

/-- obspy's `Stream.slice(a, b)`: the samples between two times, without padding; traces that have none are left out -/
def sliceStream (a b : Int) (st : List (WTr β)) : List (WTr β) :=
  (st.filter fun t => decide (max a t.head.start ≤ min b t.stop)).map fun t => t.trim (max a t.head.start) (min b t.stop)

/-- obspy's `Stream.slide(len - delta, inc, include_partial_windows=True)`: windows begin with the first sample of the stream and are
repeated up to its last sample; windows without any trace are left out. -/
def slideWindows (len inc : Int) (st : List (WTr β)) : List (List (WTr β)) :=
  match st with
  | [] => []
  | t :: ts =>
    let t0 := ts.foldl (fun m u => min m u.head.start) t.head.start
    let t1 := ts.foldl (fun m u => max m u.stop) t.stop
    ((List.range (ceilDiv (t1 - t0) inc)).map fun k : Nat => sliceStream (t0 + k * inc) (t0 + k * inc + len - 1) (t :: ts)).filter
      fun w => !w.isEmpty

/-- `generate_corr_inc` (correlate.py:1394-1435). Windows are numbered as they come out of `slide` and cut by their number, counted
from the start of the first trace in the list. -/
def generateCorrInc [DecidableEq β] (len inc readLen : Int) (st : List (WTr β)) : List (List (WTr β)) :=
  match st with
  | [] => List.replicate (ceilDiv readLen inc) []
  | t :: ts => (slideWindows len inc (t :: ts)).zipIdx.map fun w =>
      removeIf (fun u : WTr β => u.data.all (·.isNone))
        (w.1.map fun u => u.trim (t.head.start + w.2 * inc) (t.head.start + w.2 * inc + len - 1))

/-- The gathers of a read period (correlate.py:542-554): in each turn of the loop every process gets the windows of all processes. A
process that leaves the loop earlier than others is a deadlock, `none`. -/
def gatherWindows [DecidableEq β] (len inc readLen : Int) (ranks : List (List (WTr β))) : Option (List (List (List (WTr β)))) :=
  let ws := ranks.map (generateCorrInc len inc readLen)
  match ws with
  | [] => some []
  | w :: rest => if rest.all (fun v => v.length == w.length) then
      some ((List.range w.length).map fun k : Nat => (w :: rest).map fun v => v.getD k []) else none

end SeisMIC
