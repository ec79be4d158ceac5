import Verif.Model.Stream

/-!
# Model: what queries do to the stream itself

`CorrStream.sort` orders the list of correlations in place. Some functions that only return something sort the stream of the
user on the way.
-/

namespace SeisMIC

variable {V : Type}

/-- calls that return something of a stream -/
inductive StreamQuery where
  /-- `select_corr_time` -/
  | select (start stop : Int) (partly : Bool)
  /-- `slide`, all windows -/
  | slide (windowLength step : Int) (partly : Bool) (starttime endtime : Option Int)
  /-- `stack` -/
  | stack (weight : Weight) (starttime endtime : Option Int) (stackLen : StackLen) (regardLoc : Bool)
  /-- `plot` of several correlations, sorted by start or by distance -/
  | plot (byDist : Bool)
  deriving DecidableEq

/-- the start times of the windows of `slide` (stream.py:1160-1176) -/
def windowStartsOf (st : List (CTr V)) (step : Int) (starttime endtime : Option Int) : Except PyErr (List Int) := do
  let starttime ← match starttime with
    | some t => .ok t
    | none => pyMin (st.map fun tr => tr.stats.corrStart)
  let endtime ← match endtime with
    | some t => .ok t
    | none => pyMax (st.map fun tr => tr.stats.corrEnd)
  pure (arange starttime endtime step)

/-- `cst.sort(keys=[sort_by, 'network', 'station', 'channel'])` (plot_correlation.py:150-152): one stable sort for each key,
beginning with the last one. `dist` is the distance in the header. -/
def plotSort (dist : CTr V → Rat) (byDist : Bool) (st : List (CTr V)) : List (CTr V) :=
  let st := isort (fun a b => decide (a.stats.network ≤ b.stats.network))
    (isort (fun a b => decide (a.stats.station ≤ b.stats.station))
      (isort (fun a b => decide (a.stats.channel ≤ b.stats.channel)) st))
  if byDist then isort (fun a b => decide (dist a ≤ dist b)) st else isort startLe st

/-- the stream after a call: `select_corr_time` sorts it (stream.py:1064), `slide` does if there is a window
(stream.py:1170-1179), `stack` if the correlations are not all stacked together (stream.py:1221-1225), and plots of more than
one correlation do (stream.py:996-1002). -/
def StreamQuery.after (dist : CTr V → Rat) (q : StreamQuery) (st : List (CTr V)) : List (CTr V) :=
  match q with
  | .select _ _ _ => isort startLe st
  | .slide wl step partly s e =>
    match SeisMIC.slide st wl step partly s e, windowStartsOf st step s e with
    | .ok _, .ok (_ :: _) => isort startLe st
    | _, _ => st
  | .stack _ _ _ len _ => if len = .all then st else isort startLe st
  | .plot byDist => if st.length = 1 then st else plotSort dist byDist st

end SeisMIC
