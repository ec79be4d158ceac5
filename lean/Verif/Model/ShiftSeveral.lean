import Verif.Model.AverageDv
import Verif.Model.Stations

/-!
# Model: correction of the shifts of several velocity change curves (monitor/monitor.py)
-/

namespace SeisMIC

section
variable {δ : Type}

/-- `np.where(avl == v)` (monitor.py:923-924); NaN is not equal to NaN -/
def whereEq (avl : List F) (v : F) : List Nat := (List.range avl.length).filter fun i => v.isSome && decide (avl[i]? = some v)

/-- `np.sort(np.unique(avl))` (monitor.py:917): the different numbers, and one NaN at the end if there is one -/
def uniqueTimes (avl : List F) : List F :=
  (npUnique (fun a b : Rat => decide (a ≤ b)) (notNan avl)).map some ++ (if avl.contains none then [none] else [])

/-- one curve of a group (monitor.py:927-936): the curve is changed in place; a `ValueError` becomes a warning -/
def shiftOne (correct : δ → δ → Except PyErr δ) (r i : Nat) (dvs : List δ) : Except PyErr (List δ) :=
  match dvs[i]?, dvs[r]? with
  | some d, some ref =>
    match correct d ref with
    | .ok d' => .ok (dvs.set i d')
    | .error .valueError => .ok dvs
    | .error e => .error e
  | _, _ => .error .indexError

/-- the body of the loop (monitor.py:919-936) for a time and the next one -/
def shiftGroup (correct : δ → δ → Except PyErr δ) (avl : List F) (a b : F) (dvs : List δ) : Except PyErr (List δ) :=
  match whereEq avl a with
  | [] => .error .indexError
  | r :: _ => (whereEq avl b).foldlM (fun s i => shiftOne correct r i s) dvs

/-- the loop (monitor.py:919-936) -/
def shiftChain (correct : δ → δ → Except PyErr δ) (avl : List F) : List F → List δ → Except PyErr (List δ)
  | a :: b :: rest, dvs => do
    let dvs ← shiftGroup correct avl a b dvs
    shiftChain correct avl (b :: rest) dvs
  | _, dvs => .ok dvs

/-- `correct_time_shift_several` (monitor.py:891-936): the curves afterwards. `time` is the mean start time of the available values of a curve (NaN if there
is none), `correct` is `correct_dv_shift` with the given method and overlap. -/
def shiftSeveral (time : δ → F) (correct : δ → δ → Except PyErr δ) (dvs : List δ) : Except PyErr (List δ) :=
  shiftChain correct (dvs.map time) (uniqueTimes (dvs.map time)) dvs

end

/-- a curve with its start times -/
structure DvT where
  dv : Dv
  starts : List Int
  deriving DecidableEq

/-- `np.mean(times[dv.avail])` (monitor.py:913-916); the availability (dv.py:82) is not changed by a correction, like the correlation -/
def meanTime (d : DvT) : F := nanmean ((maskSel d.starts (d.dv.corr.map (·.isSome))).map fun t => some ((t : Int) : Rat))

/-- `correct_dv_shift` with method `mean`; any other method than `mean` and `median` is a `ValueError` (monitor.py:882-883) -/
def correctMean (nOverlap : Nat) (d ref : DvT) : Except PyErr DvT := do
  let new ← correctDvShift d.dv ref.dv d.starts ref.starts nOverlap
  pure { d with dv := new }

end SeisMIC
