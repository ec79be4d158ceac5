import Verif.Model.Heap
import Verif.Model.Measure
import Verif.Model.MultiRef
import Mathlib.Analysis.SpecialFunctions.Exp

/-!
# Model: measuring and correcting stretches (stretch_mod.py:344-591, 859-952, post_corr_process.py:797-900, 1229-1254,
stream.py:188-209, 588-625)

The data are real numbers: NaN are replaced by zero before anything else is done with them (stretch_mod.py:925-927), which has
no effect on the trimming. The spline (`UnivariateSpline(times, values, s=0)`) is a parameter; it is not defined for fewer than
four samples. Time windows hold whole numbers.
-/

namespace SeisMIC

noncomputable section

/-- `UnivariateSpline(times, values, s=0, ext='zeros')` -/
def splineZeros (spline : List ℝ → List ℝ → ℝ → ℝ) (times values : List ℝ) (x : ℝ) : ℝ :=
  if times.headD 0 ≤ x ∧ x ≤ times.getLastD 0 then spline times values x else 0

/-- the time axis of the reference in samples (stretch_mod.py:452-455) -/
def timeIdx (sides : Str) (n : Nat) : List ℝ :=
  (List.range n).map fun i : Nat => if sides = c!"single" then (i : ℝ) else i - ((n : ℝ) - 1) / 2

/-- `ref_stretch` (stretch_mod.py:445-470) -/
def stretchedRefs (spline : List ℝ → List ℝ → ℝ → ℝ) (ref : List ℝ) (sides : Str) (stretches : List ℝ) : List (List ℝ) :=
  stretches.map fun v => (timeIdx sides ref.length).map fun t => splineZeros spline (timeIdx sides ref.length) ref (t * Real.exp (-v))

/-- the default time window (stretch_mod.py:430-434) -/
def defaultWindow (sides : Str) (n : Nat) : Except PyErr (List (List Int)) :=
  timeWindows [0] (.inl [if sides = c!"single" then (n : Int) else ((n / 2 : Nat) : Int)])

/-- the elements of one time window used as time windows (stretch_mod.py:929-936: `tw = tw[0]`): a number cannot be indexed, as
it is done for both sides and the left side (lines 279, 289), but a number can be added (lines 291, 293) -/
def scalarWindows (sides : Str) (w : List Int) : Except PyErr (List (List Int)) :=
  if (sides = c!"both" ∨ sides = c!"left") ∧ w ≠ [] then .error .indexError else .ok (w.map fun k => [k])

/-- the time windows that are used: the first one of several (stretch_mod.py:929-936) -/
def usedWindows (sides : Str) (n : Nat) : Option (List (List Int)) → Except PyErr (List (List Int))
  | none => defaultWindow sides n
  | some (w :: _ :: _) => scalarWindows sides w
  | some tw => .ok tw

/-- `time_stretch_estimate` (stretch_mod.py:344-488): for each window and each row correlation and value. `n` is the number of
columns of the data. -/
def timeStretch (spline : List ℝ → List ℝ → ℝ → ℝ) (n : Nat) (data : List (List ℝ)) (ref : List ℝ) (tw : List (List Int))
    (range : ℝ) (steps : Nat) (sides : Str) (trim : Rat × Rat) (refStats : LagStats) : Except PyErr (List (List (Option ℝ × Option ℝ))) :=
  let stretches := linspaceR (-range) range steps
  let refs := (corrMatTrim (stretchedRefs spline ref sides stretches) refStats trim.1 trim.2).1
  velocityChange n (refs.headD []).length (data.map fun row => row.map some) tw refs stretches sides true

/-- `corr_mat_stretch` (post_corr_process.py:797-900; `CorrBulk.stretch`) with one reference. The argument `ref_tr_trim` has no
effect (lines 878, 883). Without a header of the reference, the one of the trimmed data is used (line 889). -/
def corrMatStretch (spline : List ℝ → List ℝ → ℝ → ℝ) (data : List (List ℝ)) (s : LagStats) (ref : Option (List ℝ))
    (tw : Option (List (List Int))) (range : ℝ) (steps : Nat) (sides : Str) (refStats : Option LagStats) :
    Except PyErr (List (List (Option ℝ × Option ℝ))) := do
  let d := stretchTrim data s sides
  let trim : Rat × Rat := if sides = c!"single" then (0, s.endLag) else (-(min (-s.startLag) s.endLag), min (-s.startLag) s.endLag)
  let r ← match ref with
    | none => do
      let r ← extractTrace d.2.npts (d.1.map fun row => row.map some) c!"mean" 50
      .ok (r.map fun x => x.getD 0)
    | some r => .ok r
  let w ← usedWindows sides d.2.npts tw
  timeStretch spline d.2.npts d.1 r w range steps sides trim (refStats.getD d.2)

/-- one row in `apply_stretch` (post_corr_process.py:1243-1253) -/
def stretchRow (spline : List ℝ → List ℝ → ℝ → ℝ) (s : LagStats) (row : List ℝ) (v : ℝ) : List ℝ :=
  (lagTimes s).map fun t => splineZeros spline (lagTimes s) row (t * Real.exp (-v))

/-- `correct_stretch` (stream.py:188-209, post_corr_process.py:1229-1254): the data afterwards. The rows are replaced one by one;
too few values are an `IndexError`, more are not used; a scalar has no element 0. A stretch that is NaN makes the row NaN. -/
def correctStretch (spline : List ℝ → List ℝ → ℝ → ℝ) (s : LagStats) (valueType : Str) (data : List (List ℝ)) (value : Squeezed) :
    Except PyErr (List (List (Option ℝ))) :=
  if valueType ≠ c!"stretch" then .error .valueError
  else match value with
    | .scalar _ => if data = [] then .ok [] else .error .indexError
    | .array l =>
      if l.length < data.length then .error .indexError
      else .ok (List.zipWith (fun row v => match v with
        | some v => (stretchRow spline s row (-1 * v)).map some
        | none => (lagTimes s).map fun _ => none) data l)

end

end SeisMIC
