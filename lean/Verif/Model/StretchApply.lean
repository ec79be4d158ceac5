import Verif.Model.StretchMeasure
import Verif.Model.Decay

/-!
# Model: applying a stretch (stretch_mod.py:1160-1220)
-/

namespace SeisMIC

noncomputable section

/-- the time axis in samples (stretch_mod.py:1206-1209) -/
def applyIdx (single : Bool) (n : Nat) : List ℝ := (List.range n).map fun i : Nat => if single then (i : ℝ) else i - ((n : ℝ) - 1) / 2

/-- `time_stretch_apply` (stretch_mod.py:1160-1220) for a matrix with `n` columns and one stretch for each trace: the result, and the matrix of the caller
afterwards, which is tapered in place (line 1203). The spline (`UnivariateSpline(times, values, s=0)`, which extrapolates) is a parameter. The first
evaluation (line 1217) is overwritten by the second one. Too few stretches are an `IndexError`, after the taper; further ones are not used. -/
def timeStretchApply (spline : List ℝ → List ℝ → ℝ → ℝ) (n : Nat) (data : List (List ℝ)) (stretch : List ℝ) (single : Bool) :
    Except PyErr (List (List ℝ)) × List (List ℝ) :=
  match cosineTaper n (1 / 20) with
  | .error e => (.error e, data)
  | .ok tap =>
    let mat := data.map fun row => List.zipWith (· * ·) row tap
    (if stretch.length < data.length then .error .indexError
     else .ok (List.zipWith (fun row s => (applyIdx single n).map fun t => spline (applyIdx single n) row (t * Real.exp s)) mat stretch), mat)

/-- the same for a matrix of stretches (stretch_mod.py:1193-1198): only the first column is used -/
def timeStretchApply2 (spline : List ℝ → List ℝ → ℝ → ℝ) (n : Nat) (data : List (List ℝ)) (stretch : List (List ℝ)) (single : Bool) :
    Except PyErr (List (List ℝ)) × List (List ℝ) :=
  if stretch.length ≠ data.length then (.error .valueError, data)
  else timeStretchApply spline n data (stretch.map fun r => r.headD 0) single

end

end SeisMIC
