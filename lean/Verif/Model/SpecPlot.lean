import Verif.Model.Reference
import Verif.Py.Slice

/-!
# Model: the figure of a spectral time series (plot/plot_spectrum.py)

The matrix has one row for each frequency and one column for each time. Simplified: real numbers
without NaN (the code masks NaN, but `np.linalg.norm` and `np.median` do not know masks); a division by zero gives 0 here
and a masked value in numpy. Colours and the scale of the axes are not modelled.
-/

namespace SeisMIC

noncomputable section

/-- the position of the first smallest entry (`np.argmin`) -/
def argminReal : List ℝ → Nat
  | [] => 0
  | [_] => 0
  | a :: b :: l => if a ≤ (b :: l).getD (argminReal (b :: l)) 0 then 0 else argminReal (b :: l) + 1

/-- the index of the closest entry (plot_spectrum.py:80-81, 91-92) -/
def closestReal (l : List ℝ) (x : ℝ) : Nat := argminReal (l.map fun y => |y - x|)

/-- `a[ii:jj]` for indices that are not negative -/
def cut {α : Type} (ii jj : Nat) (l : List α) : List α := (l.take jj).drop ii

/-- the number a row or a column is divided by (plot_spectrum.py:100-107, 109-116) -/
def normDen (method : Str) (v : List ℝ) : Except PyErr ℝ :=
  if method = c!"linalg" then .ok (Real.sqrt (v.map (· ^ 2)).sum)
  else if method = c!"mean" then .ok (meanR v)
  else if method = c!"median" then .ok (middle (sortR v))
  else .error .valueError

/-- column `j` of a matrix -/
def specCol (S : List (List ℝ)) (j : Nat) : List ℝ := S.map fun r => r.getD j 0

/-- the normalisation for `norm` `f` and `t` (plot_spectrum.py:97-118). `n` is the number of columns. -/
def specNorm (n : Nat) (S : List (List ℝ)) (norm : Option Str) (method : Str) : Except PyErr (List (List ℝ)) :=
  match norm with
  | none => .ok S
  | some c =>
    if c = c!"f" then S.mapM fun r => (normDen method r).map fun d => r.map (· / d)
    else if c = c!"t" then ((List.range n).mapM fun j => normDen method (specCol S j)).map fun ds => S.map fun r => List.zipWith (· / ·) r ds
    else .error .valueError

/-- the division by the largest value (plot_spectrum.py:123); an empty matrix is a ValueError -/
def specShown (f t : List ℝ) (S : List (List ℝ)) : Except PyErr (List ℝ × List ℝ × List (List ℝ)) :=
  match maxR S.flatten with
  | none => .error .valueError
  | some m => .ok (f, t, S.map fun r => r.map (· / m))

/-- `plot_spct_series` (plot_spectrum.py:67-126): the frequencies, the times and the matrix that are drawn -/
def plotSpct (S : List (List ℝ)) (f t : List ℝ) (norm : Option Str) (method : Str) (flim tlim : Option (ℝ × ℝ)) :
    Except PyErr (List ℝ × List ℝ × List (List ℝ)) := do
  let (f, S) := match flim with
    | some (lo, hi) => (cut (closestReal f lo) (closestReal f hi + 1) f, cut (closestReal f lo) (closestReal f hi + 1) S)
    | none => (f, S)
  let (t, S) := match tlim with
    | some (lo, hi) => (cut (closestReal t lo) (closestReal t hi) t, S.map (cut (closestReal t lo) (closestReal t hi)))
    | none => (t, S)
  let S ← specNorm t.length S norm method
  specShown f t S

end

end SeisMIC
