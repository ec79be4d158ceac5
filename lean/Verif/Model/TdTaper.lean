import Verif.Model.Decay

/-!
# Model: tapering of traces before they are correlated (correlate/preprocessing_td.py)
-/

namespace SeisMIC

noncomputable section

/-- the weights for `npts` samples (preprocessing_td.py:324-330): `type` and `p` are the arguments; obspy's `cosine_taper` has the default `p = 0.1`. `lib`: the window
functions of scipy by name, with the remaining arguments; `getattr` of another name is an AttributeError. -/
def taperWeights (lib : Str → Option (Nat → Except PyErr (List ℝ))) (npts : Nat) (type : Str) (p : Option Rat) : Except PyErr (List ℝ) :=
  if type = c!"cosine_taper" then cosineTaper npts (p.getD (1 / 10))
  else match lib type with
    | some f => f npts
    | none => .error .attributeError

/-- `taper` (preprocessing_td.py:296-332) for a matrix with `npts` columns. A missing `type` is a KeyError. -/
def tdTaper (lib : Str → Option (Nat → Except PyErr (List ℝ))) (npts : Nat) (A : List (List ℝ)) (type : Option Str) (p : Option Rat) :
    Except PyErr (List (List ℝ)) :=
  match type with
  | none => .error .keyError
  | some t =>
    match taperWeights lib npts t p with
    | .error e => .error e
    | .ok tap => .ok (A.map fun row => List.zipWith (fun x w => x * w) row tap)

end

end SeisMIC
