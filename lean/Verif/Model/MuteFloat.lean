import Verif.Model.Amplitude
import Verif.Py.Float

/-!
# `mute` with the rounded moving average of its mask
-/

namespace SeisMIC

/-- `np.convolve(mask, np.ones(n)/n, mode='same')` (preprocessing_td.py:232-234) in double
precision. The mask holds zeros and ones, so the products are exact; `np.convolve` adds them in
the order of the samples of the mask and every addition is rounded. For up to eleven taps NumPy
uses a plain loop, as modelled here; longer ones may be added in another order. -/
def movingMeanF (mask : List Rat) (n : Nat) : List Rat :=
  (List.range mask.length).map fun i =>
    ((List.range n).map fun j =>
      (if n - 1 - j ≤ i + (n - 1) / 2 then mask.getD (i + (n - 1) / 2 - (n - 1 - j)) 0 else 0) * f64 (1 / n)).foldl
      (fun s x => f64 (s + x)) 0

noncomputable section
open Classical

/-- the weights of `mute` for one trace (preprocessing_td.py:227-243), where the moving average
of the mask is rounded. The taper is not rounded: it is only multiplied by zeros and ones here. -/
def muteWeightsF (args : MuteArgs) (ntap : Nat) (c : List ℝ) : List ℝ :=
  let mask : List Rat := c.map fun x => if |x| > args.thres c then 0 else 1
  let nmask : List ℝ :=
    if args.extendGaps then (movingMeanF mask ntap).map fun x => if x < 1 then 0 else 1
    else mask.map fun x => (x : ℝ)
  convSame nmask (muteTap ntap)

/-- `mute` (preprocessing_td.py:148-247) as in `mute`, with the rounded moving average. -/
def muteF (filt : List ℝ → List ℝ) (A : List (List ℝ)) (npts : Nat) (sr : Rat) (args : MuteArgs) :
    Except PyErr (List (List ℝ)) :=
  if args.taperLen = 0 then .error .valueError
  else
    let ntap := truncRat (args.taperLen * sr)
    if (npts : Int) ≤ ntap then .ok (A.map fun row => row.map fun _ => 0)
    else if ntap ≤ 0 then .error .valueError
    else .ok (A.map fun row => List.zipWith (· * ·) row (muteWeightsF args ntap.toNat (filt row)))

end
end SeisMIC
