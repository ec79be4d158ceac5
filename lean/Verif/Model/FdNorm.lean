import Verif.Model.Xcorr
import Mathlib.Analysis.SpecialFunctions.Trigonometric.Basic
import Mathlib.Data.Real.Sign

/-!
# Model: filter and sign bit normalisation in the frequency domain (preprocessing_fd.py:23-77)

Spectra are lists of complex numbers, one for each trace. Rounding is not modelled, nor are NaN.
-/

namespace SeisMIC

noncomputable section

open Xcorr

/-- `FDsignBitNormalization` (preprocessing_fd.py:52-77); the argument is not changed -/
def fdSignBit (B : List (List ℂ)) : Except PyErr (List (List ℂ)) :=
  B.mapM fun row => do
    let x ← irfft row
    .ok (rfft (x.map Real.sign))

/-- `np.argmin(abs(freqs - f))`: the first index of the nearest frequency -/
def nearestIdx (freqs : List Rat) (f : Rat) : Nat :=
  freqs.findIdx fun x => freqs.all fun y => decide (|x - f| ≤ |y - f|)

/-- `obspy.signal.invsim.cosine_taper(npts, freqs=freqs, flimit=flimit)` (used in preprocessing_fd.py:47): the weights. If two corners are
nearest to the same frequency, one is moved by one. If it is then outside of the array, the assignment of a value fails. -/
def fdTaper (freqs : List Rat) (f1 f2 f3 f4 : Rat) : Except PyErr (List ℝ) :=
  if freqs = [] then .error .valueError
  else
    let i1 := nearestIdx freqs f1
    let i2 := nearestIdx freqs f2
    let i3 := nearestIdx freqs f3
    let i4 := nearestIdx freqs f4
    if (i1 = i2 ∧ i1 + 1 = freqs.length) ∨ (i3 = i4 ∧ i3 = 0) then .error .valueError
    else
      let i2 := if i1 = i2 then i2 + 1 else i2
      let i3 := if i3 = i4 then i3 - 1 else i3
      .ok ((List.range freqs.length).map fun k : Nat =>
        if i3 ≤ k ∧ k ≤ i4 then 1 / 2 * (1 + Real.cos (Real.pi * ((i3 : ℝ) - k) / ((i4 : ℝ) - i3)))
        else if i2 < k ∧ k < i3 then 1
        else if i1 ≤ k ∧ k ≤ i2 then 1 / 2 * (1 - Real.cos (Real.pi * ((k : ℝ) - i1) / ((i2 : ℝ) - i1)))
        else 0)

/-- `FDfilter` (preprocessing_fd.py:23-49) -/
def fdFilter (freqs : List Rat) (f1 f2 f3 f4 : Rat) (B : List (List ℂ)) : Except PyErr (List (List ℂ)) := do
  let tap ← fdTaper freqs f1 f2 f3 f4
  .ok (B.map fun row => List.zipWith (fun (z : ℂ) (t : ℝ) => z * t) row tap)

end

end SeisMIC
