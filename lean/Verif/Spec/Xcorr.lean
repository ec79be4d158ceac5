import Mathlib.Data.Real.Basic
import Mathlib.Data.Rat.Cast.Defs
import Mathlib.Algebra.BigOperators.Group.Finset.Basic

/-!
# Specification of the cross-correlation of two sampled signals
-/

namespace SeisMIC
namespace Xcorr

open Finset

/-- sample number `i` of a signal that is zero outside of `x` -/
def sampleAt (x : List ℝ) (i : ℤ) : ℝ := if 0 ≤ i then x.getD i.toNat 0 else 0

/-- linear cross-correlation at lag `l` (in samples): `Σ_j x_j y_{j+l}` -/
def linCorr (x y : List ℝ) (l : ℤ) : ℝ :=
  ∑ j ∈ range x.length, x.getD j 0 * sampleAt y (j + l)

/-- periodic cross-correlation at lag `l`: the signals have the period
`y.length` -/
def circCorr (x y : List ℝ) (l : ℤ) : ℝ :=
  ∑ j ∈ range x.length, x.getD j 0 * y.getD (((j : ℤ) + l) % y.length).toNat 0

/-- energy of a signal -/
def energy (x : List ℝ) : ℝ := ∑ j ∈ range x.length, x.getD j 0 ^ 2

/-- value at time `t` (in seconds) of a signal `y` that starts at `start`, with
sampling rate `sr`; zero outside of the signal and between the samples -/
def valueAt (start sr : Rat) (y : List ℝ) (t : Rat) : ℝ :=
  if ((t - start) * sr).den = 1 then sampleAt y ((t - start) * sr).num else 0

/-- The correlation of two recordings at the lag `τ` seconds: each sample of `x`
is multiplied by the value that `y` has `τ` seconds later. -/
def corrAtLag (start0 start1 sr : Rat) (x y : List ℝ) (τ : Rat) : ℝ :=
  ∑ j ∈ range x.length, x.getD j 0 * valueAt start1 sr y (start0 + j / sr + τ)

end Xcorr
end SeisMIC
