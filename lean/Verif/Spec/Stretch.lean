import Verif.Py.Basic
import Mathlib.Analysis.SpecialFunctions.Sqrt
import Mathlib.Algebra.BigOperators.Group.Finset.Basic

/-! # Specification: similarity, lag windows, and alignment of references -/

namespace SeisMIC.Spec

/-- energy of a trace on a set of samples -/
noncomputable def energyOn (W : Finset Nat) (x : List ℝ) : ℝ := ∑ i ∈ W, x.getD i 0 ^ 2

/-- normalised correlation coefficient of two traces on a set of samples; undefined if one
of them vanishes there -/
noncomputable def coeff (W : Finset Nat) (f r : List ℝ) : Option ℝ :=
  if energyOn W f = 0 ∨ energyOn W r = 0 then none
  else some ((∑ i ∈ W, f.getD i 0 * r.getD i 0) / Real.sqrt (energyOn W f * energyOn W r))

/-- `corr` is the largest of the similarities and `value` the tested value it belongs to;
both are undefined if a similarity is -/
def IsBest (tested : List ℝ) (sims : List (Option ℝ)) (corr value : Option ℝ) : Prop :=
  (none ∈ sims → corr = none ∧ value = none) ∧
  (none ∉ sims → ∃ (k : Nat) (c v : ℝ), sims[k]? = some (some c) ∧ tested[k]? = some v ∧ corr = some c ∧
    value = some v ∧ (∀ (j : Nat) (c' : ℝ), sims[j]? = some (some c') → c' ≤ c) ∧
    (∀ (j : Nat) (c' : ℝ), j < k → sims[j]? = some (some c') → c' < c))

/-- the samples of a trace of `n` samples with zero lag in the centre that belong to the
lags `lags` (in samples) -/
def lagWindow (sides : Str) (n : Nat) (lags : List Int) : Finset Nat :=
  let c : Int := ((n : Int) - 1) / 2
  (Finset.range n).filter fun i : Nat =>
    if sides = c!"both" then |(i : Int) - c| ∈ lags
    else if sides = c!"left" then c - (i : Int) ∈ lags
    else if sides = c!"right" then (i : Int) - c ∈ lags
    else (i : Int) ∈ lags

/-- offset of reference `k` when the first is fixed at zero and `m` lists the others -/
def offset (m : List ℝ) (k : Nat) : ℝ := if k = 0 then 0 else m.getD (k - 1) 0

end SeisMIC.Spec
