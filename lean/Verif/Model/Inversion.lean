import Mathlib.LinearAlgebra.Matrix.NonsingularInverse
import Verif.Model.Kernel

/-!
# Model: inversion of velocity changes onto the grid (monitor/spatial.py)

Real numbers instead of floats. `G` holds the sensitivity kernels, one row for each datum; `ι`
numbers the data, `κ` the cells of the grid.
-/

namespace SeisMIC

noncomputable section

open Matrix

open Classical in
/-- `data_variance` (spatial.py:172-208) for one coherence. A coherence of zero (or larger than
one) yields inf (NaN); such data are not used (`extractOne`). -/
def dataVariance (corr bandwidth : ℝ) (tw : ℝ × ℝ) (freqC : ℝ) : Except PyErr ℝ :=
  if tw.1 < 0 ∨ tw.2 < 0 then .error .valueError
  else if tw.1 ≥ tw.2 then .error .valueError
  else if bandwidth ≤ 0 then .error .valueError
  else if freqC ≤ 0 then .error .valueError
  else
    let T := 1 / bandwidth
    let p1 := Real.sqrt (1 - corr ^ 2) / (2 * corr)
    let nom := 6 * Real.sqrt (Real.pi / 2) * T
    let denom := (2 * Real.pi * freqC) ^ 2 * (tw.2 ^ 3 - tw.1 ^ 3)
    .ok (p1 * Real.sqrt (nom / denom))

/-- `compute_cm` (spatial.py:211-240) with `_compute_dist_matrix` (spatial.py:845-857): `pos` are
the positions of the cells -/
def modelCovariance {κ : Type} (scaling corrLen stdModel : ℝ) (pos : κ → ℝ × ℝ) : Matrix κ κ ℝ :=
  Matrix.of fun i j => (stdModel * scaling / corrLen) ^ 2 * Real.exp (-planeDist (pos i) (pos j) / corrLen)

/-- `_compute_cd` (spatial.py:822-843): the squares on the diagonal -/
def dataCovariance {n : Nat} (corrs : Fin n → ℝ) (freq0 freq1 : ℝ) (tw : ℝ × ℝ) :
    Except PyErr (Matrix (Fin n) (Fin n) ℝ) := do
  let v ← (List.finRange n).mapM fun i => dataVariance (corrs i) (freq1 - freq0) tw ((freq1 + freq0) / 2)
  pure (Matrix.diagonal fun i => (v.getD i 0) ^ 2)

/-- `np.linalg.inv`; a singular matrix is a `LinAlgError` (here a `ValueError`, which it is
derived from) -/
def npInv {κ : Type} [Fintype κ] [DecidableEq κ] (M : Matrix κ κ ℝ) : Except PyErr (Matrix κ κ ℝ) :=
  open Classical in if IsUnit M.det then .ok M⁻¹ else .error .valueError

/-- the linear least-squares inversion in `compute_dv_grid` (spatial.py:473-479) -/
def invert {n : Nat} {κ : Type} [Fintype κ] (G : Matrix (Fin n) κ ℝ) (cm : Matrix κ κ ℝ) (cd : Matrix (Fin n) (Fin n) ℝ)
    (vals : Fin n → ℝ) : Except PyErr (κ → ℝ) := do
  let a := cm * Gᵀ
  let b ← npInv (G * cm * Gᵀ + cd)
  pure ((a * b) *ᵥ vals)

/-- `_compute_resolution` (spatial.py:716-724): sums of the rows of the resolution matrix -/
def resolution {n : Nat} {κ : Type} [Fintype κ] (G : Matrix (Fin n) κ ℝ) (cm : Matrix κ κ ℝ)
    (cd : Matrix (Fin n) (Fin n) ℝ) : Except PyErr (κ → ℝ) := do
  let a := cm * Gᵀ
  let b ← npInv (G * cm * Gᵀ + cd)
  pure fun k => ∑ j, (a * b * G) k j

/-- `_compute_posterior_covariance` (spatial.py:707-714) -/
def posteriorCovariance {n : Nat} {κ : Type} [Fintype κ] [DecidableEq κ] (G : Matrix (Fin n) κ ℝ) (cm : Matrix κ κ ℝ)
    (cd : Matrix (Fin n) (Fin n) ℝ) : Except PyErr (Matrix κ κ ℝ) := do
  let icd ← npInv cd
  let a := Gᵀ * icd * G
  let icm ← npInv cm
  npInv (a + icm)

/-- `compute_dv_grid` (spatial.py:388-482) after the extraction of the data and the computation of
the kernels -/
def computeDvGrid {n : Nat} {κ : Type} [Fintype κ] (G : Matrix (Fin n) κ ℝ) (pos : κ → ℝ × ℝ)
    (scaling corrLen stdModel freq0 freq1 : ℝ) (tw : ℝ × ℝ) (corrs vals : Fin n → ℝ) : Except PyErr (κ → ℝ) := do
  let cm := modelCovariance scaling corrLen stdModel pos
  let cd ← dataCovariance corrs freq0 freq1 tw
  invert G cm cd vals

/-- `compute_posterior_covariance` (spatial.py:645-705), likewise -/
def computePosterior {n : Nat} {κ : Type} [Fintype κ] [DecidableEq κ] (G : Matrix (Fin n) κ ℝ) (pos : κ → ℝ × ℝ)
    (scaling corrLen stdModel freq0 freq1 : ℝ) (tw : ℝ × ℝ) (corrs : Fin n → ℝ) : Except PyErr (Matrix κ κ ℝ) := do
  let cm := modelCovariance scaling corrLen stdModel pos
  let cd ← dataCovariance corrs freq0 freq1 tw
  posteriorCovariance G cm cd

end

end SeisMIC
