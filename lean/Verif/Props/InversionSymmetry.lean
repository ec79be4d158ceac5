import Verif.Props.Inversion
import Verif.Props.KernelUnits

/-!
# C217: superposition of data, units and coordinates in inversions
-/

namespace SeisMIC

open Matrix

noncomputable section

variable {n : Nat} {κ : Type} [Fintype κ]

/-! ### Superposition -/

/-- **C217** (superposition) For the same correlations, the grid of a sum of velocity changes is the sum of the grids, with any weights. -/
theorem c217_superposition (G : Matrix (Fin n) κ ℝ) (pos : κ → ℝ × ℝ) (scaling corrLen stdModel freq0 freq1 : ℝ) (tw : ℝ × ℝ) (corrs v w : Fin n → ℝ) (a b : ℝ)
    (m m' : κ → ℝ) (hv : computeDvGrid G pos scaling corrLen stdModel freq0 freq1 tw corrs v = .ok m)
    (hw : computeDvGrid G pos scaling corrLen stdModel freq0 freq1 tw corrs w = .ok m') :
    computeDvGrid G pos scaling corrLen stdModel freq0 freq1 tw corrs (fun i => a * v i + b * w i) = .ok (fun k => a * m k + b * m' k) := by
  unfold computeDvGrid at *
  cases hd : dataCovariance corrs freq0 freq1 tw with
  | error e => rw [hd] at hv; cases hv
  | ok cd =>
    rw [hd] at hv hw
    unfold invert at *
    simp only [bind, Except.bind] at *
    cases hi : npInv (G * modelCovariance scaling corrLen stdModel pos * Gᵀ + cd) with
    | error e => rw [hi] at hv; cases hv
    | ok N =>
      rw [hi] at hv hw
      injection hv with hv
      injection hw with hw
      subst hv
      subst hw
      refine congrArg Except.ok ?_
      have : (fun i => a * v i + b * w i) = a • v + b • w := rfl
      rw [this, mulVec_add, mulVec_smul, mulVec_smul]
      rfl

/-- an inversion that succeeds: two velocity changes on a grid of two points -/
example (G : Matrix (Fin 2) (Fin 2) ℝ) (v : Fin 2 → ℝ) :
    ∃ m, computeDvGrid G ![(0, 0), (1, 0)] 1 2 1 (1 / 2) 1 (10, 30) ![1 / 2, 3 / 4] v = .ok m := by
  obtain ⟨_, w, _, h, _⟩ := c97_inversion G ![(0, 0), (1, 0)] 1 2 1 (1 / 2) 1 (10, 30) ![1 / 2, 3 / 4] v (by norm_num)
    ⟨by norm_num, by norm_num, by norm_num, by norm_num⟩ (by intro i; fin_cases i <;> norm_num)
  exact ⟨_, h⟩

/-! ### Units and coordinates -/

theorem dataVariance_time {c : ℝ} (hc : 0 < c) (corr bandwidth : ℝ) (tw : ℝ × ℝ) (freqC : ℝ) :
    dataVariance corr (bandwidth / c) (c * tw.1, c * tw.2) (freqC / c) = dataVariance corr bandwidth tw freqC := by
  have h1 : ∀ t : ℝ, c * t < 0 ↔ t < 0 := by
    intro t
    simp [mul_neg_iff, hc, not_lt.2 hc.le]
  have h2 : c * tw.1 ≥ c * tw.2 ↔ tw.1 ≥ tw.2 := mul_le_mul_iff_right₀ hc
  have h3 : ∀ t : ℝ, t / c ≤ 0 ↔ t ≤ 0 := by
    intro t
    rw [div_le_iff₀ hc, zero_mul]
  have h4 : 6 * Real.sqrt (Real.pi / 2) * (1 / (bandwidth / c)) / ((2 * Real.pi * (freqC / c)) ^ 2 * ((c * tw.2) ^ 3 - (c * tw.1) ^ 3)) =
      6 * Real.sqrt (Real.pi / 2) * (1 / bandwidth) / ((2 * Real.pi * freqC) ^ 2 * (tw.2 ^ 3 - tw.1 ^ 3)) := by
    have e1 : 6 * Real.sqrt (Real.pi / 2) * (1 / (bandwidth / c)) = c * (6 * Real.sqrt (Real.pi / 2) * (1 / bandwidth)) := by
      rw [one_div_div]
      ring
    have e2 : (2 * Real.pi * (freqC / c)) ^ 2 * ((c * tw.2) ^ 3 - (c * tw.1) ^ 3) = c * ((2 * Real.pi * freqC) ^ 2 * (tw.2 ^ 3 - tw.1 ^ 3)) := by
      field_simp
    rw [e1, e2, mul_div_mul_left _ _ hc.ne']
  unfold dataVariance
  simp only [h1, h2, h3, h4]

theorem dataCovariance_time {c : ℝ} (hc : 0 < c) (corrs : Fin n → ℝ) (freq0 freq1 : ℝ) (tw : ℝ × ℝ) :
    dataCovariance corrs (freq0 / c) (freq1 / c) (c * tw.1, c * tw.2) = dataCovariance corrs freq0 freq1 tw := by
  have h1 : freq1 / c - freq0 / c = (freq1 - freq0) / c := by ring
  have h2 : (freq1 / c + freq0 / c) / 2 = (freq1 + freq0) / 2 / c := by ring
  unfold dataCovariance
  simp only [h1, h2, dataVariance_time hc]

theorem modelCovariance_length {κ : Type} {k : ℝ} (hk : 0 < k) (scaling corrLen stdModel : ℝ) (pos : κ → ℝ × ℝ) :
    modelCovariance (k * scaling) (k * corrLen) stdModel (fun i => (k * (pos i).1, k * (pos i).2)) = modelCovariance scaling corrLen stdModel pos := by
  have h1 : stdModel * (k * scaling) / (k * corrLen) = stdModel * scaling / corrLen := by
    rw [mul_left_comm, mul_div_mul_left _ _ hk.ne']
  unfold modelCovariance
  simp only [h1, planeDist_length hk, ← mul_neg, mul_div_mul_left _ _ hk.ne']

/-- **C217** (units) Apart from the kernels, the units of time (of window and frequencies) and of length (of positions, correlation length and scaling factor) and the
origin of the coordinates have no influence on the inverted grid and its uncertainty. -/
theorem c217_units [DecidableEq κ] {c k : ℝ} (hc : 0 < c) (hk : 0 < k) (o : ℝ × ℝ) (G : Matrix (Fin n) κ ℝ) (pos : κ → ℝ × ℝ) (scaling corrLen stdModel freq0 freq1 : ℝ) (tw : ℝ × ℝ)
    (corrs vals : Fin n → ℝ) :
    computeDvGrid G (fun i => (k * (pos i + o).1, k * (pos i + o).2)) (k * scaling) (k * corrLen) stdModel (freq0 / c) (freq1 / c) (c * tw.1, c * tw.2) corrs vals =
      computeDvGrid G pos scaling corrLen stdModel freq0 freq1 tw corrs vals ∧
    computePosterior G (fun i => (k * (pos i + o).1, k * (pos i + o).2)) (k * scaling) (k * corrLen) stdModel (freq0 / c) (freq1 / c) (c * tw.1, c * tw.2) corrs =
      computePosterior G pos scaling corrLen stdModel freq0 freq1 tw corrs := by
  have hm : modelCovariance (k * scaling) (k * corrLen) stdModel (fun i => (k * (pos i + o).1, k * (pos i + o).2)) = modelCovariance scaling corrLen stdModel pos := by
    rw [modelCovariance_length hk scaling corrLen stdModel fun i => pos i + o]
    unfold modelCovariance
    simp only [planeDist_moved]
  unfold computeDvGrid computePosterior
  simp only [hm, dataCovariance_time hc, and_self]

end

end SeisMIC
