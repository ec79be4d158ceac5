import Verif.Model.Inversion
import Verif.Lemmas.ExpKernel
import Verif.Lemmas.ListAux
import Mathlib.Tactic.FieldSimp

/-!
# C97, C98, C99: inversion onto the grid
-/

namespace SeisMIC

noncomputable section

open Matrix

/-! ### C98 -/

/-- times, bandwidth and frequency are valid -/
structure VarianceInput (bandwidth : ℝ) (tw : ℝ × ℝ) (freqC : ℝ) : Prop where
  tw_nonneg : 0 ≤ tw.1
  tw_lt : tw.1 < tw.2
  bandwidth_pos : 0 < bandwidth
  freq_pos : 0 < freqC

/-- the factor that does not depend on the coherence -/
def varianceFactor (bandwidth : ℝ) (tw : ℝ × ℝ) (freqC : ℝ) : ℝ :=
  Real.sqrt (6 * Real.sqrt (Real.pi / 2) * (1 / bandwidth) / ((2 * Real.pi * freqC) ^ 2 * (tw.2 ^ 3 - tw.1 ^ 3)))

theorem varianceFactor_pos {bandwidth : ℝ} {tw : ℝ × ℝ} {freqC : ℝ} (h : VarianceInput bandwidth tw freqC) :
    0 < varianceFactor bandwidth tw freqC := by
  have h1 := h.bandwidth_pos; have h2 := h.freq_pos; have hp := Real.pi_pos
  have h3 : 0 < tw.2 ^ 3 - tw.1 ^ 3 := sub_pos.2 (pow_lt_pow_left₀ h.tw_lt h.tw_nonneg (by norm_num))
  unfold varianceFactor
  apply Real.sqrt_pos.2
  positivity

theorem dataVariance_ok {corr bandwidth : ℝ} {tw : ℝ × ℝ} {freqC : ℝ} (h : VarianceInput bandwidth tw freqC) :
    dataVariance corr bandwidth tw freqC =
      .ok (Real.sqrt (1 - corr ^ 2) / (2 * corr) * varianceFactor bandwidth tw freqC) := by
  have h1 := h.tw_nonneg; have h2 := h.tw_lt; have h3 := h.bandwidth_pos; have h4 := h.freq_pos
  unfold dataVariance
  rw [if_neg (by rintro (h | h) <;> linarith), if_neg (by linarith), if_neg (by linarith), if_neg (by linarith)]
  rfl

/-- C98 (variance): data with a coherence between zero and one have a positive variance, and it
is smaller for a larger coherence. -/
theorem c98_variance {bandwidth : ℝ} {tw : ℝ × ℝ} {freqC : ℝ} (h : VarianceInput bandwidth tw freqC)
    (c c' : ℝ) (h0 : 0 < c) (h1 : c < c') (h2 : c' < 1) :
    ∃ v v', dataVariance c bandwidth tw freqC = .ok v ∧ dataVariance c' bandwidth tw freqC = .ok v' ∧ 0 < v' ∧ v' < v := by
  refine ⟨_, _, dataVariance_ok h, dataVariance_ok h, ?_, ?_⟩
  · have hf := varianceFactor_pos h
    have hs : 0 < Real.sqrt (1 - c' ^ 2) := Real.sqrt_pos.2 (by nlinarith)
    have : 0 < c' := by linarith
    positivity
  · refine mul_lt_mul_of_pos_right ?_ (varianceFactor_pos h)
    have hs : Real.sqrt (1 - c' ^ 2) ≤ Real.sqrt (1 - c ^ 2) := Real.sqrt_le_sqrt (by nlinarith)
    have hp : 0 < Real.sqrt (1 - c ^ 2) := Real.sqrt_pos.2 (by nlinarith)
    refine lt_of_le_of_lt (div_le_div_of_nonneg_right hs (by linarith)) ?_
    exact div_lt_div_of_pos_left hp (by linarith) (by linarith)

/-- C98 (arguments): impossible windows, bandwidths and frequencies are rejected. -/
theorem c98_rejected (c bandwidth : ℝ) (tw : ℝ × ℝ) (freqC : ℝ)
    (h : tw.1 < 0 ∨ tw.2 ≤ tw.1 ∨ bandwidth ≤ 0 ∨ freqC ≤ 0) :
    dataVariance c bandwidth tw freqC = .error .valueError := by
  unfold dataVariance
  by_cases h1 : tw.1 < 0 ∨ tw.2 < 0
  · rw [if_pos h1]
  · rw [if_neg h1]
    by_cases h2 : tw.1 ≥ tw.2
    · rw [if_pos h2]
    · rw [if_neg h2]
      by_cases h3 : bandwidth ≤ 0
      · rw [if_pos h3]
      · rw [if_neg h3]
        by_cases h4 : freqC ≤ 0
        · rw [if_pos h4]
        · exfalso
          rcases h with h | h | h | h
          · exact h1 (.inl h)
          · exact h2 h
          · exact h3 h
          · exact h4 h

/-- window from 10 to 20 s, 0.5 to 1 Hz -/
example : VarianceInput (1 - 1 / 2) (10, 20) ((1 + 1 / 2) / 2) := ⟨by norm_num, by norm_num, by norm_num, by norm_num⟩

/-! ### C97 -/

theorem modelCovariance_posSemidef {κ : Type} [Fintype κ] (scaling corrLen stdModel : ℝ) (hL : 0 < corrLen) (pos : κ → ℝ × ℝ) :
    (modelCovariance scaling corrLen stdModel pos).PosSemidef := by
  refine posSemidef_of_form ?_ ?_
  · intro i j
    simp only [modelCovariance, Matrix.of_apply]
    congr 3
    unfold planeDist
    congr 2
    ring
  · intro c
    have := exp_dist_form pos corrLen hL c
    simp only [modelCovariance, Matrix.of_apply]
    have e : ∑ i, ∑ j, c i * c j * ((stdModel * scaling / corrLen) ^ 2 * Real.exp (-planeDist (pos i) (pos j) / corrLen)) =
        (stdModel * scaling / corrLen) ^ 2 * ∑ i, ∑ j, c i * c j * Real.exp (-planeDist (pos i) (pos j) / corrLen) := by
      rw [Finset.mul_sum]
      refine Finset.sum_congr rfl fun i _ => ?_
      rw [Finset.mul_sum]
      refine Finset.sum_congr rfl fun j _ => by ring
    rw [e]; positivity

theorem modelCovariance_posDef {κ : Type} [Fintype κ] (scaling corrLen stdModel : ℝ) (hL : 0 < corrLen)
    (hs : stdModel * scaling ≠ 0) (pos : κ → ℝ × ℝ) (hpos : Function.Injective pos) :
    (modelCovariance scaling corrLen stdModel pos).PosDef := by
  classical
  have hC := modelCovariance_posSemidef scaling corrLen stdModel hL pos
  refine Matrix.PosDef.of_dotProduct_mulVec_pos hC.isHermitian fun {c} hc => ?_
  refine lt_of_le_of_ne (hC.dotProduct_mulVec_nonneg c) fun h => hc ?_
  refine exp_dist_pos pos hpos corrLen hL c ?_
  have hk : (stdModel * scaling / corrLen) ^ 2 ≠ 0 := pow_ne_zero _ (div_ne_zero hs hL.ne')
  have e : star c ⬝ᵥ modelCovariance scaling corrLen stdModel pos *ᵥ c =
      (stdModel * scaling / corrLen) ^ 2 * ∑ i, ∑ j, c i * c j * Real.exp (-planeDist (pos i) (pos j) / corrLen) := by
    simp only [dotProduct, Matrix.mulVec, Pi.star_apply, star_trivial, modelCovariance, Matrix.of_apply]
    rw [Finset.mul_sum]
    refine Finset.sum_congr rfl fun i _ => ?_
    rw [Finset.mul_sum, Finset.mul_sum]
    refine Finset.sum_congr rfl fun j _ => by ring
  rw [e] at h
  exact (mul_eq_zero.1 h.symm).resolve_left hk

/-- misfit of the data: residuals in units of the standard deviations `σ` -/
def misfit {n : Nat} {κ : Type} [Fintype κ] (G : Matrix (Fin n) κ ℝ) (σ d : Fin n → ℝ) (m : κ → ℝ) : ℝ :=
  ∑ i, ((d i - ∑ k, G i k * m k) / σ i) ^ 2

/-- a-priori cost of the model `C w`; this is `mᵀ C⁻¹ m` if `C` is invertible -/
def priorCost {κ : Type} [Fintype κ] (C : Matrix κ κ ℝ) (w : κ → ℝ) : ℝ := w ⬝ᵥ (C *ᵥ w)

theorem dataCovariance_ok {n : Nat} {corrs : Fin n → ℝ} {freq0 freq1 : ℝ} {tw : ℝ × ℝ}
    (h : VarianceInput (freq1 - freq0) tw ((freq1 + freq0) / 2)) :
    dataCovariance corrs freq0 freq1 tw = .ok (Matrix.diagonal fun i =>
      (Real.sqrt (1 - corrs i ^ 2) / (2 * corrs i) * varianceFactor (freq1 - freq0) tw ((freq1 + freq0) / 2)) ^ 2) := by
  unfold dataCovariance
  rw [mapM_ok _ _ (fun i => Real.sqrt (1 - corrs i ^ 2) / (2 * corrs i) * varianceFactor (freq1 - freq0) tw ((freq1 + freq0) / 2))
    (fun i _ => dataVariance_ok h)]
  change Except.ok _ = _
  congr 2
  funext i
  congr 1
  simp [List.getD_eq_getElem?_getD]

theorem npInv_ok {κ : Type} [Fintype κ] [DecidableEq κ] {M : Matrix κ κ ℝ} (h : M.PosDef) : npInv M = .ok M⁻¹ := by
  unfold npInv
  rw [if_pos ((Matrix.isUnit_iff_isUnit_det _).1 h.isUnit)]

theorem invert_spec {n : Nat} {κ : Type} [Fintype κ] (G : Matrix (Fin n) κ ℝ) (C : Matrix κ κ ℝ) (hC : C.PosSemidef)
    (σ d : Fin n → ℝ) (hσ : ∀ i, 0 < σ i) :
    ∃ w, invert G C (Matrix.diagonal fun i => σ i ^ 2) d = .ok (C *ᵥ w) ∧
      ∀ w', misfit G σ d (C *ᵥ w) + priorCost C w + (∑ i, (((G * C) *ᵥ (w' - w)) i / σ i) ^ 2) + priorCost C (w' - w) =
        misfit G σ d (C *ᵥ w') + priorCost C w' := by
  have hD : (Matrix.diagonal fun i => σ i ^ 2).PosDef := by
    rw [Matrix.posDef_diagonal_iff]
    intro i; have := hσ i; positivity
  have hS : (G * C * Gᵀ + Matrix.diagonal fun i => σ i ^ 2).PosDef := by
    have h1 : (G * C * Gᵀ).PosSemidef := by
      have := hC.mul_mul_conjTranspose_same G
      simpa using this
    exact hD.posSemidef_add h1
  set S := G * C * Gᵀ + Matrix.diagonal fun i => σ i ^ 2 with hSdef
  have hdet : IsUnit S.det := (Matrix.isUnit_iff_isUnit_det _).1 hS.isUnit
  set lam := S⁻¹ *ᵥ d with hlam
  have hSl : S *ᵥ lam = d := by
    rw [hlam, Matrix.mulVec_mulVec, Matrix.mul_nonsing_inv _ hdet, Matrix.one_mulVec]
  refine ⟨Gᵀ *ᵥ lam, ?_, ?_⟩
  · unfold invert
    rw [npInv_ok hS]
    change Except.ok _ = _
    rw [Matrix.mulVec_mulVec, hlam, Matrix.mulVec_mulVec, Matrix.mul_assoc]
  · intro w'
    set w := Gᵀ *ᵥ lam with hw
    set h := w' - w with hh
    have hw' : w' = w + h := by rw [hh]; abel
    have hres : ∀ i, d i - (G *ᵥ (C *ᵥ w)) i = σ i ^ 2 * lam i := by
      intro i
      have : S *ᵥ lam = G *ᵥ (C *ᵥ w) + (Matrix.diagonal fun i => σ i ^ 2) *ᵥ lam := by
        rw [hSdef, Matrix.add_mulVec, hw, ← Matrix.mulVec_mulVec, ← Matrix.mulVec_mulVec]
      have := congrFun (hSl.symm.trans this) i
      rw [this]
      simp [Matrix.mulVec_diagonal]
    have hG : ∀ (m : κ → ℝ) i, ∑ k, G i k * m k = (G *ᵥ m) i := fun m i => rfl
    have hcross : ∑ i, lam i * ((G * C) *ᵥ h) i = w ⬝ᵥ (C *ᵥ h) := by
      have : ∑ i, lam i * ((G * C) *ᵥ h) i = lam ⬝ᵥ (G *ᵥ (C *ᵥ h)) := by
        rw [Matrix.mulVec_mulVec]; rfl
      rw [this, Matrix.dotProduct_mulVec, hw, Matrix.mulVec_transpose]
    have hsym : h ⬝ᵥ (C *ᵥ w) = w ⬝ᵥ (C *ᵥ h) := by
      rw [Matrix.dotProduct_mulVec, ← Matrix.mulVec_transpose, dotProduct_comm]
      have := hC.isHermitian
      rw [Matrix.IsHermitian, Matrix.conjTranspose_eq_transpose_of_trivial] at this
      rw [this]
    have hprior : priorCost C w' = priorCost C w + 2 * (w ⬝ᵥ (C *ᵥ h)) + priorCost C h := by
      unfold priorCost
      rw [hw', Matrix.mulVec_add, add_dotProduct, dotProduct_add, dotProduct_add, hsym]; ring
    have hmis : misfit G σ d (C *ᵥ w') = misfit G σ d (C *ᵥ w) - 2 * (∑ i, lam i * ((G * C) *ᵥ h) i)
        + ∑ i, (((G * C) *ᵥ h) i / σ i) ^ 2 := by
      unfold misfit
      rw [Finset.mul_sum, ← Finset.sum_sub_distrib, ← Finset.sum_add_distrib]
      refine Finset.sum_congr rfl fun i _ => ?_
      have hs := hσ i
      have e1 : (G *ᵥ (C *ᵥ w')) i = (G *ᵥ (C *ᵥ w)) i + ((G * C) *ᵥ h) i := by
        rw [hw', Matrix.mulVec_add, Matrix.mulVec_add, Matrix.mulVec_mulVec (v := h)]; rfl
      rw [hG, hG, e1]
      have e2 : d i - ((G *ᵥ (C *ᵥ w)) i + ((G * C) *ᵥ h) i) = σ i ^ 2 * lam i - ((G * C) *ᵥ h) i := by
        rw [← hres i]; ring
      rw [e2, hres i]
      field_simp
      ring
    rw [hmis, hprior, hcross]; ring

/-- C97 (existence and minimum): for data with coherences between zero and one, any kernels, any
grid and any positive correlation length the inversion succeeds. The result minimises the sum of
the misfit and of the a-priori cost among all models of the a-priori covariance, and all other
minimisers are equal to it. -/
theorem c97_inversion {n : Nat} {κ : Type} [Fintype κ] (G : Matrix (Fin n) κ ℝ) (pos : κ → ℝ × ℝ)
    (scaling corrLen stdModel freq0 freq1 : ℝ) (tw : ℝ × ℝ) (corrs vals : Fin n → ℝ)
    (hL : 0 < corrLen) (hv : VarianceInput (freq1 - freq0) tw ((freq1 + freq0) / 2))
    (hc : ∀ i, 0 < corrs i ∧ corrs i < 1) :
    ∃ (σ : Fin n → ℝ) (w : κ → ℝ),
      (∀ i, dataVariance (corrs i) (freq1 - freq0) tw ((freq1 + freq0) / 2) = .ok (σ i)) ∧
      computeDvGrid G pos scaling corrLen stdModel freq0 freq1 tw corrs vals =
        .ok (modelCovariance scaling corrLen stdModel pos *ᵥ w) ∧
      ∀ w', let C := modelCovariance scaling corrLen stdModel pos
        misfit G σ vals (C *ᵥ w) + priorCost C w ≤ misfit G σ vals (C *ᵥ w') + priorCost C w' ∧
        (misfit G σ vals (C *ᵥ w') + priorCost C w' ≤ misfit G σ vals (C *ᵥ w) + priorCost C w → C *ᵥ w' = C *ᵥ w) := by
  have hC := modelCovariance_posSemidef scaling corrLen stdModel hL pos
  set σ : Fin n → ℝ := fun i => Real.sqrt (1 - corrs i ^ 2) / (2 * corrs i) *
    varianceFactor (freq1 - freq0) tw ((freq1 + freq0) / 2) with hσd
  have hσ : ∀ i, 0 < σ i := by
    intro i
    obtain ⟨h0, h1⟩ := hc i
    have hs : 0 < Real.sqrt (1 - corrs i ^ 2) := Real.sqrt_pos.2 (by nlinarith)
    have hf := varianceFactor_pos hv
    simp only [hσd]
    positivity
  obtain ⟨w, hw, hmin⟩ := invert_spec G _ hC σ vals hσ
  refine ⟨σ, w, fun i => dataVariance_ok hv, ?_, ?_⟩
  · unfold computeDvGrid
    rw [dataCovariance_ok hv]
    exact hw
  · intro w'
    have hm := hmin w'
    have h1 : 0 ≤ ∑ i, (((G * modelCovariance scaling corrLen stdModel pos) *ᵥ (w' - w)) i / σ i) ^ 2 :=
      Finset.sum_nonneg fun i _ => sq_nonneg _
    have h2 : 0 ≤ priorCost (modelCovariance scaling corrLen stdModel pos) (w' - w) := by
      have := hC.dotProduct_mulVec_nonneg (w' - w)
      simpa [priorCost] using this
    refine ⟨by linarith, fun hle => ?_⟩
    have h3 : priorCost (modelCovariance scaling corrLen stdModel pos) (w' - w) = 0 := by linarith
    have h4 := (hC.dotProduct_mulVec_zero_iff (w' - w)).1 (by simpa [priorCost] using h3)
    rw [Matrix.mulVec_sub] at h4
    exact sub_eq_zero.1 h4

/-- C97 (all models): on a grid of distinct cells and with a standard deviation other than zero
the covariance `C` is invertible, and the result `m` is the only minimum of misfit plus
`mᵀ C⁻¹ m` among all models. -/
theorem c97_all_models {n : Nat} {κ : Type} [Fintype κ] [DecidableEq κ] (G : Matrix (Fin n) κ ℝ) (pos : κ → ℝ × ℝ)
    (scaling corrLen stdModel freq0 freq1 : ℝ) (tw : ℝ × ℝ) (corrs vals : Fin n → ℝ)
    (hL : 0 < corrLen) (hv : VarianceInput (freq1 - freq0) tw ((freq1 + freq0) / 2))
    (hc : ∀ i, 0 < corrs i ∧ corrs i < 1) (hs : stdModel * scaling ≠ 0) (hpos : Function.Injective pos) :
    ∃ (σ : Fin n → ℝ) (m : κ → ℝ),
      (∀ i, dataVariance (corrs i) (freq1 - freq0) tw ((freq1 + freq0) / 2) = .ok (σ i)) ∧
      computeDvGrid G pos scaling corrLen stdModel freq0 freq1 tw corrs vals = .ok m ∧
      IsUnit (modelCovariance scaling corrLen stdModel pos) ∧
      ∀ m', m' ≠ m → let Ci := (modelCovariance scaling corrLen stdModel pos)⁻¹
        misfit G σ vals m + m ⬝ᵥ (Ci *ᵥ m) < misfit G σ vals m' + m' ⬝ᵥ (Ci *ᵥ m') := by
  have hC := modelCovariance_posDef scaling corrLen stdModel hL hs pos hpos
  have hdet := (Matrix.isUnit_iff_isUnit_det _).1 hC.isUnit
  obtain ⟨σ, w, h1, h2, h3⟩ := c97_inversion G pos scaling corrLen stdModel freq0 freq1 tw corrs vals hL hv hc
  have key : ∀ w, priorCost (modelCovariance scaling corrLen stdModel pos) w =
      (modelCovariance scaling corrLen stdModel pos *ᵥ w) ⬝ᵥ ((modelCovariance scaling corrLen stdModel pos)⁻¹ *ᵥ
        (modelCovariance scaling corrLen stdModel pos *ᵥ w)) := by
    intro w
    rw [Matrix.mulVec_mulVec, Matrix.nonsing_inv_mul _ hdet, Matrix.one_mulVec, priorCost, dotProduct_comm]
  refine ⟨σ, _, h1, h2, hC.isUnit, fun m' hm' => ?_⟩
  obtain ⟨h4, h5⟩ := h3 ((modelCovariance scaling corrLen stdModel pos)⁻¹ *ᵥ m')
  have e : modelCovariance scaling corrLen stdModel pos *ᵥ (modelCovariance scaling corrLen stdModel pos)⁻¹ *ᵥ m' = m' := by
    rw [Matrix.mulVec_mulVec, Matrix.mul_nonsing_inv _ hdet, Matrix.one_mulVec]
  rw [key, key, e] at h4 h5
  exact lt_of_not_ge fun h => hm' (h5 h)

/-- the cells of a grid are distinct -/
example : Function.Injective (fun p : Fin 3 × Fin 2 => ((p.1 : ℝ) * 2, (p.2 : ℝ) * 2)) := by
  rintro ⟨⟨a, ha⟩, ⟨b, hb⟩⟩ ⟨⟨c, hc⟩, ⟨d, hd⟩⟩ h
  simp at h
  simp [h]

/-- C99 (resolution): the resolution is what the inversion makes of the data of a uniform model:
of the forward model of a grid of ones. -/
theorem c99_resolution {n : Nat} {κ : Type} [Fintype κ] (G : Matrix (Fin n) κ ℝ) (C : Matrix κ κ ℝ)
    (D : Matrix (Fin n) (Fin n) ℝ) :
    resolution G C D = invert G C D (fun i => ∑ k, G i k * 1) := by
  unfold resolution invert
  cases h : npInv (G * C * Gᵀ + D) with
  | error e => rfl
  | ok b =>
    change Except.ok _ = Except.ok _
    congr 1
    funext k
    have : (fun i => ∑ k, G i k * 1) = G *ᵥ (fun _ => (1 : ℝ)) := rfl
    rw [this, Matrix.mulVec_mulVec]
    simp [Matrix.mulVec, dotProduct]

/-- C100 (posterior): on a grid of distinct cells the posterior covariance exists. It is
positive definite and is not larger than the a-priori covariance: no combination of cells gets a
larger variance. The inverted model is its product with the weighted data. -/
theorem c100_posterior {n : Nat} {κ : Type} [Fintype κ] [DecidableEq κ] (G : Matrix (Fin n) κ ℝ) (pos : κ → ℝ × ℝ)
    (scaling corrLen stdModel freq0 freq1 : ℝ) (tw : ℝ × ℝ) (corrs vals : Fin n → ℝ)
    (hL : 0 < corrLen) (hv : VarianceInput (freq1 - freq0) tw ((freq1 + freq0) / 2))
    (hc : ∀ i, 0 < corrs i ∧ corrs i < 1) (hs : stdModel * scaling ≠ 0) (hpos : Function.Injective pos) :
    ∃ (P : Matrix κ κ ℝ) (σ : Fin n → ℝ),
      (∀ i, dataVariance (corrs i) (freq1 - freq0) tw ((freq1 + freq0) / 2) = .ok (σ i)) ∧
      computePosterior G pos scaling corrLen stdModel freq0 freq1 tw corrs = .ok P ∧
      P.PosDef ∧
      (∀ c : κ → ℝ, c ⬝ᵥ (P *ᵥ c) ≤ c ⬝ᵥ (modelCovariance scaling corrLen stdModel pos *ᵥ c)) ∧
      computeDvGrid G pos scaling corrLen stdModel freq0 freq1 tw corrs vals =
        .ok (P *ᵥ fun k => ∑ i, G i k * (vals i / σ i ^ 2)) := by
  have hC := modelCovariance_posDef scaling corrLen stdModel hL hs pos hpos
  set C := modelCovariance scaling corrLen stdModel pos with hCd
  set σ : Fin n → ℝ := fun i => Real.sqrt (1 - corrs i ^ 2) / (2 * corrs i) *
    varianceFactor (freq1 - freq0) tw ((freq1 + freq0) / 2) with hσd
  have hσ : ∀ i, 0 < σ i := by
    intro i
    obtain ⟨h0, h1⟩ := hc i
    have hs : 0 < Real.sqrt (1 - corrs i ^ 2) := Real.sqrt_pos.2 (by nlinarith)
    have hf := varianceFactor_pos hv
    simp only [hσd]
    positivity
  set D : Matrix (Fin n) (Fin n) ℝ := Matrix.diagonal fun i => σ i ^ 2 with hDd
  have hD : D.PosDef := by
    rw [hDd, Matrix.posDef_diagonal_iff]
    intro i; have := hσ i; positivity
  have hS : (D + G * C * Gᵀ).PosDef := by
    have h1 : (G * C * Gᵀ).PosSemidef := by
      have := hC.posSemidef.mul_mul_conjTranspose_same G
      simpa using this
    exact hD.add_posSemidef h1
  have hQ : (Gᵀ * D⁻¹ * G + C⁻¹).PosDef := by
    have h1 : (Gᵀ * D⁻¹ * G).PosSemidef := by
      have := hD.inv.posSemidef.conjTranspose_mul_mul_same G
      simpa using this
    exact hC.inv.posSemidef_add h1
  have hCu := (Matrix.isUnit_iff_isUnit_det _).1 hC.isUnit
  have hDu := (Matrix.isUnit_iff_isUnit_det _).1 hD.isUnit
  have hQu := (Matrix.isUnit_iff_isUnit_det _).1 hQ.isUnit
  have hSu := (Matrix.isUnit_iff_isUnit_det _).1 hS.isUnit
  have hwood : (Gᵀ * D⁻¹ * G + C⁻¹)⁻¹ = C - C * Gᵀ * (D + G * C * Gᵀ)⁻¹ * G * C := by
    have := Matrix.add_mul_mul_inv_eq_sub C⁻¹ Gᵀ D⁻¹ G hC.inv.isUnit hD.inv.isUnit (by
      rw [Matrix.nonsing_inv_nonsing_inv _ hDu, Matrix.nonsing_inv_nonsing_inv _ hCu]; exact hS.isUnit)
    rw [Matrix.nonsing_inv_nonsing_inv _ hDu, Matrix.nonsing_inv_nonsing_inv _ hCu] at this
    rw [add_comm, this]
  have hcov : dataCovariance corrs freq0 freq1 tw = .ok D := dataCovariance_ok hv
  refine ⟨(Gᵀ * D⁻¹ * G + C⁻¹)⁻¹, σ, fun i => dataVariance_ok hv, ?_, hQ.inv, ?_, ?_⟩
  · unfold computePosterior
    rw [hcov]
    change posteriorCovariance G C D = _
    unfold posteriorCovariance
    rw [npInv_ok hD]
    change (npInv C >>= fun icm => npInv (Gᵀ * D⁻¹ * G + icm)) = _
    rw [npInv_ok hC]
    exact npInv_ok hQ
  · intro c
    rw [hwood, Matrix.sub_mulVec, dotProduct_sub]
    have h1 := hS.inv.posSemidef.dotProduct_mulVec_nonneg ((G * C) *ᵥ c)
    have h2 : c ⬝ᵥ (C * Gᵀ * (D + G * C * Gᵀ)⁻¹ * G * C) *ᵥ c =
        star ((G * C) *ᵥ c) ⬝ᵥ (D + G * C * Gᵀ)⁻¹ *ᵥ (G * C) *ᵥ c := by
      have ht : Cᵀ = C := by
        have := hC.isHermitian
        rwa [Matrix.IsHermitian, Matrix.conjTranspose_eq_transpose_of_trivial] at this
      have e1 : star ((G * C) *ᵥ c) = c ᵥ* (C * Gᵀ) := by
        rw [star_trivial, ← Matrix.vecMul_transpose, Matrix.transpose_mul, ht]
      rw [e1, ← Matrix.dotProduct_mulVec, Matrix.mulVec_mulVec, Matrix.mulVec_mulVec]
      simp only [Matrix.mul_assoc]
    rw [h2]
    linarith
  · unfold computeDvGrid
    rw [hcov]
    change invert G C D vals = _
    unfold invert
    rw [add_comm, npInv_ok hS]
    change Except.ok _ = _
    congr 1
    have hv : (fun k => ∑ i, G i k * (vals i / σ i ^ 2)) = (Gᵀ * D⁻¹) *ᵥ vals := by
      rw [← Matrix.mulVec_mulVec]
      have : D⁻¹ *ᵥ vals = fun i => vals i / σ i ^ 2 := by
        have e : D *ᵥ (fun i => vals i / σ i ^ 2) = vals := by
          funext i
          rw [hDd, Matrix.mulVec_diagonal]
          have := hσ i
          field_simp
        conv_lhs => rw [← e]
        rw [Matrix.mulVec_mulVec, Matrix.nonsing_inv_mul _ hDu, Matrix.one_mulVec]
      rw [this]; rfl
    rw [hv, Matrix.mulVec_mulVec]
    congr 1
    -- `C Gᵀ S⁻¹ = Q⁻¹ Gᵀ D⁻¹` since `Q C Gᵀ = Gᵀ D⁻¹ S`
    have h1 : (Gᵀ * D⁻¹ * G + C⁻¹) * (C * Gᵀ) = (Gᵀ * D⁻¹) * (D + G * C * Gᵀ) := by
      rw [Matrix.add_mul, Matrix.mul_add, ← Matrix.mul_assoc C⁻¹, Matrix.nonsing_inv_mul _ hCu, Matrix.one_mul,
        Matrix.mul_assoc Gᵀ D⁻¹ D, Matrix.nonsing_inv_mul _ hDu, Matrix.mul_one, add_comm]
      simp only [Matrix.mul_assoc]
    calc C * Gᵀ * (D + G * C * Gᵀ)⁻¹
        = (Gᵀ * D⁻¹ * G + C⁻¹)⁻¹ * ((Gᵀ * D⁻¹ * G + C⁻¹) * (C * Gᵀ)) * (D + G * C * Gᵀ)⁻¹ := by
          rw [← Matrix.mul_assoc _ _ (C * Gᵀ), Matrix.nonsing_inv_mul _ hQu, Matrix.one_mul]
      _ = (Gᵀ * D⁻¹ * G + C⁻¹)⁻¹ * (Gᵀ * D⁻¹) := by
          rw [h1, Matrix.mul_assoc, Matrix.mul_assoc _ _ (D + G * C * Gᵀ)⁻¹, Matrix.mul_nonsing_inv _ hSu, Matrix.mul_one]

end

end SeisMIC
