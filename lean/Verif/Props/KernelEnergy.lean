import Verif.Props.Kernel
import Mathlib.Analysis.SpecialFunctions.PolarCoord
import Mathlib.MeasureTheory.Integral.IntervalIntegral.FundThmCalculus
import Mathlib.Analysis.SpecialFunctions.ExpDeriv
import Mathlib.MeasureTheory.Integral.Prod
import Mathlib.MeasureTheory.Group.Integral
import Mathlib.Analysis.Complex.ExponentialBounds
import Mathlib.Tactic.FieldSimp

/-!
# C148: the energy of a source in `probability`

`probability(dist, t, ...)` is the density at which the energy of a unit source is found at
the distance `dist` at time `t` (Obermann et al., 2013). The integral of a density of energy
over the plane is the energy of the source, one, at all times.
-/

namespace SeisMIC

open MeasureTheory Set

/-! ### The integral of a radial function over the plane -/

theorem planeDist_polar {r θ : ℝ} (hr : 0 ≤ r) : planeDist (polarCoord.symm (r, θ)) (0, 0) = r := by
  unfold planeDist
  rw [polarCoord_symm_apply]
  have : (r * Real.cos θ - 0) ^ 2 + (r * Real.sin θ - 0) ^ 2 = r ^ 2 := by
    have := Real.sin_sq_add_cos_sq θ
    linear_combination r ^ 2 * this
  rw [this, Real.sqrt_sq hr]

theorem integral_radial (f : ℝ → ℝ) (s : ℝ × ℝ) :
    ∫ p, f (planeDist p s) = 2 * Real.pi * ∫ r in Ioi 0, r * f r := by
  have h0 : ∫ p, f (planeDist p s) = ∫ p, f (planeDist p (0, 0)) := by
    rw [← integral_sub_right_eq_self (fun p => f (planeDist p (0, 0))) s]
    congr 1
    funext p
    simp [planeDist]
  rw [h0, ← integral_comp_polarCoord_symm]
  have h1 : ∫ p in polarCoord.target, p.1 • f (planeDist (polarCoord.symm p) (0, 0)) =
      ∫ p in (Ioi (0 : ℝ)) ×ˢ Ioo (-Real.pi) Real.pi, (p.1 * f p.1) * (fun _ : ℝ => (1 : ℝ)) p.2 := by
    rw [polarCoord_target]
    refine setIntegral_congr_fun (measurableSet_Ioi.prod measurableSet_Ioo) ?_
    intro p hp
    have hp1 : (0 : ℝ) < p.1 := hp.1
    have : planeDist (polarCoord.symm p) (0, 0) = p.1 := planeDist_polar (r := p.1) (θ := p.2) hp1.le
    simp only [this, smul_eq_mul, mul_one]
  rw [h1, Measure.volume_eq_prod, setIntegral_prod_mul (fun r => r * f r) (fun _ : ℝ => (1 : ℝ))]
  have h2 : ∫ _ in Ioo (-Real.pi) Real.pi, (1 : ℝ) = 2 * Real.pi := by
    rw [setIntegral_const, measureReal_def, Real.volume_Ioo, ENNReal.toReal_ofReal (by linarith [Real.pi_pos])]
    simp; ring
  rw [h2]; ring

/-! ### The scattered part -/

/-- antiderivative of the radial density of the scattered part -/
noncomputable def codaPrim (R mf r : ℝ) : ℝ := -(1 / (2 * Real.pi)) * Real.exp ((Real.sqrt (R ^ 2 - r ^ 2) - R) / mf)

noncomputable def codaRadial (R mf r : ℝ) : ℝ :=
  r * (Real.exp ((Real.sqrt (R ^ 2 - r ^ 2) - R) / mf) / (2 * Real.pi * mf * R * Real.sqrt (1 - r ^ 2 / R ^ 2)))

theorem codaPrim_deriv {R mf r : ℝ} (hm : 0 < mf) (hr : 0 < r) (hR : r < R) : HasDerivAt (codaPrim R mf) (codaRadial R mf r) r := by
  have hR0 : 0 < R := hr.trans hR
  have hpos : 0 < R ^ 2 - r ^ 2 := by nlinarith
  have hs : 0 < Real.sqrt (R ^ 2 - r ^ 2) := Real.sqrt_pos.2 hpos
  have hsq : R * Real.sqrt (1 - r ^ 2 / R ^ 2) = Real.sqrt (R ^ 2 - r ^ 2) := by
    rw [show R ^ 2 - r ^ 2 = R ^ 2 * (1 - r ^ 2 / R ^ 2) by field_simp, Real.sqrt_mul (by positivity), Real.sqrt_sq hR0.le]
  have h1 : HasDerivAt (fun x : ℝ => R ^ 2 - x ^ 2) (-(2 * r)) r := by
    simpa using ((hasDerivAt_id r).pow 2).const_sub (R ^ 2)
  have h2 := (((h1.sqrt hpos.ne').sub_const R).div_const mf).exp.const_mul (-(1 / (2 * Real.pi)))
  refine h2.congr_deriv ?_
  unfold codaRadial
  rw [show 2 * Real.pi * mf * R * Real.sqrt (1 - r ^ 2 / R ^ 2) = 2 * Real.pi * mf * (R * Real.sqrt (1 - r ^ 2 / R ^ 2)) by ring, hsq]
  field_simp

theorem codaRadial_nonneg {R mf r : ℝ} (hm : 0 < mf) (hr : 0 ≤ r) (hR : 0 ≤ R) : 0 ≤ codaRadial R mf r := by
  unfold codaRadial; positivity

theorem codaPrim_cont (R mf : ℝ) : Continuous (codaPrim R mf) := by
  unfold codaPrim; fun_prop

theorem codaRadial_integrable {R mf b : ℝ} (hm : 0 < mf) (hb : 0 ≤ b) (hR : b ≤ R) : IntegrableOn (codaRadial R mf) (Ioc 0 b) := by
  refine intervalIntegral.integrableOn_deriv_of_nonneg (codaPrim_cont R mf).continuousOn (g := codaPrim R mf) ?_ ?_
  · intro x hx
    exact codaPrim_deriv hm hx.1 (hx.2.trans_le hR)
  · intro x hx
    exact codaRadial_nonneg hm hx.1.le (hb.trans hR)

theorem codaRadial_integral {R mf b : ℝ} (hm : 0 < mf) (hb : 0 ≤ b) (hR : b ≤ R) :
    ∫ r in Ioc 0 b, codaRadial R mf r = codaPrim R mf b - codaPrim R mf 0 := by
  rw [← intervalIntegral.integral_of_le hb]
  refine intervalIntegral.integral_eq_sub_of_hasDerivAt_of_le hb (codaPrim_cont R mf).continuousOn ?_ ?_
  · intro x hx
    exact codaPrim_deriv hm hx.1 (hx.2.trans_le hR)
  · rw [intervalIntegrable_iff_integrableOn_Ioc_of_le hb]
    exact codaRadial_integrable hm hb hR

theorem coda_indicator (t vel mf atol : ℝ) (r : ℝ) :
    r * probCoda r t vel mf atol = (Iio (vel * t - atol)).indicator (codaRadial (vel * t) mf) r := by
  unfold probCoda
  by_cases h : vel * t - r - atol > 0
  · rw [if_pos h, indicator_of_mem (by rw [mem_Iio]; linarith)]
    simp only [codaRadial, mul_one, mul_assoc]
  · rw [if_neg h, indicator_of_notMem (by rw [mem_Iio]; linarith)]
    ring

theorem coda_radial_integrable {t vel mf atol : ℝ} (hm : 0 < mf) (ha : 0 ≤ atol) (hat : atol ≤ vel * t) :
    IntegrableOn (fun r => r * probCoda r t vel mf atol) (Ioi 0) := by
  have : (fun r => r * probCoda r t vel mf atol) = (Iio (vel * t - atol)).indicator (codaRadial (vel * t) mf) := funext (coda_indicator t vel mf atol)
  rw [this, IntegrableOn, integrable_indicator_iff measurableSet_Iio, IntegrableOn, Measure.restrict_restrict measurableSet_Iio]
  refine (codaRadial_integrable (b := vel * t - atol) hm (by linarith) (by linarith)).mono_set ?_
  intro x hx
  exact ⟨hx.2, le_of_lt hx.1⟩

theorem coda_radial_integral {t vel mf atol : ℝ} (hm : 0 < mf) (ha : 0 ≤ atol) (hat : atol ≤ vel * t) :
    ∫ r in Ioi 0, r * probCoda r t vel mf atol =
      1 / (2 * Real.pi) * (1 - Real.exp ((Real.sqrt ((vel * t) ^ 2 - (vel * t - atol) ^ 2) - vel * t) / mf)) := by
  have h1 : ∫ r in Ioi 0, r * probCoda r t vel mf atol = ∫ r in Ioi 0, (Iio (vel * t - atol)).indicator (codaRadial (vel * t) mf) r :=
    integral_congr_ae (Filter.Eventually.of_forall (coda_indicator t vel mf atol))
  rw [h1, integral_indicator measurableSet_Iio, Measure.restrict_restrict measurableSet_Iio, inter_comm, Ioi_inter_Iio,
    ← integral_Ioc_eq_integral_Ioo, codaRadial_integral hm (by linarith) (by linarith)]
  unfold codaPrim
  rw [show (vel * t) ^ 2 - 0 ^ 2 = (vel * t) ^ 2 by ring, Real.sqrt_sq (ha.trans hat)]
  simp
  ring

/-- **C148** (scattered part) At any time `t`, the energy that has been scattered in the neighbourhood of the source `s` is
`1 - exp(-v t / l)` up to the part next to the wave front (`atol`) that is left out.
Missing: the energy of the direct wave, see `c148_energy_violated`. -/
theorem c148_scattered_partial {t vel mf atol : ℝ} (s : ℝ × ℝ) (hm : 0 < mf) (ha : 0 ≤ atol) (hat : atol ≤ vel * t) :
    ∫ p, probCoda (planeDist p s) t vel mf atol =
      1 - Real.exp ((Real.sqrt ((vel * t) ^ 2 - (vel * t - atol) ^ 2) - vel * t) / mf) := by
  rw [integral_radial (fun r => probCoda r t vel mf atol), coda_radial_integral hm ha hat]
  have := Real.pi_pos
  field_simp

/-- **C148** (scattered part) If nothing is left out next to the wave front, the scattered energy is `1 - exp(-v t / l)`. -/
theorem c148_scattered_all {t vel mf : ℝ} (s : ℝ × ℝ) (hm : 0 < mf) (ht : 0 ≤ vel * t) :
    ∫ p, probCoda (planeDist p s) t vel mf 0 = 1 - Real.exp (-(vel * t) / mf) := by
  rw [c148_scattered_partial s hm le_rfl ht]
  simp

/-- **C148** (scattered part) Whatever is left out next to the wave front, the scattered energy is at most `1 - exp(-v t / l)`. -/
theorem c148_scattered_le {t vel mf atol : ℝ} (s : ℝ × ℝ) (hm : 0 < mf) (ha : 0 ≤ atol) (hat : atol ≤ vel * t) :
    ∫ p, probCoda (planeDist p s) t vel mf atol ≤ 1 - Real.exp (-(vel * t) / mf) := by
  rw [c148_scattered_partial s hm ha hat]
  have : Real.exp (-(vel * t) / mf) ≤ Real.exp ((Real.sqrt ((vel * t) ^ 2 - (vel * t - atol) ^ 2) - vel * t) / mf) := by
    refine Real.exp_le_exp.2 (div_le_div_of_nonneg_right ?_ hm.le)
    linarith [Real.sqrt_nonneg ((vel * t) ^ 2 - (vel * t - atol) ^ 2)]
  linarith

/-! ### The direct wave -/

theorem coherent_indicator {t vel mf atol : ℝ} {r : ℝ} (hr : r ∈ Ioi (0 : ℝ)) :
    r * probCoherent r t vel mf atol =
      (Icc (vel * t - (atol + 1 / 100000 * |vel * t|)) (vel * t + (atol + 1 / 100000 * |vel * t|))).indicator
        (fun _ => Real.exp (-vel * t / mf) / (2 * Real.pi)) r := by
  have hr0 : r ≠ 0 := ne_of_gt hr
  unfold probCoherent isClose
  rw [if_neg hr0]
  by_cases h : |r - vel * t| ≤ atol + 1 / 100000 * |vel * t|
  · have hmem : r ∈ Icc (vel * t - (atol + 1 / 100000 * |vel * t|)) (vel * t + (atol + 1 / 100000 * |vel * t|)) := by
      rw [abs_le] at h
      exact ⟨by linarith [h.1], by linarith [h.2]⟩
    rw [if_pos h, indicator_of_mem hmem]
    have := Real.pi_pos
    field_simp
  · have hmem : r ∉ Icc (vel * t - (atol + 1 / 100000 * |vel * t|)) (vel * t + (atol + 1 / 100000 * |vel * t|)) := by
      intro hm
      exact h (abs_le.2 ⟨by linarith [hm.1], by linarith [hm.2]⟩)
    rw [if_neg h, indicator_of_notMem hmem]
    ring

theorem coherent_radial_integrable {t vel mf atol : ℝ} : IntegrableOn (fun r => r * probCoherent r t vel mf atol) (Ioi 0) := by
  rw [integrableOn_congr_fun (fun r hr => coherent_indicator hr) measurableSet_Ioi, IntegrableOn, integrable_indicator_iff measurableSet_Icc,
    IntegrableOn, Measure.restrict_restrict measurableSet_Icc]
  refine IntegrableOn.mono_set ?_ inter_subset_left
  exact integrableOn_const (by simp)

theorem coherent_radial_integral {t vel mf atol : ℝ} (ha : 0 ≤ atol) (hat : atol + 1 / 100000 * (vel * t) ≤ vel * t) :
    ∫ r in Ioi 0, r * probCoherent r t vel mf atol =
      1 / (2 * Real.pi) * (2 * (atol + 1 / 100000 * (vel * t)) * Real.exp (-(vel * t) / mf)) := by
  have hR : 0 ≤ vel * t := by linarith
  rw [setIntegral_congr_fun measurableSet_Ioi (fun r hr => coherent_indicator hr), integral_indicator measurableSet_Icc,
    Measure.restrict_restrict measurableSet_Icc, abs_of_nonneg hR]
  have hae : (Icc (vel * t - (atol + 1 / 100000 * (vel * t))) (vel * t + (atol + 1 / 100000 * (vel * t))) ∩ Ioi 0 : Set ℝ) =ᵐ[volume]
      Ioc (vel * t - (atol + 1 / 100000 * (vel * t))) (vel * t + (atol + 1 / 100000 * (vel * t))) := by
    have h1 : (Icc (vel * t - (atol + 1 / 100000 * (vel * t))) (vel * t + (atol + 1 / 100000 * (vel * t))) ∩ Ioi 0 : Set ℝ) =ᵐ[volume]
        (Ioc (vel * t - (atol + 1 / 100000 * (vel * t))) (vel * t + (atol + 1 / 100000 * (vel * t))) ∩ Ioi 0 : Set ℝ) :=
      ae_eq_set_inter Ioc_ae_eq_Icc.symm (Filter.EventuallyEq.refl _ _)
    refine h1.trans ?_
    have hsub : Ioc (vel * t - (atol + 1 / 100000 * (vel * t))) (vel * t + (atol + 1 / 100000 * (vel * t))) ⊆ Ioi (0 : ℝ) :=
      fun x hx => lt_of_le_of_lt (by linarith) hx.1
    rw [inter_eq_left.2 hsub]
    exact Filter.EventuallyEq.refl _ _
  rw [setIntegral_congr_set hae, setIntegral_const, measureReal_def, Real.volume_Ioc, ENNReal.toReal_ofReal (by linarith), smul_eq_mul]
  rw [show -vel * t = -(vel * t) by ring]
  ring

/-- **C148** (all energy) The energy found at time `t` in the plane is not one: that of the direct wave, `exp(-v t / l)`, is multiplied by the width
of the shell in which the wave is found, whatever the unit of length.
Missing for the full property: `c148_energy_violated`, `c148_unit_violated`. -/
theorem c148_energy_partial {t vel mf atol : ℝ} (s : ℝ × ℝ) (hv : 0 < vel) (hm : 0 < mf) (ha : 0 ≤ atol)
    (hat : atol + 1 / 100000 * (vel * t) ≤ vel * t) :
    ∃ E : ℝ × ℝ → ℝ, (∀ p, probability (planeDist p s) t vel mf atol = .ok (E p)) ∧
      ∫ p, E p = 1 - Real.exp ((Real.sqrt ((vel * t) ^ 2 - (vel * t - atol) ^ 2) - vel * t) / mf) +
        2 * (atol + 1 / 100000 * (vel * t)) * Real.exp (-(vel * t) / mf) := by
  have hR : 0 ≤ vel * t := by linarith
  have ht : 0 ≤ t := nonneg_of_mul_nonneg_right hR hv
  refine ⟨fun p => probValue (planeDist p s) t vel mf atol, fun p => probability_ok (planeDist_nonneg _ _) ?_, ?_⟩
  · exact le_trans (div_nonpos_of_nonpos_of_nonneg (by linarith) hv.le) ht
  rw [integral_radial (fun r => probValue r t vel mf atol)]
  have h1 : ∫ r in Ioi (0 : ℝ), r * probValue r t vel mf atol =
      (∫ r in Ioi (0 : ℝ), r * probCoherent r t vel mf atol) + ∫ r in Ioi (0 : ℝ), r * probCoda r t vel mf atol := by
    rw [← integral_add coherent_radial_integrable (coda_radial_integrable hm ha (by linarith))]
    simp only [probValue, mul_add]
  rw [h1, coherent_radial_integral ha hat, coda_radial_integral hm ha (by linarith)]
  have := Real.pi_pos
  field_simp
  ring

/-- More energy than that of the source is found, e.g. with `v = 1`, `t = 10`, `l = 10` and `atol = 1`. -/
theorem c148_energy_violated : ∃ t vel mf atol : ℝ, 0 < t ∧ 0 < vel ∧ 0 < mf ∧ 0 < atol ∧ atol < vel * t ∧
    ∀ s : ℝ × ℝ, ∃ E : ℝ × ℝ → ℝ, (∀ p, probability (planeDist p s) t vel mf atol = .ok (E p)) ∧ 1 < ∫ p, E p := by
  refine ⟨10, 1, 10, 1, by norm_num, by norm_num, by norm_num, by norm_num, by norm_num, fun s => ?_⟩
  obtain ⟨E, h1, h2⟩ := c148_energy_partial (t := 10) (vel := 1) (mf := 10) (atol := 1) s (by norm_num) (by norm_num) (by norm_num) (by norm_num)
  refine ⟨E, h1, ?_⟩
  rw [h2]
  have hs : Real.sqrt ((1 * 10 : ℝ) ^ 2 - (1 * 10 - 1) ^ 2) ≤ 5 := by
    rw [Real.sqrt_le_left (by norm_num)]; norm_num
  have he : Real.exp (1 / 2) < 2 := by
    have h := Real.exp_one_lt_d9
    have h2 : Real.exp (1 / 2) * Real.exp (1 / 2) = Real.exp 1 := by rw [← Real.exp_add]; norm_num
    nlinarith [Real.exp_pos (1 / 2)]
  have hle : Real.exp ((Real.sqrt ((1 * 10 : ℝ) ^ 2 - (1 * 10 - 1) ^ 2) - 1 * 10) / 10) ≤ Real.exp (1 / 2) * Real.exp (-(1 * 10) / 10) := by
    rw [← Real.exp_add]
    refine Real.exp_le_exp.2 ?_
    generalize Real.sqrt ((1 * 10 : ℝ) ^ 2 - (1 * 10 - 1) ^ 2) = q at hs
    linarith
  nlinarith [Real.exp_pos (-(1 * 10 : ℝ) / 10)]

/-- With the same numbers for a medium a thousand times smaller (metres for kilometres), less energy is found. -/
theorem c148_unit_violated : ∃ t vel mf atol c : ℝ, 0 < t ∧ 0 < vel ∧ 0 < mf ∧ 0 < atol ∧ atol < vel * t ∧ 0 < c ∧
    ∀ s : ℝ × ℝ, ∃ E E' : ℝ × ℝ → ℝ, (∀ p, probability (planeDist p s) t vel mf atol = .ok (E p)) ∧
      (∀ p, probability (planeDist p s) t (c * vel) (c * mf) (c * atol) = .ok (E' p)) ∧ ∫ p, E' p < 1 ∧ 1 < ∫ p, E p := by
  refine ⟨10, 1, 10, 1, 1 / 1000, by norm_num, by norm_num, by norm_num, by norm_num, by norm_num, by norm_num, fun s => ?_⟩
  obtain ⟨E, h1, h2⟩ := c148_energy_partial (t := 10) (vel := 1) (mf := 10) (atol := 1) s (by norm_num) (by norm_num) (by norm_num) (by norm_num)
  obtain ⟨E', h3, h4⟩ := c148_energy_partial (t := 10) (vel := 1 / 1000 * 1) (mf := 1 / 1000 * 10) (atol := 1 / 1000 * 1) s (by norm_num)
    (by norm_num) (by norm_num) (by norm_num)
  refine ⟨E, E', h1, h3, ?_, ?_⟩
  · rw [h4]
    have hle : Real.exp (-(1 / 1000 * 1 * 10) / (1 / 1000 * 10)) ≤
        Real.exp ((Real.sqrt ((1 / 1000 * 1 * 10 : ℝ) ^ 2 - (1 / 1000 * 1 * 10 - 1 / 1000 * 1) ^ 2) - 1 / 1000 * 1 * 10) / (1 / 1000 * 10)) := by
      refine Real.exp_le_exp.2 (div_le_div_of_nonneg_right ?_ (by norm_num))
      linarith [Real.sqrt_nonneg ((1 / 1000 * 1 * 10 : ℝ) ^ 2 - (1 / 1000 * 1 * 10 - 1 / 1000 * 1) ^ 2)]
    nlinarith [Real.exp_pos (-(1 / 1000 * 1 * 10 : ℝ) / (1 / 1000 * 10))]
  · rw [h2]
    have hs : Real.sqrt ((1 * 10 : ℝ) ^ 2 - (1 * 10 - 1) ^ 2) ≤ 5 := by
      rw [Real.sqrt_le_left (by norm_num)]; norm_num
    have he : Real.exp (1 / 2) < 2 := by
      have h := Real.exp_one_lt_d9
      have h2 : Real.exp (1 / 2) * Real.exp (1 / 2) = Real.exp 1 := by rw [← Real.exp_add]; norm_num
      nlinarith [Real.exp_pos (1 / 2)]
    have hle : Real.exp ((Real.sqrt ((1 * 10 : ℝ) ^ 2 - (1 * 10 - 1) ^ 2) - 1 * 10) / 10) ≤ Real.exp (1 / 2) * Real.exp (-(1 * 10) / 10) := by
      rw [← Real.exp_add]
      refine Real.exp_le_exp.2 ?_
      generalize Real.sqrt ((1 * 10 : ℝ) ^ 2 - (1 * 10 - 1) ^ 2) = q at hs
      linarith
    nlinarith [Real.exp_pos (-(1 * 10 : ℝ) / 10)]

/-- the hypotheses are met, e.g. by a wave of 2 km/s after 40 s with a mean free path of 50 km and `dt = 1` s -/
example : (0 : ℝ) < 50 ∧ (0 : ℝ) ≤ 1 ∧ (1 : ℝ) + 1 / 100000 * (2 * 40) ≤ 2 * 40 := by norm_num

end SeisMIC
