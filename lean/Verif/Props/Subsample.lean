import Verif.Props.Xcorr
import Mathlib.Algebra.BigOperators.Field
import Mathlib.Tactic.Push
import Mathlib.Tactic.LinearCombination
import Mathlib.Analysis.SpecialFunctions.Trigonometric.Basic

/-!
# C12: start times that differ by a fraction of a sample

The saved correlation is the band-limited continuation of the correlation at whole samples,
evaluated at the lag of the header.
-/

namespace SeisMIC
namespace Xcorr

open Complex Finset

/-- A function with the period `N` that contains no frequency above the Nyquist frequency
(specification): a sum of cosines and sines with up to `N / 2` oscillations in a period; of the
highest one only the cosine, because its sine is zero at all samples. -/
def BandLimited (N : ℕ) (P : ℝ → ℝ) : Prop :=
  ∃ α β : ℕ → ℝ, β (N / 2) = 0 ∧ ∀ τ, P τ = ∑ k ∈ range (N / 2 + 1),
    (α k * Real.cos (2 * Real.pi * k * τ / N) + β k * Real.sin (2 * Real.pi * k * τ / N))

/-! ### there is only one such function through given samples -/

theorem ex_re_im (q : ℝ) : (ex q).re = Real.cos (2 * Real.pi * q) ∧ (ex q).im = Real.sin (2 * Real.pi * q) := by
  unfold ex
  rw [show 2 * (Real.pi : ℂ) * I * (q : ℂ) = ((2 * Real.pi * q : ℝ) : ℂ) * I by push_cast; ring]
  exact ⟨exp_ofReal_mul_I_re _, exp_ofReal_mul_I_im _⟩

theorem sum_cos (N : ℕ) (hN : 0 < N) (r : ℤ) :
    ∑ l ∈ range N, Real.cos (2 * Real.pi * r * l / N) = if (N : ℤ) ∣ r then (N : ℝ) else 0 := by
  have h := congrArg Complex.re (orth N hN r)
  rw [Complex.re_sum] at h
  rw [← show (if (N : ℤ) ∣ r then (N : ℂ) else 0).re = if (N : ℤ) ∣ r then (N : ℝ) else 0 by split <;> simp, ← h]
  apply Finset.sum_congr rfl
  intro l _
  have := (ex_re_im ((l : ℝ) * r / N)).1
  push_cast at this
  rw [this]
  congr 1; ring

theorem sum_sin (N : ℕ) (hN : 0 < N) (r : ℤ) :
    ∑ l ∈ range N, Real.sin (2 * Real.pi * r * l / N) = 0 := by
  have h := congrArg Complex.im (orth N hN r)
  rw [Complex.im_sum] at h
  rw [← show (if (N : ℤ) ∣ r then (N : ℂ) else 0).im = 0 by split <;> simp, ← h]
  apply Finset.sum_congr rfl
  intro l _
  have := (ex_re_im ((l : ℝ) * r / N)).2
  push_cast at this
  rw [this]
  congr 1; ring

theorem dvd_sub_iff (m k q : ℕ) (hm : 0 < m) (hk : k ≤ m) (hq : q ≤ m) : (((2 * m : ℕ) : ℤ) ∣ (k : ℤ) - q) ↔ k = q := by
  constructor
  · rintro ⟨c, hc⟩
    have : c = 0 := by
      by_contra h
      rcases lt_or_gt_of_ne h with h | h
      · have : c ≤ -1 := by omega
        push_cast at hc
        nlinarith
      · have : 1 ≤ c := by omega
        push_cast at hc
        nlinarith
    subst this; omega
  · rintro rfl; simp

theorem dvd_add_iff (m k q : ℕ) (hm : 0 < m) (hk : k ≤ m) (hq : q ≤ m) :
    (((2 * m : ℕ) : ℤ) ∣ (k : ℤ) + q) ↔ k = q ∧ (q = 0 ∨ q = m) := by
  constructor
  · rintro ⟨c, hc⟩
    have h0 : 0 ≤ c := by
      by_contra h
      have : c ≤ -1 := by omega
      push_cast at hc
      nlinarith
    have h1 : c ≤ 1 := by
      by_contra h
      have : 2 ≤ c := by omega
      push_cast at hc
      nlinarith
    have : c = 0 ∨ c = 1 := by omega
    rcases this with rfl | rfl
    · simp at hc; omega
    · push_cast at hc; omega
  · rintro ⟨rfl, rfl | rfl⟩
    · simp
    · exact ⟨1, by push_cast; ring⟩

/-- **C12** (specification) A band-limited function is determined by its values at the whole numbers. -/
theorem bandLimited_unique (m : ℕ) (hm : 0 < m) (P Q : ℝ → ℝ) (hP : BandLimited (2 * m) P) (hQ : BandLimited (2 * m) Q)
    (h : ∀ l : ℤ, P l = Q l) : P = Q := by
  obtain ⟨α, β, hβ, hp⟩ := hP
  obtain ⟨α', β', hβ', hq⟩ := hQ
  rw [show 2 * m / 2 = m by omega] at hβ hβ' hp hq
  have hN : 0 < 2 * m := by omega
  have hNr : (0 : ℝ) < ((2 * m : ℕ) : ℝ) := by exact_mod_cast hN
  -- the difference vanishes at whole numbers
  have hz : ∀ l : ℕ, ∑ k ∈ range (m + 1), ((α k - α' k) * Real.cos (2 * Real.pi * k * l / (2 * m : ℕ)) +
      (β k - β' k) * Real.sin (2 * Real.pi * k * l / (2 * m : ℕ))) = 0 := by
    intro l
    have h1 := hp l
    have h2 := hq l
    have h3 := h l
    push_cast at h3
    rw [h1, h2] at h3
    rw [← sub_eq_zero.2 h3, ← Finset.sum_sub_distrib]
    apply Finset.sum_congr rfl; intro k _; ring
  have cc : ∀ k q : ℕ, ∑ l ∈ range (2 * m), Real.cos (2 * Real.pi * k * l / (2 * m : ℕ)) * Real.cos (2 * Real.pi * q * l / (2 * m : ℕ)) =
      ((if ((2 * m : ℕ) : ℤ) ∣ (k : ℤ) - q then ((2 * m : ℕ) : ℝ) else 0) + if ((2 * m : ℕ) : ℤ) ∣ (k : ℤ) + q then ((2 * m : ℕ) : ℝ) else 0) / 2 := by
    intro k q
    rw [← sum_cos _ hN, ← sum_cos _ hN, ← Finset.sum_add_distrib, Finset.sum_div]
    apply Finset.sum_congr rfl; intro l _
    have e1 : 2 * Real.pi * ((((k : ℤ) - q : ℤ)) : ℝ) * l / (2 * m : ℕ) = 2 * Real.pi * k * l / (2 * m : ℕ) - 2 * Real.pi * q * l / (2 * m : ℕ) := by push_cast; ring
    have e2 : 2 * Real.pi * ((((k : ℤ) + q : ℤ)) : ℝ) * l / (2 * m : ℕ) = 2 * Real.pi * k * l / (2 * m : ℕ) + 2 * Real.pi * q * l / (2 * m : ℕ) := by push_cast; ring
    rw [e1, e2, Real.cos_sub, Real.cos_add]; ring
  have ss : ∀ k q : ℕ, ∑ l ∈ range (2 * m), Real.sin (2 * Real.pi * k * l / (2 * m : ℕ)) * Real.sin (2 * Real.pi * q * l / (2 * m : ℕ)) =
      ((if ((2 * m : ℕ) : ℤ) ∣ (k : ℤ) - q then ((2 * m : ℕ) : ℝ) else 0) - if ((2 * m : ℕ) : ℤ) ∣ (k : ℤ) + q then ((2 * m : ℕ) : ℝ) else 0) / 2 := by
    intro k q
    rw [← sum_cos _ hN, ← sum_cos _ hN, ← Finset.sum_sub_distrib, Finset.sum_div]
    apply Finset.sum_congr rfl; intro l _
    have e1 : 2 * Real.pi * ((((k : ℤ) - q : ℤ)) : ℝ) * l / (2 * m : ℕ) = 2 * Real.pi * k * l / (2 * m : ℕ) - 2 * Real.pi * q * l / (2 * m : ℕ) := by push_cast; ring
    have e2 : 2 * Real.pi * ((((k : ℤ) + q : ℤ)) : ℝ) * l / (2 * m : ℕ) = 2 * Real.pi * k * l / (2 * m : ℕ) + 2 * Real.pi * q * l / (2 * m : ℕ) := by push_cast; ring
    rw [e1, e2, Real.cos_sub, Real.cos_add]; ring
  have sc : ∀ k q : ℕ, ∑ l ∈ range (2 * m), Real.sin (2 * Real.pi * k * l / (2 * m : ℕ)) * Real.cos (2 * Real.pi * q * l / (2 * m : ℕ)) = 0 := by
    intro k q
    have : ∑ l ∈ range (2 * m), Real.sin (2 * Real.pi * k * l / (2 * m : ℕ)) * Real.cos (2 * Real.pi * q * l / (2 * m : ℕ)) =
        (∑ l ∈ range (2 * m), Real.sin (2 * Real.pi * ((((k : ℤ) + q : ℤ)) : ℝ) * l / (2 * m : ℕ)) +
          ∑ l ∈ range (2 * m), Real.sin (2 * Real.pi * ((((k : ℤ) - q : ℤ)) : ℝ) * l / (2 * m : ℕ))) / 2 := by
      rw [← Finset.sum_add_distrib, Finset.sum_div]
      apply Finset.sum_congr rfl; intro l _
      have e1 : 2 * Real.pi * ((((k : ℤ) - q : ℤ)) : ℝ) * l / (2 * m : ℕ) = 2 * Real.pi * k * l / (2 * m : ℕ) - 2 * Real.pi * q * l / (2 * m : ℕ) := by push_cast; ring
      have e2 : 2 * Real.pi * ((((k : ℤ) + q : ℤ)) : ℝ) * l / (2 * m : ℕ) = 2 * Real.pi * k * l / (2 * m : ℕ) + 2 * Real.pi * q * l / (2 * m : ℕ) := by push_cast; ring
      rw [e1, e2, Real.sin_sub, Real.sin_add]; ring
    rw [this, sum_sin _ hN, sum_sin _ hN]; simp
  have ha : ∀ q ≤ m, α q = α' q := by
    intro q hqm
    have h1 : ∑ l ∈ range (2 * m), (∑ k ∈ range (m + 1), ((α k - α' k) * Real.cos (2 * Real.pi * k * l / (2 * m : ℕ)) +
      (β k - β' k) * Real.sin (2 * Real.pi * k * l / (2 * m : ℕ)))) * Real.cos (2 * Real.pi * q * l / (2 * m : ℕ)) = 0 := by
      apply Finset.sum_eq_zero; intro l _; rw [hz l, zero_mul]
    simp only [Finset.sum_mul] at h1
    rw [Finset.sum_comm] at h1
    have h2 : ∀ k ∈ range (m + 1), ∑ l ∈ range (2 * m), ((α k - α' k) * Real.cos (2 * Real.pi * k * l / (2 * m : ℕ)) +
        (β k - β' k) * Real.sin (2 * Real.pi * k * l / (2 * m : ℕ))) * Real.cos (2 * Real.pi * q * l / (2 * m : ℕ)) =
        if k = q then (α q - α' q) * (((2 * m : ℕ) : ℝ) + if q = 0 ∨ q = m then ((2 * m : ℕ) : ℝ) else 0) / 2 else 0 := by
      intro k hk
      have hk := mem_range.1 hk
      have e : ∀ l ∈ range (2 * m), ((α k - α' k) * Real.cos (2 * Real.pi * k * l / (2 * m : ℕ)) +
        (β k - β' k) * Real.sin (2 * Real.pi * k * l / (2 * m : ℕ))) * Real.cos (2 * Real.pi * q * l / (2 * m : ℕ)) =
        (α k - α' k) * (Real.cos (2 * Real.pi * k * l / (2 * m : ℕ)) * Real.cos (2 * Real.pi * q * l / (2 * m : ℕ))) +
        (β k - β' k) * (Real.sin (2 * Real.pi * k * l / (2 * m : ℕ)) * Real.cos (2 * Real.pi * q * l / (2 * m : ℕ))) := by
        intro l _; ring
      rw [Finset.sum_congr rfl e, Finset.sum_add_distrib, ← Finset.mul_sum, ← Finset.mul_sum, cc, sc, mul_zero, add_zero]
      simp only [dvd_sub_iff m k q hm (by omega) hqm, dvd_add_iff m k q hm (by omega) hqm]
      by_cases hkq : k = q
      · subst hkq; simp; ring
      · simp [hkq]
    rw [Finset.sum_congr rfl h2, Finset.sum_ite_eq' , if_pos (mem_range.2 (by omega))] at h1
    have hpos : (0 : ℝ) < ((2 * m : ℕ) : ℝ) + if q = 0 ∨ q = m then ((2 * m : ℕ) : ℝ) else 0 := by
      split <;> linarith
    have : (α q - α' q) * (((2 * m : ℕ) : ℝ) + if q = 0 ∨ q = m then ((2 * m : ℕ) : ℝ) else 0) = 0 := by linarith
    rcases mul_eq_zero.1 this with h | h
    · linarith
    · linarith
  have hb : ∀ q ≤ m, q ≠ 0 → β q = β' q := by
    intro q hqm hq0
    by_cases hqm' : q = m
    · rw [hqm', hβ, hβ']
    have h1 : ∑ l ∈ range (2 * m), (∑ k ∈ range (m + 1), ((α k - α' k) * Real.cos (2 * Real.pi * k * l / (2 * m : ℕ)) +
      (β k - β' k) * Real.sin (2 * Real.pi * k * l / (2 * m : ℕ)))) * Real.sin (2 * Real.pi * q * l / (2 * m : ℕ)) = 0 := by
      apply Finset.sum_eq_zero; intro l _; rw [hz l, zero_mul]
    simp only [Finset.sum_mul] at h1
    rw [Finset.sum_comm] at h1
    have h2 : ∀ k ∈ range (m + 1), ∑ l ∈ range (2 * m), ((α k - α' k) * Real.cos (2 * Real.pi * k * l / (2 * m : ℕ)) +
        (β k - β' k) * Real.sin (2 * Real.pi * k * l / (2 * m : ℕ))) * Real.sin (2 * Real.pi * q * l / (2 * m : ℕ)) =
        if k = q then (β q - β' q) * ((2 * m : ℕ) : ℝ) / 2 else 0 := by
      intro k hk
      have hk := mem_range.1 hk
      have e : ∀ l ∈ range (2 * m), ((α k - α' k) * Real.cos (2 * Real.pi * k * l / (2 * m : ℕ)) +
        (β k - β' k) * Real.sin (2 * Real.pi * k * l / (2 * m : ℕ))) * Real.sin (2 * Real.pi * q * l / (2 * m : ℕ)) =
        (α k - α' k) * (Real.sin (2 * Real.pi * q * l / (2 * m : ℕ)) * Real.cos (2 * Real.pi * k * l / (2 * m : ℕ))) +
        (β k - β' k) * (Real.sin (2 * Real.pi * k * l / (2 * m : ℕ)) * Real.sin (2 * Real.pi * q * l / (2 * m : ℕ))) := by
        intro l _; ring
      rw [Finset.sum_congr rfl e, Finset.sum_add_distrib, ← Finset.mul_sum, ← Finset.mul_sum, ss, sc, mul_zero, zero_add]
      simp only [dvd_sub_iff m k q hm (by omega) hqm, dvd_add_iff m k q hm (by omega) hqm]
      by_cases hkq : k = q
      · subst hkq; simp [hq0, hqm']; ring
      · simp [hkq]
    rw [Finset.sum_congr rfl h2, Finset.sum_ite_eq' , if_pos (mem_range.2 (by omega))] at h1
    have : (β q - β' q) * ((2 * m : ℕ) : ℝ) = 0 := by linarith
    rcases mul_eq_zero.1 this with h | h
    · linarith
    · linarith
  funext τ
  rw [hp, hq]
  apply Finset.sum_congr rfl
  intro k hk
  have hk := mem_range.1 hk
  rw [ha k (by omega)]
  by_cases h0 : k = 0
  · subst h0; simp
  · rw [hb k (by omega) h0]

/-! ### the saved correlation -/

/-- the inverse transform of a cross spectrum at any time -/
noncomputable def continued (a b : List ℝ) (m : ℕ) (τ : ℝ) : ℝ :=
  (((starRingEnd ℂ) (dft a 0) * dft b 0).re
    + (∑ k ∈ Ico 1 m, 2 * ((starRingEnd ℂ) (dft a k) * dft b k * ex ((k * τ / (2 * m : ℕ) : ℝ) : ℂ)).re)
    + ((starRingEnd ℂ) (dft a m) * dft b m).re * Real.cos (Real.pi * τ)) / (2 * m : ℕ)

theorem nyquist_im (a b : List ℝ) (m : ℕ) (hm : 0 < m) (ha : a.length = 2 * m) (hb : b.length = 2 * m) :
    ((starRingEnd ℂ) (dft a m) * dft b m).im = 0 := by
  rw [dft_nyquist a m hm ha, dft_nyquist b m hm hb, Complex.conj_ofReal, ← Complex.ofReal_mul, Complex.ofReal_im]

theorem irfft_continued (sr offset : Rat) (a b : List ℝ) (hab : a.length = b.length) (m : ℕ)
    (hm : 0 < m) (ha : a.length = 2 * m) :
    irfft (crossSpectrum (rfftfreq a.length sr) offset (rfft a) (rfft b)) =
      .ok ((List.range a.length).map fun j : ℕ => continued a b m ((j : ℝ) + ((offset * sr : Rat) : ℝ))) := by
  have hlen := length_crossSpectrum sr offset a b hab
  have hm0 : (m : ℂ) ≠ 0 := by exact_mod_cast hm.ne'
  unfold irfft
  simp only [hlen]
  rw [show a.length / 2 + 1 - 1 = m by omega, if_neg (by omega)]
  rw [ha] at hlen ⊢
  congr 1
  apply List.map_congr_left
  intro j _
  unfold continued
  have hZ : ∀ k, k ≤ m → (crossSpectrum (rfftfreq (2 * m) sr) offset (rfft a) (rfft b)).getD k 0 =
      (starRingEnd ℂ) (dft a k) * dft b k * ex (((k * ((offset * sr : Rat) : ℝ) / (2 * m : ℕ) : ℝ)) : ℂ) := by
    intro k hk
    have := getD_crossSpectrum sr offset a b hab k (by omega)
    rw [ha] at this
    rw [this]
    congr 1
    unfold ex
    congr 1
    push_cast
    ring
  congr 1
  congr 1
  · congr 1
    · rw [hZ 0 (by omega)]
      have : ex ((((0 : ℕ) * ((offset * sr : Rat) : ℝ) / (2 * m : ℕ) : ℝ)) : ℂ) = 1 := by simpa using ex_int 0
      rw [this, mul_one]
    · apply Finset.sum_congr rfl
      intro k hk
      have := mem_Ico.1 hk
      rw [hZ k (by omega)]
      congr 2
      rw [mul_assoc]
      congr 1
      rw [show exp (2 * Real.pi * I * ((j : ℂ) * k / (2 * m : ℕ))) = ex ((j : ℂ) * k / (2 * m : ℕ)) from rfl, ← ex_add]
      congr 1
      push_cast
      ring
  · rw [hZ m le_rfl]
    have him := nyquist_im a b m hm ha (by omega)
    rw [Complex.mul_re, him, zero_mul, sub_zero, (ex_re_im _).1]
    rw [show 2 * Real.pi * ((m : ℝ) * ((offset * sr : Rat) : ℝ) / (2 * m : ℕ)) = Real.pi * ((offset * sr : Rat) : ℝ) by
      have : (m : ℝ) ≠ 0 := by exact_mod_cast hm.ne'
      push_cast; field_simp]
    rw [mul_add, add_comm, Real.cos_add, mul_comm Real.pi (j : ℝ), Real.cos_nat_mul_pi, Real.sin_nat_mul_pi]
    ring

theorem continued_int (a b : List ℝ) (hab : a.length = b.length) (m : ℕ) (hm : 0 < m) (ha : a.length = 2 * m) (l : ℤ) :
    continued a b m l = circCorr a b l := by
  have h1 := irfft_continued 1 l a b hab m hm ha
  have h2 := irfft_cross 1 l a b hab m hm ha l (by simp)
  rw [h1] at h2
  injection h2 with h2
  have h3 := congrArg (fun L => L[0]?) h2
  simp only [List.getElem?_map, List.getElem?_range (show 0 < a.length by omega), Option.map_some, Option.some.injEq] at h3
  simpa using h3

theorem continued_period (a b : List ℝ) (m : ℕ) (hm : 0 < m) (τ : ℝ) (c : ℤ) :
    continued a b m (τ + c * (2 * m : ℕ)) = continued a b m τ := by
  have hm0 : (m : ℝ) ≠ 0 := by exact_mod_cast hm.ne'
  unfold continued
  congr 1
  congr 1
  · congr 1
    apply Finset.sum_congr rfl
    intro k _
    congr 3
    rw [show (((k : ℝ) * (τ + c * (2 * m : ℕ)) / (2 * m : ℕ) : ℝ) : ℂ) = ((k * τ / (2 * m : ℕ) : ℝ) : ℂ) + ((k * c : ℤ) : ℂ) by
      have : (m : ℂ) ≠ 0 := by exact_mod_cast hm.ne'
      push_cast; field_simp]
    rw [ex_add, ex_int, mul_one]
  · congr 1
    rw [show Real.pi * (τ + c * (2 * m : ℕ)) = Real.pi * τ + ((c * m : ℤ) : ℝ) * (2 * Real.pi) by push_cast; ring]
    exact Real.cos_add_int_mul_two_pi _ _

theorem continued_bandLimited (a b : List ℝ) (m : ℕ) (hm : 0 < m) : BandLimited (2 * m) (continued a b m) := by
  have hm0 : (m : ℝ) ≠ 0 := by exact_mod_cast hm.ne'
  refine ⟨fun k => (if k = 0 ∨ k = m then 1 else 2) * ((starRingEnd ℂ) (dft a k) * dft b k).re / (2 * m : ℕ),
    fun k => if k = 0 ∨ k = m then 0 else -2 * ((starRingEnd ℂ) (dft a k) * dft b k).im / (2 * m : ℕ), ?_, fun τ => ?_⟩
  · rw [show 2 * m / 2 = m by omega]; simp
  rw [show 2 * m / 2 = m by omega, Finset.sum_range_succ, Finset.range_eq_Ico, Finset.sum_eq_sum_Ico_succ_bot hm]
  unfold continued
  rw [add_div, add_div, Finset.sum_div]
  congr 1
  · congr 1
    · simp
    · apply Finset.sum_congr rfl
      intro k hk
      have hk := mem_Ico.1 hk
      have h0 : ¬ (k = 0 ∨ k = m) := by omega
      simp only [if_neg h0]
      rw [Complex.mul_re, (ex_re_im _).1, (ex_re_im _).2]
      rw [show 2 * Real.pi * ((k : ℝ) * τ / (2 * m : ℕ)) = 2 * Real.pi * k * τ / (2 * m : ℕ) by ring]
      ring
  · simp only [or_true, if_true, zero_mul, add_zero, one_mul]
    rw [show 2 * Real.pi * (m : ℝ) * τ / (2 * m : ℕ) = Real.pi * τ by push_cast; field_simp]
    ring

/-- **C12** Start times that differ by any amount, also by a fraction of a sample: let `a` and `b` be the recordings with
zeros appended up to the even length `N`. The values that are saved are those of the band-limited function through the
(periodic) correlation of `a` and `b` at whole samples, at exactly the lags of the header; by `bandLimited_unique` there
is only one such function. At whole numbers up to the number of appended zeros this is the linear correlation of the
recordings. Missing for the full property: odd padded lengths, see `c12_odd_length_violated`. -/
theorem c12_between_samples_partial (center : Bool) (sr lts t0 t1 : Rat) (x y : List ℝ) (hsr : 0 < sr)
    (hxy : x.length = y.length) (N : ℕ) (hN : N = nextFastLen (⌊(x.length : Rat) + sr * lts⌋).toNat) (hge : x.length ≤ N)
    (heven : Even N) (hs : 1 ≤ sampleToSave sr lts) (hsN : sampleToSave sr lts < N) :
    ∃ row startLag P, correlate center false sr lts t0 t1 x y = .ok (row, startLag) ∧
      row.length = 2 * sampleToSave sr lts + 1 ∧ BandLimited N P ∧
      (∀ l : ℤ, P l = circCorr (x ++ List.replicate (N - x.length) 0) (y ++ List.replicate (N - x.length) 0) l) ∧
      (∀ l : ℤ, |l| ≤ N - x.length → P l = linCorr x y l) ∧
      ∀ i, i ≤ 2 * sampleToSave sr lts → row[i]? = some (P (((startLag + i / sr + (t0 - t1)) * sr : Rat) : ℝ)) := by
  obtain ⟨m, hm⟩ := heven
  have hm2 : N = 2 * m := by omega
  have hmpos : 0 < m := by omega
  have hla : (x ++ List.replicate (N - x.length) (0 : ℝ)).length = 2 * m := by simp; omega
  have hab : (x ++ List.replicate (N - x.length) (0 : ℝ)).length = (y ++ List.replicate (N - x.length) (0 : ℝ)).length := by simp [hxy]
  have heq := correlate_eq center false sr lts t0 t1 x y
  simp only [← hN] at heq
  rw [heq hxy]
  generalize hga : x ++ List.replicate (N - x.length) (0 : ℝ) = a at *
  generalize hgb : y ++ List.replicate (N - x.length) (0 : ℝ) = b at *
  unfold corrRow
  simp only
  rw [irfft_continued sr _ a b hab m hmpos hla]
  simp only [bind, Except.bind]
  have hsl : sampleToSave sr lts < ((List.range a.length).map fun j : ℕ => continued a b m ((j : ℝ) + (((t0 - t1 - roffset center sr (t0 - t1)) * sr : Rat) : ℝ))).length := by
    simp; omega
  rw [if_pos (cutCentre_length _ _ hs hsl)]
  refine ⟨_, _, continued a b m, rfl, ?_, hm2 ▸ continued_bandLimited a b m hmpos, fun l => continued_int a b hab m hmpos hla l, fun l hl => ?_, fun i hi => ?_⟩
  · rw [List.length_map, cutCentre_length _ _ hs hsl]
  · rw [continued_int a b hab m hmpos hla l, ← hga, ← hgb, circCorr_pad x y hxy _ _ (by omega)]
  · rw [List.getElem?_map, cutCentre_get _ _ hs hsl i hi]
    simp only [List.length_map, List.length_range]
    have hNz : (0 : ℤ) < a.length := by omega
    have b1 := Int.emod_nonneg ((i : ℤ) - sampleToSave sr lts) hNz.ne'
    have b2 := Int.emod_lt_of_pos ((i : ℤ) - sampleToSave sr lts) hNz
    rw [List.getElem?_map, List.getElem?_range (by omega)]
    simp only [Option.map_some, corrNorm, Bool.false_eq_true, if_false, div_one]
    congr 1
    have hdiv := Int.emod_add_mul_ediv ((i : ℤ) - sampleToSave sr lts) a.length
    generalize hq : ((i : ℤ) - sampleToSave sr lts) / a.length = q at *
    have hcast : (((((i : ℤ) - sampleToSave sr lts) % a.length).toNat : ℕ) : ℝ) = (i : ℝ) - sampleToSave sr lts - q * (2 * m : ℕ) := by
      have h1 : (((((i : ℤ) - sampleToSave sr lts) % a.length).toNat : ℕ) : ℤ) = (i : ℤ) - sampleToSave sr lts - q * (2 * m : ℕ) := by
        rw [Int.toNat_of_nonneg b1, ← hla]
        rw [mul_comm]; omega
      exact_mod_cast h1
    rw [hcast]
    rw [← continued_period a b m hmpos _ q]
    congr 1
    have hsr0 : (sr : ℝ) ≠ 0 := by exact_mod_cast hsr.ne'
    push_cast
    field_simp
    ring

/-- two recordings of three samples whose start times differ by half a sample -/
example : ∃ row l P, correlate false false 1 3 (1 / 2) 0 [1, 2, 3] [0, 1, 1] = .ok (row, l) ∧ BandLimited 6 P ∧
    P 0 = 5 ∧ row[3]? = some (P ((l : ℝ) + 3 + 1 / 2)) := by
  have hfl : (⌊(([1, 2, 3] : List ℝ).length : Rat) + 1 * 3⌋).toNat = 6 := by
    have : ⌊(([1, 2, 3] : List ℝ).length : Rat) + 1 * 3⌋ = 6 := by rw [Int.floor_eq_iff]; norm_num
    rw [this]; rfl
  have hN : nextFastLen (⌊(([1, 2, 3] : List ℝ).length : Rat) + 1 * 3⌋).toNat = 6 := by
    rw [hfl]; exact nextFastLen_self 6 (by decide)
  have hs : sampleToSave 1 3 = 3 := by
    have : ⌈(3 * 1 : Rat)⌉ = 3 := by rw [Int.ceil_eq_iff]; norm_num
    unfold sampleToSave; rw [this]; rfl
  obtain ⟨row, l, P, h1, h2, h3, h4, h5, h6⟩ := c12_between_samples_partial false 1 3 (1 / 2) 0 [1, 2, 3] [0, 1, 1] (by norm_num) rfl 6 hN.symm
    (by simp) (by decide) (by rw [hs]; norm_num) (by rw [hs]; norm_num)
  refine ⟨row, l, P, h1, h3, ?_, ?_⟩
  · have := h5 0 (by simp)
    simp only [Int.cast_zero] at this
    rw [this]
    norm_num [linCorr, sampleAt, Finset.sum_range_succ]
  · have h7 := h6 3 (by rw [hs]; norm_num)
    rw [h7]
    congr 2
    push_cast
    ring

end Xcorr
end SeisMIC
