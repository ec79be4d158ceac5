import Verif.Props.Subsample

/-!
# C188: correlations of superposed recordings

The correlation without normalisation is linear in each of the two recordings, whatever the lengths, the start times and
the saved lags are.
-/

namespace SeisMIC
namespace Xcorr

open Complex Finset

/-- specification: the recording that is `α` times the first plus `β` times the second, sample by sample -/
def mix (α β : ℝ) (x y : List ℝ) : List ℝ := List.zipWith (fun u v => α * u + β * v) x y

theorem mix_length (α β : ℝ) (x y : List ℝ) (h : x.length = y.length) : (mix α β x y).length = x.length := by
  simp [mix, h]

theorem mix_getD (α β : ℝ) (x y : List ℝ) (h : x.length = y.length) (j : ℕ) :
    (mix α β x y).getD j 0 = α * x.getD j 0 + β * y.getD j 0 := by
  unfold mix
  simp only [List.getD, List.getElem?_zipWith]
  rcases lt_or_ge j x.length with hj | hj
  · rw [List.getElem?_eq_getElem hj, List.getElem?_eq_getElem (h ▸ hj)]
    rfl
  · rw [List.getElem?_eq_none hj, List.getElem?_eq_none (h ▸ hj)]
    simp

theorem mix_append (α β : ℝ) (x y : List ℝ) (h : x.length = y.length) (n : ℕ) :
    mix α β x y ++ List.replicate n 0 = mix α β (x ++ List.replicate n 0) (y ++ List.replicate n 0) := by
  unfold mix
  rw [List.zipWith_append h]
  congr 1
  rw [List.zipWith_replicate]
  simp

theorem dft_mix (α β : ℝ) (x y : List ℝ) (h : x.length = y.length) (k : ℕ) :
    dft (mix α β x y) k = α * dft x k + β * dft y k := by
  unfold dft
  rw [mix_length _ _ _ _ h, ← h, Finset.mul_sum, Finset.mul_sum, ← Finset.sum_add_distrib]
  apply Finset.sum_congr rfl
  intro j _
  rw [mix_getD _ _ _ _ h]
  push_cast
  ring

theorem cutCentre_of_map {α β : Type} (f : α → β) (s : ℕ) (L : List α) : cutCentre s (L.map f) = (cutCentre s L).map f := by
  unfold cutCentre
  split <;> simp [List.map_drop, List.map_take]

/-- one sample of the inverse transform of a cross spectrum, for any two spectra -/
noncomputable def lagValue (sr offset : Rat) (n : ℕ) (A B : ℕ → ℂ) (j : ℕ) : ℝ :=
  let Z : ℕ → ℂ := fun k => (starRingEnd ℂ) (A k) * B k * exp (I * ((k * sr / n : Rat) : ℝ) * (offset : ℝ) * 2 * Real.pi)
  ((Z 0).re + (∑ k ∈ Ico 1 (n / 2), 2 * (Z k * exp (2 * Real.pi * I * (j * k / (2 * (n / 2) : ℕ)))).re)
    + (Z (n / 2)).re * (-1) ^ j) / (2 * (n / 2) : ℕ)

theorem irfft_lagValue (sr offset : Rat) (a b : List ℝ) (hab : a.length = b.length) :
    irfft (crossSpectrum (rfftfreq a.length sr) offset (rfft a) (rfft b)) =
      if a.length / 2 = 0 then .error .valueError
      else .ok ((List.range (2 * (a.length / 2))).map (lagValue sr offset a.length (dft a) (dft b))) := by
  unfold irfft
  simp only [length_crossSpectrum sr offset a b hab, Nat.add_sub_cancel]
  split
  · rfl
  · congr 1
    apply List.map_congr_left
    intro j _
    unfold lagValue
    simp only
    rw [getD_crossSpectrum sr offset a b hab 0 (by omega), getD_crossSpectrum sr offset a b hab _ le_rfl]
    congr 3
    apply Finset.sum_congr rfl
    intro k hk
    rw [getD_crossSpectrum sr offset a b hab k (by have := mem_Ico.1 hk; omega)]

theorem lagValue_congr (sr offset : Rat) (n : ℕ) (A A' B B' : ℕ → ℂ) (hA : ∀ k, A k = A' k) (hB : ∀ k, B k = B' k) (j : ℕ) :
    lagValue sr offset n A B j = lagValue sr offset n A' B' j := by
  rw [show A = A' from funext hA, show B = B' from funext hB]

theorem lagValue_left (sr offset : Rat) (n : ℕ) (α β : ℝ) (A A' B : ℕ → ℂ) (j : ℕ) :
    lagValue sr offset n (fun k => α * A k + β * A' k) B j = α * lagValue sr offset n A B j + β * lagValue sr offset n A' B j := by
  unfold lagValue
  simp only [map_add, map_mul, conj_ofReal]
  have key : ∀ (u v w : ℂ), ((α * u + β * v) * w).re = α * (u * w).re + β * (v * w).re := by
    intro u v w
    simp [Complex.add_re, Complex.mul_re]
    ring
  have key2 : ∀ (u v w z : ℂ), ((α * u + β * v) * w * z).re = α * (u * w * z).re + β * (v * w * z).re := by
    intro u v w z
    rw [mul_assoc, key, mul_assoc, mul_assoc]
  have key3 : ∀ (u v w z y : ℂ), ((α * u + β * v) * w * z * y).re = α * (u * w * z * y).re + β * (v * w * z * y).re := by
    intro u v w z y
    rw [mul_assoc, key2, mul_assoc _ z y, mul_assoc _ z y]
  simp only [key2, key3]
  rw [show ∀ (S1 S2 : ℕ → ℝ), (∑ k ∈ Ico 1 (n / 2), 2 * (α * S1 k + β * S2 k)) =
      α * (∑ k ∈ Ico 1 (n / 2), 2 * S1 k) + β * (∑ k ∈ Ico 1 (n / 2), 2 * S2 k) from fun S1 S2 => by
    rw [Finset.mul_sum, Finset.mul_sum, ← Finset.sum_add_distrib]
    apply Finset.sum_congr rfl; intro k _; ring]
  ring

theorem lagValue_right (sr offset : Rat) (n : ℕ) (α β : ℝ) (A B B' : ℕ → ℂ) (j : ℕ) :
    lagValue sr offset n A (fun k => α * B k + β * B' k) j = α * lagValue sr offset n A B j + β * lagValue sr offset n A B' j := by
  unfold lagValue
  have key2 : ∀ (u v w z : ℂ), (w * (α * u + β * v) * z).re = α * (w * u * z).re + β * (w * v * z).re := by
    intro u v w z
    rw [show w * (α * u + β * v) * z = (α : ℂ) * (w * u * z) + (β : ℂ) * (w * v * z) by ring]
    simp only [Complex.add_re, Complex.re_ofReal_mul]
  have key3 : ∀ (u v w z y : ℂ), (w * (α * u + β * v) * z * y).re = α * (w * u * z * y).re + β * (w * v * z * y).re := by
    intro u v w z y
    rw [mul_assoc, key2, mul_assoc _ z y, mul_assoc _ z y]
  simp only [key2, key3]
  rw [show ∀ (S1 S2 : ℕ → ℝ), (∑ k ∈ Ico 1 (n / 2), 2 * (α * S1 k + β * S2 k)) =
      α * (∑ k ∈ Ico 1 (n / 2), 2 * S1 k) + β * (∑ k ∈ Ico 1 (n / 2), 2 * S2 k) from fun S1 S2 => by
    rw [Finset.mul_sum, Finset.mul_sum, ← Finset.sum_add_distrib]
    apply Finset.sum_congr rfl; intro k _; ring]
  ring

/-- the result of a correlation without normalisation -/
theorem correlate_lagValue (center : Bool) (sr lts t0 t1 : Rat) (x y : List ℝ) (hxy : x.length = y.length) :
    let a := x ++ List.replicate (nextFastLen (⌊(x.length : Rat) + sr * lts⌋).toNat - x.length) 0
    let b := y ++ List.replicate (nextFastLen (⌊(x.length : Rat) + sr * lts⌋).toNat - x.length) 0
    let s := sampleToSave sr lts
    let ro := roffset center sr (t0 - t1)
    correlate center false sr lts t0 t1 x y =
      if a.length / 2 = 0 then .error .valueError
      else if (cutCentre s (List.range (2 * (a.length / 2)))).length = 2 * s + 1 then
        .ok ((cutCentre s (List.range (2 * (a.length / 2)))).map (lagValue sr (t0 - t1 - ro) a.length (dft a) (dft b)),
          -(s : Rat) / sr - ro)
      else .error .valueError := by
  intro a b s ro
  rw [correlate_eq center false sr lts t0 t1 x y hxy]
  unfold corrRow
  simp only
  rw [irfft_lagValue sr _ a b (by simp [a, b, hxy])]
  by_cases h0 : a.length / 2 = 0
  · simp only [if_pos h0]; rfl
  · simp only [if_neg h0, bind, Except.bind]
    rw [cutCentre_of_map]
    simp only [List.length_map]
    split
    · simp only [pure, Except.pure, corrNorm, Bool.false_eq_true, if_false, div_one, List.map_id']
      rfl
    · rfl

theorem zipWith_map_same {ι : Type} (g : ℝ → ℝ → ℝ) (f f' : ι → ℝ) (L : List ι) :
    List.zipWith g (L.map f) (L.map f') = L.map fun i => g (f i) (f' i) := by
  induction L with
  | nil => rfl
  | cons a L ih => simp [ih]

/-- **C188** The first recording is a superposition: the correlation is the superposition of the correlations, with the
same lags. If one of the three correlations fails, all do. -/
theorem c188_first (center : Bool) (sr lts t0 t1 : Rat) (α β : ℝ) (x x' y : List ℝ) (hx : x.length = x'.length)
    (hxy : x.length = y.length) :
    (∃ row row' lag, correlate center false sr lts t0 t1 x y = .ok (row, lag) ∧
        correlate center false sr lts t0 t1 x' y = .ok (row', lag) ∧
        correlate center false sr lts t0 t1 (mix α β x x') y = .ok (mix α β row row', lag) ∧ row.length = row'.length) ∨
      ∃ e, correlate center false sr lts t0 t1 x y = .error e ∧ correlate center false sr lts t0 t1 x' y = .error e ∧
        correlate center false sr lts t0 t1 (mix α β x x') y = .error e := by
  have hm := mix_length α β x x' hx
  have h1 := correlate_lagValue center sr lts t0 t1 x y hxy
  have h2 := correlate_lagValue center sr lts t0 t1 x' y (hx ▸ hxy)
  have h3 := correlate_lagValue center sr lts t0 t1 (mix α β x x') y (hm.trans hxy)
  simp only [hm, ← hx] at h1 h2 h3
  rw [mix_append α β x x' hx] at h3
  simp only [List.length_append, List.length_replicate, ← hx] at h1 h2 h3
  rw [h1, h2, h3]
  generalize nextFastLen (⌊(x.length : Rat) + sr * lts⌋).toNat - x.length = p
  rw [mix_length _ _ _ _ (by simp [hx])]
  simp only [List.length_append, List.length_replicate]
  split
  · exact Or.inr ⟨_, rfl, rfl, rfl⟩
  split
  · refine Or.inl ⟨_, _, _, rfl, rfl, ?_, by simp⟩
    congr 2
    unfold mix
    rw [zipWith_map_same]
    apply List.map_congr_left
    intro j _
    rw [← lagValue_left]
    exact lagValue_congr _ _ _ _ _ _ _ (fun k => dft_mix α β _ _ (by simp [hx]) k) (fun _ => rfl) j
  · exact Or.inr ⟨_, rfl, rfl, rfl⟩

/-- **C188** The same for the second recording. -/
theorem c188_second (center : Bool) (sr lts t0 t1 : Rat) (α β : ℝ) (x y y' : List ℝ) (hy : y.length = y'.length)
    (hxy : x.length = y.length) :
    (∃ row row' lag, correlate center false sr lts t0 t1 x y = .ok (row, lag) ∧
        correlate center false sr lts t0 t1 x y' = .ok (row', lag) ∧
        correlate center false sr lts t0 t1 x (mix α β y y') = .ok (mix α β row row', lag) ∧ row.length = row'.length) ∨
      ∃ e, correlate center false sr lts t0 t1 x y = .error e ∧ correlate center false sr lts t0 t1 x y' = .error e ∧
        correlate center false sr lts t0 t1 x (mix α β y y') = .error e := by
  have hm := mix_length α β y y' hy
  have h1 := correlate_lagValue center sr lts t0 t1 x y hxy
  have h2 := correlate_lagValue center sr lts t0 t1 x y' (hxy.trans hy)
  have h3 := correlate_lagValue center sr lts t0 t1 x (mix α β y y') (hxy.trans hm.symm)
  simp only at h1 h2 h3
  rw [mix_append α β y y' hy] at h3
  rw [h1, h2, h3]
  generalize nextFastLen (⌊(x.length : Rat) + sr * lts⌋).toNat - x.length = p
  split
  · exact Or.inr ⟨_, rfl, rfl, rfl⟩
  split
  · refine Or.inl ⟨_, _, _, rfl, rfl, ?_, by simp⟩
    congr 2
    conv_rhs => unfold mix
    rw [zipWith_map_same]
    apply List.map_congr_left
    intro j _
    rw [← lagValue_right]
    exact lagValue_congr _ _ _ _ _ _ _ (fun _ => rfl) (fun k => dft_mix α β _ _ (by simp [hy]) k) j
  · exact Or.inr ⟨_, rfl, rfl, rfl⟩

/-- three samples each, start times that differ by half a sample: the correlations succeed -/
example : ∃ row row' lag, correlate false false 1 3 (1 / 2) 0 [1, 2, 3] [0, 1, 1] = .ok (row, lag) ∧
    correlate false false 1 3 (1 / 2) 0 [0, 0, 1] [0, 1, 1] = .ok (row', lag) ∧
    correlate false false 1 3 (1 / 2) 0 [2, 4, 9] [0, 1, 1] = .ok (mix 2 3 row row', lag) ∧ row.length = 7 := by
  have hfl : (⌊(([1, 2, 3] : List ℝ).length : Rat) + 1 * 3⌋).toNat = 6 := by
    have : ⌊(([1, 2, 3] : List ℝ).length : Rat) + 1 * 3⌋ = 6 := by rw [Int.floor_eq_iff]; norm_num
    rw [this]; rfl
  have hN : nextFastLen (⌊(([1, 2, 3] : List ℝ).length : Rat) + 1 * 3⌋).toNat = 6 := by
    rw [hfl]; exact nextFastLen_self 6 (by decide)
  have hs : sampleToSave 1 3 = 3 := by
    have : ⌈(3 * 1 : Rat)⌉ = 3 := by rw [Int.ceil_eq_iff]; norm_num
    unfold sampleToSave; rw [this]; rfl
  obtain ⟨r, l, P, h1, hl, -⟩ := c12_between_samples_partial false 1 3 (1 / 2) 0 [1, 2, 3] [0, 1, 1] (by norm_num) rfl 6 hN.symm
    (by simp) (by decide) (by rw [hs]; norm_num) (by rw [hs]; norm_num)
  rw [hs] at hl
  rcases c188_first false 1 3 (1 / 2) 0 2 3 [1, 2, 3] [0, 0, 1] [0, 1, 1] rfl rfl with ⟨row, row', lag, g1, g2, g3, -⟩ | ⟨e, g1, -⟩
  · refine ⟨row, row', lag, g1, g2, ?_, ?_⟩
    · rw [← g3]; norm_num [mix]
    · rw [g1] at h1; injection h1 with h1; injection h1 with h1 _; rw [h1]; exact hl
  · rw [g1] at h1; simp at h1

end Xcorr
end SeisMIC
