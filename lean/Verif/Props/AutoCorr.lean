import Verif.Props.Xcorr

/-!
# C225: autocorrelations are symmetric and largest at zero lag
-/

namespace SeisMIC
namespace Xcorr

open Complex Finset

/-! ### Lemmas -/

theorem crossSpectrum_self (freqs : List Rat) (B : List ℂ) (h : freqs.length = B.length) :
    crossSpectrum freqs 0 B B = B.map fun z => (normSq z : ℂ) := by
  unfold crossSpectrum
  induction B generalizing freqs with
  | nil => rfl
  | cons z B ih =>
    cases freqs with
    | nil => simp at h
    | cons f freqs =>
      simp only [List.zipWith3, List.map_cons]
      rw [ih freqs (by simpa using h)]
      congr 1
      rw [← Complex.normSq_eq_conj_mul_self]
      simp

theorem irfft_power (B : List ℂ) (tmp : List ℝ) (h : irfft (B.map fun z => (normSq z : ℂ)) = .ok tmp) :
    ∃ v0, tmp[0]? = some v0 ∧ ∀ v ∈ tmp, |v| ≤ v0 := by
  have hg : ∀ k, (B.map fun z => (normSq z : ℂ)).getD k 0 = (normSq (B.getD k 0) : ℂ) := by
    intro k
    rw [List.getD_eq_getElem?_getD, List.getD_eq_getElem?_getD, List.getElem?_map]
    cases B[k]? <;> simp
  unfold irfft at h
  simp only [hg, List.length_map] at h
  generalize hp : (fun k => normSq (B.getD k 0)) = p at *
  have hp' : ∀ k, normSq (B.getD k 0) = p k := fun k => congrFun hp k
  have hp0 : ∀ k, 0 ≤ p k := fun k => by rw [← hp']; exact Complex.normSq_nonneg _
  simp only [hp'] at h
  by_cases hm : B.length - 1 = 0
  · rw [if_pos hm] at h
    cases h
  · rw [if_neg hm] at h
    generalize B.length - 1 = m at *
    have h := (Except.ok.inj h).symm
    subst h
    have hre : ∀ (k : ℕ) (j : ℕ), ((p k : ℂ) * exp (2 * Real.pi * I * (j * k / (2 * m : ℕ)))).re = p k * Real.cos (2 * Real.pi * (j * k / (2 * m : ℕ))) := by
      intro k j
      rw [Complex.re_ofReal_mul]
      congr 1
      have : (2 * Real.pi * I * (j * k / (2 * m : ℕ)) : ℂ) = ((2 * Real.pi * (j * k / (2 * m : ℕ)) : ℝ) : ℂ) * I := by
        push_cast
        ring
      rw [this, Complex.exp_ofReal_mul_I_re]
    simp only [hre, Complex.ofReal_re]
    refine ⟨_, by rw [List.getElem?_map, List.getElem?_range (by omega)]; rfl, fun v hv => ?_⟩
    obtain ⟨j, -, rfl⟩ := List.mem_map.1 hv
    rw [abs_div, abs_of_nonneg (a := ((2 * m : ℕ) : ℝ)) (Nat.cast_nonneg (2 * m))]
    refine div_le_div_of_nonneg_right ?_ (Nat.cast_nonneg _)
    refine (abs_add_le _ _).trans (add_le_add ((abs_add_le _ _).trans (add_le_add ?_ ?_)) ?_)
    · rw [abs_of_nonneg (hp0 0)]
    · refine (Finset.abs_sum_le_sum_abs _ _).trans (Finset.sum_le_sum fun k _ => ?_)
      rw [abs_mul, abs_mul, abs_of_nonneg (hp0 k)]
      have := Real.abs_cos_le_one (2 * Real.pi * ((j : ℝ) * k / (2 * m : ℕ)))
      simp only [Nat.cast_zero, zero_mul, zero_div, mul_zero, Real.cos_zero, mul_one, Nat.abs_ofNat]
      nlinarith [hp0 k]
    · rw [abs_mul, abs_pow, abs_neg, abs_one, one_pow, abs_of_nonneg (hp0 m)]
      simp

/-! ### C225 -/

/-- **C225** For every spectrum, that is after any processing, and every start time: the autocorrelation has the same value at opposite lags, and its lags are
symmetric to zero. -/
theorem c225_symmetric (center normalize : Bool) (sr lts t : Rat) (N : ℕ) (B : List ℂ) (hB : B.length = N / 2 + 1) (row : List ℝ) (l : Rat)
    (h : corrRow center normalize sr lts N t t B B = .ok (row, l)) : row.reverse = row ∧ l = -(l + (row.length - 1) / sr) := by
  have := c10_exchange_reverses center normalize sr lts t t N B B hB hB row l h
  rw [h] at this
  have e := Except.ok.inj this
  exact ⟨(congrArg Prod.fst e).symm, congrArg Prod.snd e⟩

/-- **C225** The value in the middle, at zero lag, is not exceeded in absolute value by any other one. -/
theorem c225_largest (center normalize : Bool) (sr lts t : Rat) (N : ℕ) (B : List ℂ) (hB : B.length = N / 2 + 1) (row : List ℝ) (l : Rat)
    (h : corrRow center normalize sr lts N t t B B = .ok (row, l)) :
    ∃ s v0, row.length = 2 * s + 1 ∧ row[s]? = some v0 ∧ l + s / sr = 0 ∧ ∀ v ∈ row, |v| ≤ v0 := by
  have hro : roffset center sr 0 = 0 := by
    unfold roffset
    split
    · rfl
    · simp [fix]
  unfold corrRow at h
  simp only [sub_self, hro] at h
  rw [crossSpectrum_self _ _ (by simp [rfftfreq, hB])] at h
  cases hi : irfft (B.map fun z => (normSq z : ℂ)) with
  | error e => rw [hi] at h; cases h
  | ok tmp =>
    obtain ⟨v0, hv0, hmax⟩ := irfft_power B tmp hi
    rw [hi] at h
    simp only [bind, Except.bind] at h
    split at h
    · rename_i hlen
      simp only [pure, Except.pure] at h
      have h := Except.ok.inj h
      simp only [Prod.mk.injEq] at h
      obtain ⟨rfl, rfl⟩ := h
      generalize hs : sampleToSave sr lts = s at *
      have hpos : 0 < tmp.length := by
        cases tmp with
        | nil => cases hv0
        | cons _ _ => simp
      have h1 : 1 ≤ s ∧ s < tmp.length := by
        unfold cutCentre at hlen
        split at hlen
        · rename_i h0
          subst h0
          simp at hlen
          omega
        · simp at hlen
          omega
      have hn : 0 ≤ corrNorm normalize B B := by
        unfold corrNorm
        split
        · exact div_nonneg (mul_nonneg (Real.sqrt_nonneg _) (Real.sqrt_nonneg _)) (Nat.cast_nonneg _)
        · exact zero_le_one
      refine ⟨s, v0 / corrNorm normalize B B, by simpa using hlen, ?_, by ring, fun v hv => ?_⟩
      · rw [List.getElem?_map, (c11_window s tmp h1.1 h1.2).2.2, hv0]
        rfl
      · obtain ⟨w, hw, rfl⟩ := List.mem_map.1 hv
        have hw' : w ∈ tmp := by
          unfold cutCentre at hw
          rcases List.mem_append.1 hw with hw | hw
          · split at hw
            · exact hw
            · exact List.mem_of_mem_drop hw
          · exact List.mem_of_mem_take hw
        rw [abs_div, abs_of_nonneg hn]
        exact div_le_div_of_nonneg_right (hmax w hw') hn
    · cases h

/-- the autocorrelation of `1, -1, 0, 0` -/
example : ∃ row l, corrRow false true 1 2 4 0 0 (rfft [1, -1, 0, 0]) (rfft [1, -1, 0, 0]) = .ok (row, l) ∧ row[2]? = some (2 / 3) ∧ ∀ v ∈ row, |v| ≤ 2 / 3 := by
  obtain ⟨row, l, h1, h2⟩ := c85_autocorrelation_peak_violated
  obtain ⟨s, v0, g1, g2, g3, g4⟩ := c225_largest false true 1 2 0 4 _ (rfft_length _) row l h1
  refine ⟨row, l, h1, h2, ?_⟩
  have hl : row.length = 5 := by
    unfold corrRow at h1
    simp only [bind, Except.bind] at h1
    split at h1
    · cases h1
    · split at h1
      · rename_i hc
        have e := Except.ok.inj h1
        simp only [Prod.mk.injEq] at e
        rw [← e.1, List.length_map, hc]
        simp [sampleToSave]
      · cases h1
  have hs : s = 2 := by omega
  subst hs
  rw [h2] at g2
  cases g2
  exact g4

end Xcorr
end SeisMIC
