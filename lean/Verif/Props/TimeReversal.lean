import Verif.Props.Xcorr

/-!
# C223: recordings in reversed time
-/

namespace SeisMIC
namespace Xcorr

open Complex Finset

/-! ### Lemmas -/

/-- the phase by which the spectra of reversed traces are multiplied -/
noncomputable def revPhase (n N k : ℕ) : ℂ := exp (-(2 * Real.pi * I * (((n : ℂ) - 1) * k / N)))

theorem dft_padded (x : List ℝ) (m k : ℕ) : dft (x ++ List.replicate m 0) k =
    ∑ j ∈ range x.length, (x.getD j 0 : ℂ) * exp (-(2 * Real.pi * I * (j * k / ((x.length + m : ℕ) : ℂ)))) := by
  unfold dft
  simp only [List.length_append, List.length_replicate]
  rw [Finset.sum_range_add, Finset.sum_eq_zero (s := range m), add_zero]
  · refine Finset.sum_congr rfl fun j hj => ?_
    rw [List.getD_append _ _ _ _ (Finset.mem_range.1 hj)]
  · intro j hj
    rw [List.getD_append_right _ _ _ _ (by omega)]
    have : (List.replicate m (0 : ℝ)).getD (x.length + j - x.length) 0 = 0 := by
      rw [Nat.add_sub_cancel_left, List.getD_eq_getElem _ _ (by simpa using hj)]
      simp
    rw [this]
    simp

theorem dft_reverse (x : List ℝ) (m k : ℕ) : dft (x.reverse ++ List.replicate m 0) k =
    revPhase x.length (x.length + m) k * (starRingEnd ℂ) (dft (x ++ List.replicate m 0) k) := by
  rw [dft_padded, dft_padded, map_sum, Finset.mul_sum]
  rw [List.length_reverse, ← Finset.sum_range_reflect]
  refine Finset.sum_congr rfl fun j hj => ?_
  have hj' := Finset.mem_range.1 hj
  have e1 : x.reverse.getD (x.length - 1 - j) 0 = x.getD j 0 := by
    rw [List.getD_eq_getElem _ _ (by rw [List.length_reverse]; omega), List.getElem_reverse, List.getD_eq_getElem _ _ hj']
    congr 1
    omega
  have e2 : ((x.length - 1 - j : ℕ) : ℂ) = (x.length : ℂ) - 1 - j := by
    rw [Nat.cast_sub (by omega), Nat.cast_sub (by omega)]
    norm_num
  rw [e1, e2, map_mul, Complex.conj_ofReal, ← Complex.exp_conj]
  unfold revPhase
  rw [mul_left_comm, ← Complex.exp_add]
  congr 2
  simp only [map_neg, map_mul, map_div₀, Complex.conj_ofReal, Complex.conj_I, map_ofNat, map_natCast]
  ring

theorem normSq_revPhase (n N k : ℕ) : (starRingEnd ℂ) (revPhase n N k) * revPhase n N k = 1 := by
  unfold revPhase
  rw [← Complex.exp_conj, ← Complex.exp_add]
  refine Eq.trans (congrArg _ ?_) Complex.exp_zero
  simp only [map_neg, map_mul, map_div₀, map_sub, map_one, Complex.conj_ofReal, Complex.conj_I, map_ofNat, map_natCast]
  ring

theorem normTerm_reverse (x : List ℝ) (m : ℕ) : normTerm (rfft (x.reverse ++ List.replicate m 0)) = normTerm (rfft (x ++ List.replicate m 0)) := by
  have hsq : ∀ k, normSq (dft (x.reverse ++ List.replicate m 0) k) = normSq (dft (x ++ List.replicate m 0) k) := by
    intro k
    rw [dft_reverse, Complex.normSq_mul, Complex.normSq_conj]
    have : Complex.normSq (revPhase x.length (x.length + m) k) = 1 := by
      have h := normSq_revPhase x.length (x.length + m) k
      rw [← Complex.normSq_eq_conj_mul_self] at h
      exact_mod_cast h
    rw [this, one_mul]
  have h0 : ∀ a : List ℝ, (rfft a).getD 0 0 = dft a 0 := by
    intro a
    unfold rfft
    rw [List.getD_eq_getElem _ _ (by simp)]
    simp
  unfold normTerm
  rw [h0, h0, dft_reverse]
  have hp : revPhase x.length (x.length + m) 0 = 1 := by
    unfold revPhase
    simp
  rw [hp, one_mul, Complex.conj_re]
  congr 2
  unfold rfft
  simp only [List.length_append, List.length_reverse, List.length_replicate, List.map_map]
  congr 1
  exact List.map_congr_left fun k _ => hsq k

theorem zipWith3_map_range (l : List ℕ) (f g : ℕ → ℂ) (h : ℕ → Rat) (F : ℂ → ℂ → Rat → ℂ) :
    List.zipWith3 F (l.map f) (l.map g) (l.map h) = l.map fun i => F (f i) (g i) (h i) := by
  induction l with
  | nil => rfl
  | cons a l ih =>
    simp only [List.map_cons, List.zipWith3, ih]

/-! ### C223 -/

/-- **C223** For all recordings of the same number of samples, all start times, sampling rates and settings: the correlation of the recordings in reversed
time is the correlation of the two stations in exchanged order. Reversing time at `T` maps the first samples to the last ones, so that the difference of
the start times changes its sign. -/
theorem c223_exchange (center normalize : Bool) (sr lts t0 t1 T : Rat) (x y : List ℝ) (hxy : x.length = y.length) :
    correlate center normalize sr lts (T - (t0 + (x.length - 1) / sr)) (T - (t1 + (y.length - 1) / sr)) x.reverse y.reverse =
      correlate center normalize sr lts t1 t0 y x := by
  rw [correlate_eq _ _ _ _ _ _ x.reverse y.reverse (by simpa using hxy), correlate_eq _ _ _ _ _ _ y x hxy.symm]
  simp only [List.length_reverse]
  rw [← hxy]
  generalize hm : nextFastLen (⌊(x.length : Rat) + sr * lts⌋).toNat - x.length = m
  have hd : T - (t0 + ((x.length : Rat) - 1) / sr) - (T - (t1 + ((x.length : Rat) - 1) / sr)) = t1 - t0 := by ring
  have hcross : ∀ o : Rat, crossSpectrum (rfftfreq (x.reverse ++ List.replicate m (0 : ℝ)).length sr) o (rfft (x.reverse ++ List.replicate m 0))
      (rfft (y.reverse ++ List.replicate m 0)) =
      crossSpectrum (rfftfreq (y ++ List.replicate m (0 : ℝ)).length sr) o (rfft (y ++ List.replicate m 0)) (rfft (x ++ List.replicate m 0)) := by
    intro o
    unfold crossSpectrum rfft rfftfreq
    simp only [List.length_append, List.length_reverse, List.length_replicate, ← hxy]
    rw [zipWith3_map_range, zipWith3_map_range]
    refine List.map_congr_left fun k _ => ?_
    rw [dft_reverse, dft_reverse, ← hxy, map_mul, Complex.conj_conj]
    have h := normSq_revPhase x.length (x.length + m) k
    congr 1
    calc _ = ((starRingEnd ℂ) (revPhase x.length (x.length + m) k) * revPhase x.length (x.length + m) k) *
          (dft (x ++ List.replicate m 0) k * (starRingEnd ℂ) (dft (y ++ List.replicate m 0) k)) := by ring
      _ = _ := by rw [h, one_mul, mul_comm]
  have hnorm : corrNorm normalize (rfft (x.reverse ++ List.replicate m 0)) (rfft (y.reverse ++ List.replicate m 0)) =
      corrNorm normalize (rfft (y ++ List.replicate m 0)) (rfft (x ++ List.replicate m 0)) := by
    unfold corrNorm
    rw [normTerm_reverse, normTerm_reverse, rfft_length, rfft_length]
    simp only [List.length_append, List.length_reverse, List.length_replicate, ← hxy]
    rw [mul_comm (Real.sqrt (normTerm (rfft (x ++ _))))]
  unfold corrRow
  simp only [hd, hcross, hnorm]

/-- **C223** The correlation of the recordings in reversed time is the reversed correlation, and its lags have the opposite sign: what was the last lag is
the first one. -/
theorem c223_mirror (center normalize : Bool) (sr lts t0 t1 T : Rat) (x y : List ℝ) (hxy : x.length = y.length) (row : List ℝ) (l : Rat)
    (h : correlate center normalize sr lts t0 t1 x y = .ok (row, l)) :
    correlate center normalize sr lts (T - (t0 + (x.length - 1) / sr)) (T - (t1 + (y.length - 1) / sr)) x.reverse y.reverse =
      .ok (row.reverse, -(l + (row.length - 1) / sr)) := by
  rw [c223_exchange center normalize sr lts t0 t1 T x y hxy]
  rw [correlate_eq _ _ _ _ _ _ x y hxy] at h
  rw [correlate_eq _ _ _ _ _ _ y x hxy.symm, ← hxy]
  have hl : (y ++ List.replicate (nextFastLen (⌊(x.length : Rat) + sr * lts⌋).toNat - x.length) (0 : ℝ)).length =
      (x ++ List.replicate (nextFastLen (⌊(x.length : Rat) + sr * lts⌋).toNat - x.length) (0 : ℝ)).length := by simp [hxy]
  rw [hl]
  exact c10_exchange_reverses center normalize sr lts t0 t1 _ _ _ (rfft_length _) (by rw [rfft_length, hl]) row l h

/-- a correlation that exists: the traces `1, 0` and `0, 1` -/
example : correlate false false 1 1 (10 - (0 + (2 - 1) / 1)) (10 - (0 + (2 - 1) / 1)) [0, 1] [1, 0] = .ok ([3 / 4, 1 / 4, 3 / 4], -1) := by
  have := c223_mirror false false 1 1 0 0 10 [1, 0] [0, 1] rfl _ _ c12_odd_length_violated.1
  norm_num at this ⊢
  exact this

end Xcorr
end SeisMIC
