import Verif.Lemmas.Xcorr
import Mathlib.Tactic.NormNum

/-!
# C11, C12, C82, C85 and the numerical part of C10: the correlation function
-/

namespace SeisMIC
namespace Xcorr

open Complex Finset

theorem le_nextFastLen (n : ℕ) : n ≤ nextFastLen n := (Nat.find_spec (exists_smooth_ge n)).1

theorem rfft_length (a : List ℝ) : (rfft a).length = a.length / 2 + 1 := by simp [rfft]

theorem corrRow_even (center normalize : Bool) (sr lts t0 t1 : Rat) (a b : List ℝ) (m : ℕ) (hm : 0 < m)
    (ha : a.length = 2 * m) (hab : a.length = b.length) (d : ℤ)
    (hd : (t0 - t1 - roffset center sr (t0 - t1)) * sr = d)
    (hs : 1 ≤ sampleToSave sr lts) (hsn : sampleToSave sr lts < a.length) :
    corrRow center normalize sr lts a.length t0 t1 (rfft a) (rfft b) =
      .ok ((List.range (2 * sampleToSave sr lts + 1)).map fun i : ℕ =>
          circCorr a b (i - sampleToSave sr lts + d) / corrNorm normalize (rfft a) (rfft b),
        -(sampleToSave sr lts : Rat) / sr - roffset center sr (t0 - t1)) := by
  unfold corrRow
  simp only
  rw [irfft_cross sr _ a b hab m hm ha d hd]
  simp only [bind, Except.bind]
  rw [if_pos (cutCentre_length _ _ hs (by simpa using hsn))]
  simp only [pure, Except.pure]
  congr 2
  apply List.ext_getElem?
  intro i
  by_cases hi : i ≤ 2 * sampleToSave sr lts
  · rw [List.getElem?_map, List.getElem?_map, cutCentre_get _ _ hs (by simpa using hsn) i hi]
    simp only [List.length_map, List.length_range]
    have hN : (0 : ℤ) < a.length := by omega
    have b1 := Int.emod_nonneg ((i : ℤ) - sampleToSave sr lts) hN.ne'
    have b2 := Int.emod_lt_of_pos ((i : ℤ) - sampleToSave sr lts) hN
    rw [List.getElem?_map, List.getElem?_range (by omega), List.getElem?_range (by omega)]
    simp only [Option.map_some]
    congr 2
    apply circCorr_period
    rw [← hab, Int.toNat_of_nonneg b1, Int.emod_add_emod]
  · rw [List.getElem?_eq_none, List.getElem?_eq_none]
    · simp; omega
    · rw [List.length_map, cutCentre_length _ _ hs (by simpa using hsn)]; omega

theorem correlate_eq (center normalize : Bool) (sr lts t0 t1 : Rat) (x y : List ℝ) :
    let N := nextFastLen (⌊(x.length : Rat) + sr * lts⌋).toNat
    x.length = y.length →
    correlate center normalize sr lts t0 t1 x y =
      corrRow center normalize sr lts (x ++ List.replicate (N - x.length) 0).length t0 t1
        (rfft (x ++ List.replicate (N - x.length) 0)) (rfft (y ++ List.replicate (N - x.length) 0)) := by
  intro N hxy
  unfold correlate zeroPadding paddedLen
  simp only [bind, Except.bind, pure, Except.pure]
  rw [← hxy]

/-- **C11** The saved window of an array of lags `0, 1, ..., n-1` (negative lags
at the end): `2s+1` samples, sample number `i` is the one of lag `i - s`, so that
zero lag is in the middle and lags increase by one. -/
theorem c11_window {α : Type} (s : ℕ) (tmp : List α) (hs : 1 ≤ s) (hn : s < tmp.length) :
    (cutCentre s tmp).length = 2 * s + 1 ∧
    (∀ i, i ≤ 2 * s → (cutCentre s tmp)[i]? = tmp[(((i : ℤ) - s) % tmp.length).toNat]?) ∧
    (cutCentre s tmp)[s]? = tmp[0]? := by
  refine ⟨cutCentre_length s tmp hs hn, fun i hi => cutCentre_get s tmp hs hn i hi, ?_⟩
  rw [cutCentre_get s tmp hs hn s (by omega)]
  simp

/-- **C11** The number of samples saved on each side is the smallest one that
covers `lengthToSave`. -/
theorem c11_samples (sr lts : Rat) (hsr : 0 < sr) (hl : 0 ≤ lts) :
    lts ≤ sampleToSave sr lts / sr ∧ ∀ n : ℕ, lts ≤ n / sr → sampleToSave sr lts ≤ n := by
  unfold sampleToSave
  have h0 : 0 ≤ ⌈lts * sr⌉ := Int.ceil_nonneg (mul_nonneg hl hsr.le)
  constructor
  · rw [le_div_iff₀ hsr]
    refine (Int.le_ceil _).trans ?_
    have : (⌈lts * sr⌉ : Rat) = ((⌈lts * sr⌉.toNat : ℤ) : Rat) := by rw [Int.toNat_of_nonneg h0]
    rw [this, Int.cast_natCast]
  · intro n hn
    rw [le_div_iff₀ hsr] at hn
    have : ⌈lts * sr⌉ ≤ (n : ℤ) := Int.ceil_le.2 (by exact_mod_cast hn)
    omega

/-- **C11** is violated for `lengthToSave = 0` (only zero lag): `tmp[-0:]` is the
whole array, and the result does not fit. -/
theorem c11_zero_length_violated (center normalize : Bool) (sr t0 t1 : Rat) (x y : List ℝ)
    (hxy : x.length = y.length) :
    correlate center normalize sr 0 t0 t1 x y = .error .valueError := by
  rw [correlate_eq center normalize sr 0 t0 t1 x y hxy]
  unfold corrRow
  have hs : sampleToSave sr 0 = 0 := by simp [sampleToSave]
  simp only [hs]
  cases h : irfft (crossSpectrum _ _ _ _) with
  | error e =>
    unfold irfft at h
    simp only at h
    split at h
    · cases h; rfl
    · cases h
  | ok tmp =>
    simp only [bind, Except.bind]
    rw [if_neg]
    · rfl
    · unfold irfft at h
      simp only at h
      split at h
      · cases h
      · rename_i hm
        injection h with h
        rw [← h]
        simp [cutCentre]
        intro h1
        omega

theorem fix_int (d : ℤ) : fix (d : Rat) = d := by
  unfold fix
  split <;> simp

/-- **C12** (and **C11**, start lag) If the traces have the same length, the
padded length is even, `lengthToSave` is a whole number `s` of samples, the
start times differ by a whole number of samples and (with
`center_correlation`) the shift fits into the padding, then sample `i` of the
saved correlation is the linear correlation of the two recordings at the lag
`start_lag + i / sampling_rate` that the header says, for traces of any length
and any values. Missing for the full property: odd padded length and fractions
of samples, see below. -/
theorem c12_lag_and_no_wrap_partial (center : Bool) (sr lts t0 t1 : Rat) (x y : List ℝ) (s : ℕ) (d : ℤ)
    (hxy : x.length = y.length) (hx : x ≠ []) (hsr : 0 < sr) (hlts : sr * lts = s) (hs : 1 ≤ s)
    (heven : Even (nextFastLen (x.length + s))) (hoff : (t0 - t1) * sr = d)
    (hshift : center = true → |d| + s ≤ nextFastLen (x.length + s) - x.length) :
    ∃ row startLag, correlate center false sr lts t0 t1 x y = .ok (row, startLag) ∧
      row.length = 2 * s + 1 ∧
      startLag = (if center then -(s : Rat) / sr else -(s : Rat) / sr - (t0 - t1)) ∧
      ∀ i, i ≤ 2 * s → row[i]? = some (corrAtLag t0 t1 sr x y (startLag + i / sr)) := by
  have hsave : sampleToSave sr lts = s := by
    unfold sampleToSave; rw [mul_comm, hlts]; simp
  have hfl : (⌊(x.length : Rat) + sr * lts⌋).toNat = x.length + s := by
    rw [hlts]
    have : ((x.length : Rat) + (s : Rat)) = ((x.length + s : ℕ) : Rat) := by push_cast; rfl
    rw [this, Int.floor_natCast]; exact Int.toNat_natCast _
  obtain ⟨m, hm⟩ := heven
  have hge := le_nextFastLen (x.length + s)
  have hxpos : 0 < x.length := List.length_pos_iff.2 hx
  have heq := correlate_eq center false sr lts t0 t1 x y hxy
  simp only [hfl] at heq
  set N := nextFastLen (x.length + s) with hN
  set a := x ++ List.replicate (N - x.length) (0 : ℝ) with ha
  set b := y ++ List.replicate (N - x.length) (0 : ℝ) with hb
  have hal : a.length = N := by rw [ha]; simp; omega
  have hbl : b.length = N := by rw [hb]; simp; omega
  set ro := roffset center sr (t0 - t1) with hro
  have hroval : ro = if center then 0 else t0 - t1 := by
    rw [hro]; unfold roffset
    cases center
    · simp only [Bool.false_eq_true, if_false]
      rw [hoff, fix_int, ← hoff]; field_simp
    · rfl
  have hcorr := corrRow_even center false sr lts t0 t1 a b m (by omega) (by omega) (by omega)
    (if center then d else 0) (by
      rw [← hro, hroval]
      cases center
      · simp
      · simpa using hoff) (by omega) (by omega)
  rw [hsave] at hcorr
  refine ⟨_, _, heq.trans hcorr, by simp, ?_, ?_⟩
  · rw [← hro, hroval]
    cases center <;> simp
  · intro i hi
    rw [List.getElem?_map, List.getElem?_range (by omega)]
    simp only [Option.map_some, corrNorm, Bool.false_eq_true, if_false, div_one]
    congr 1
    have hlen : N - x.length ≤ N - x.length := le_rfl
    rw [ha, hb, circCorr_pad x y hxy]
    · unfold linCorr corrAtLag
      apply Finset.sum_congr rfl
      intro j _
      congr 1
      unfold valueAt
      have hq : (t0 + (j : Rat) / sr + (-(s : Rat) / sr - roffset center sr (t0 - t1) + (i : Rat) / sr) - t1) * sr =
          (((j : ℤ) + ((i : ℤ) - s + if center then d else 0) : ℤ) : Rat) := by
        rw [← hro, hroval]
        have hsr0 := hsr.ne'
        cases center
        · simp only [Bool.false_eq_true, if_false]
          push_cast; field_simp; ring
        · simp only [if_true]
          push_cast; rw [← hoff]; field_simp; ring
      rw [hq, Rat.den_intCast, if_pos rfl, Rat.num_intCast]
    · cases center
      · simp only [Bool.false_eq_true, if_false, add_zero]
        rw [abs_le]; constructor <;> omega
      · simp only [if_true]
        have := hshift rfl
        have hd := abs_le.1 (le_refl |d|)
        rw [abs_le]; constructor <;> omega

theorem nextFastLen_self (n : ℕ) (h : n ∣ 30 ^ n) : nextFastLen n = n := by
  apply le_antisymm
  · exact Nat.find_min' _ ⟨le_rfl, h⟩
  · exact le_nextFastLen n

/-- three samples, three lags: padded length 6 -/
example : ∃ row, correlate false false 1 3 10 9 [1, 2, 3] [0, 1, 1] = .ok (row, -4) ∧
    row[3]? = some (corrAtLag 10 9 1 [1, 2, 3] [0, 1, 1] (-1)) := by
  obtain ⟨row, l, h1, _, h3, h4⟩ := c12_lag_and_no_wrap_partial false 1 3 10 9 [1, 2, 3] [0, 1, 1] 3 1 rfl
    (by simp) (by norm_num) (by norm_num) (by norm_num)
    (by rw [show ([1, 2, 3] : List ℝ).length + 3 = 6 from rfl, nextFastLen_self 6 (by decide)]; decide) (by norm_num) (by simp)
  simp only [Bool.false_eq_true, if_false] at h3
  have hl : l = -4 := by rw [h3]; norm_num
  subst hl
  exact ⟨row, h1, by rw [h4 3 (by norm_num)]; norm_num⟩

theorem re_exp_third : (exp (-(2 * Real.pi * I * (1 / 3)))).re = -1 / 2 := by
  rw [show -(2 * (Real.pi : ℂ) * I * (1 / 3)) = ((-(Real.pi - Real.pi / 3) : ℝ) : ℂ) * I by push_cast; ring]
  rw [exp_ofReal_mul_I_re, Real.cos_neg, Real.cos_pi_sub, Real.cos_pi_div_three]; norm_num

/-- **C12** is violated if the padded length is odd (`irfft` without the number
of samples assumes an even number): the correlation of the traces `1, 0` and
`0, 1` has the values `0, 0, 1` at the lags `-1, 0, 1`; the padded length is 3,
and the saved values are `3/4, 1/4, 3/4`. -/
theorem c12_odd_length_violated :
    correlate false false 1 1 0 0 [1, 0] [0, 1] = .ok ([3 / 4, 1 / 4, 3 / 4], -1) ∧
    [-1, 0, 1].map (corrAtLag 0 0 1 [1, 0] [0, 1]) = [0, 0, 1] := by
  constructor
  · rw [correlate_eq false false 1 1 0 0 [1, 0] [0, 1] rfl]
    have hN : nextFastLen (⌊(([1, 0] : List ℝ).length : Rat) + 1 * 1⌋).toNat = 3 := by
      have : (⌊(([1, 0] : List ℝ).length : Rat) + 1 * 1⌋).toNat = 3 := by
        rw [show ((([1, 0] : List ℝ).length : Rat) + 1 * 1) = ((3 : ℕ) : Rat) by norm_num, Int.floor_natCast]; rfl
      rw [this]; exact nextFastLen_self 3 (by decide)
    rw [hN]
    simp only [List.length_cons, List.length_nil, List.cons_append, List.nil_append,
      show 3 - (0 + 1 + 1) = 1 by rfl, List.replicate_one]
    have hs : sampleToSave 1 1 = 1 := by simp [sampleToSave]
    have hro : roffset false 1 (0 - 0) = 0 := by simp [roffset, fix]
    have ha : rfft [1, 0, 0] = [1, 1] := by
      simp [rfft, dft, List.range_succ, Finset.sum_range_succ]
    have hb : rfft [0, 1, 0] = [1, exp (-(2 * Real.pi * I * (1 / 3)))] := by
      simp [rfft, dft, List.range_succ, Finset.sum_range_succ]
    unfold corrRow
    simp only [hs, hro, ha, hb]
    have hM : crossSpectrum (rfftfreq (0 + 1 + 1 + 1) 1) (0 - 0 - 0) [1, 1] [1, exp (-(2 * Real.pi * I * (1 / 3)))] =
        [1, exp (-(2 * Real.pi * I * (1 / 3)))] := by
      simp [crossSpectrum, rfftfreq, List.range_succ, List.zipWith3]
    rw [hM]
    unfold irfft
    simp only [List.length_cons, List.length_nil, bind, Except.bind]
    rw [if_neg (by norm_num)]
    simp only [corrNorm, cutCentre, List.range_succ, List.range_zero, List.getD, List.map_append]
    simp [pure, Except.pure]
    norm_num
    rw [re_exp_third]; norm_num
  · simp [corrAtLag, valueAt, sampleAt, Finset.sum_range_succ]

/-- **C12** is violated if `lengthToSave` is no whole number of samples: the
padding is rounded down and the number of saved samples is rounded up. Five
samples at 1 Hz, `lengthToSave = 1.5`: the padded length is 6, two lags are
saved on each side, and the value at lag 2 is the product of the last sample of
the first and the first sample of the second trace, which is the correlation at
lag -4. -/
theorem c12_fraction_violated :
    ∃ row, correlate false false 1 (3 / 2) 0 0 [0, 0, 0, 0, 1] [1, 0, 0, 0, 0] = .ok (row, -2) ∧
      row[4]? = some 1 ∧ corrAtLag 0 0 1 [0, 0, 0, 0, 1] [1, 0, 0, 0, 0] (-2 + 4 / 1) = 0 := by
  have heq := correlate_eq false false 1 (3 / 2) 0 0 [0, 0, 0, 0, 1] [1, 0, 0, 0, 0] rfl
  have hfl : (⌊(([0, 0, 0, 0, 1] : List ℝ).length : Rat) + 1 * (3 / 2)⌋).toNat = 6 := by
    have : ⌊(([0, 0, 0, 0, 1] : List ℝ).length : Rat) + 1 * (3 / 2)⌋ = 6 := by
      rw [Int.floor_eq_iff]; norm_num
    rw [this]; rfl
  simp only [hfl, nextFastLen_self 6 (by decide)] at heq
  simp only [List.length_cons, List.length_nil, List.cons_append, List.nil_append,
    show 6 - (0 + 1 + 1 + 1 + 1 + 1) = 1 by rfl, List.replicate_one] at heq
  have hs : sampleToSave 1 (3 / 2) = 2 := by
    have : ⌈(3 / 2 * 1 : Rat)⌉ = 2 := by rw [Int.ceil_eq_iff]; norm_num
    unfold sampleToSave; rw [this]; rfl
  have hro : roffset false 1 (0 - 0) = 0 := by simp [roffset, fix]
  have hc := corrRow_even false false 1 (3 / 2) 0 0 [0, 0, 0, 0, 1, 0] [1, 0, 0, 0, 0, 0] 3 (by norm_num) rfl rfl 0
    (by rw [hro]; norm_num) (by rw [hs]; norm_num) (by rw [hs]; simp)
  rw [hs, hro, show -((2 : ℕ) : Rat) / 1 - 0 = -2 by norm_num] at hc
  refine ⟨_, heq.trans hc, ?_, ?_⟩
  · simp [List.range_succ, corrNorm, circCorr, Finset.sum_range_succ]
  · norm_num [corrAtLag, valueAt, sampleAt, Finset.sum_range_succ]

/-- **C82** Normalised correlations lie between -1 and 1, for any spectra (that
is after any processing in frequency domain), start times and lengths. (Traces
of zero energy, for which the norm is zero, yield `nan` in the code.) -/
theorem c82_bounded (center : Bool) (sr lts t0 t1 : Rat) (N : ℕ) (B0 B1 : List ℂ)
    (h0 : B0.length = N / 2 + 1) (h1 : B1.length = N / 2 + 1) (row : List ℝ) (l : Rat)
    (h : corrRow center true sr lts N t0 t1 B0 B1 = .ok (row, l)) :
    ∀ v ∈ row, |v| ≤ 1 := by
  unfold corrRow at h
  simp only at h
  cases hi : irfft (crossSpectrum (rfftfreq N sr) (t0 - t1 - roffset center sr (t0 - t1)) B0 B1) with
  | error e => rw [hi] at h; cases h
  | ok tmp =>
    rw [hi] at h
    simp only [bind, Except.bind] at h
    split at h
    · simp only [pure, Except.pure] at h
      injection h with h
      injection h with h _
      intro v hv
      rw [← h] at hv
      obtain ⟨w, hw, rfl⟩ := List.mem_map.1 hv
      have hw' : w ∈ tmp := by
        unfold cutCentre at hw
        rcases List.mem_append.1 hw with hw | hw
        · split at hw
          · exact hw
          · exact List.mem_of_mem_drop hw
        · exact List.mem_of_mem_take hw
      have hm : 0 < N / 2 := by
        rcases Nat.eq_zero_or_pos (N / 2) with h' | h'
        · exfalso
          have hlen : (crossSpectrum (rfftfreq N sr) (t0 - t1 - roffset center sr (t0 - t1)) B0 B1).length = N / 2 + 1 := by
            unfold crossSpectrum
            rw [zipWith3_length _ _ _ _ (by omega) (by simp [rfftfreq]; omega), h0]
          unfold irfft at hi
          simp only [hlen, h'] at hi
          cases hi
        · exact h'
      have hb := irfft_bound (rfftfreq N sr) _ B0 B1 (N / 2) hm h0 h1 (by simp [rfftfreq]) tmp hi w hw'
      simp only [corrNorm, if_true, h0]
      rw [show (N / 2 + 1 - 1) * 2 = 2 * (N / 2) by omega]
      rw [abs_div]
      have hnn : 0 ≤ Real.sqrt (normTerm B0) * Real.sqrt (normTerm B1) / (2 * (N / 2) : ℕ) :=
        div_nonneg (mul_nonneg (Real.sqrt_nonneg _) (Real.sqrt_nonneg _)) (Nat.cast_nonneg _)
      rw [abs_of_nonneg hnn]
      exact div_le_one_of_le₀ hb hnn
    · cases h

/-- **C85** Zero lag of the normalised auto-correlation of a (padded) trace of
even length `N`: energy divided by energy plus the square of the alternating
sum over `N`. It is 1 iff the alternating sum vanishes.
Missing for the full property: `c85_autocorrelation_peak_violated`. -/
theorem c85_autocorrelation_peak_partial (sr lts t0 : Rat) (center : Bool) (a : List ℝ) (m : ℕ) (hm : 0 < m)
    (ha : a.length = 2 * m) (hs : 1 ≤ sampleToSave sr lts) (hsn : sampleToSave sr lts < a.length)
    (he : energy a ≠ 0) :
    ∃ row l v, corrRow center true sr lts a.length t0 t0 (rfft a) (rfft a) = .ok (row, l) ∧
      row[sampleToSave sr lts]? = some v ∧
      v = energy a / (energy a + (∑ j ∈ range a.length, (-1) ^ j * a.getD j 0) ^ 2 / a.length) ∧
      (v = 1 ↔ ∑ j ∈ range a.length, (-1) ^ j * a.getD j 0 = 0) := by
  have hro : roffset center sr (t0 - t0) = 0 := by
    unfold roffset; split
    · rfl
    · simp [fix]
  have hc := corrRow_even center true sr lts t0 t0 a a m hm ha rfl 0 (by rw [hro]; simp) hs hsn
  refine ⟨_, _, _, hc, ?_, rfl, ?_⟩
  · rw [List.getElem?_map, List.getElem?_range (by omega)]
    simp only [Option.map_some, sub_self, add_zero]
    rw [circCorr_self]
    congr 2
    simp only [corrNorm, if_true]
    rw [Real.mul_self_sqrt (normTerm_nonneg _ (by rw [rfft_length]; omega)), normTerm_rfft a m hm ha,
      rfft_length, show (a.length / 2 + 1 - 1) * 2 = a.length by omega]
    have : (a.length : ℝ) ≠ 0 := by
      have : a.length ≠ 0 := by omega
      exact_mod_cast this
    field_simp
  · have hen : 0 ≤ energy a := Finset.sum_nonneg fun j _ => sq_nonneg _
    have hpos : 0 < energy a := lt_of_le_of_ne hen (Ne.symm he)
    have hN : (0 : ℝ) < a.length := by
      have : 0 < a.length := by omega
      exact_mod_cast this
    set S := ∑ j ∈ range a.length, (-1) ^ j * a.getD j 0 with hS
    have hden : 0 < energy a + S ^ 2 / a.length := by positivity
    rw [div_eq_one_iff_eq hden.ne']
    constructor
    · intro h
      have h2 : S ^ 2 / a.length = 0 := by linarith
      rw [div_eq_zero_iff] at h2
      rcases h2 with h2 | h2
      · exact pow_eq_zero_iff (two_ne_zero) |>.1 h2
      · exact absurd h2 hN.ne'
    · intro h; rw [h]; simp

/-- **C85** is violated: the normalised auto-correlation of the (padded) trace
`1, -1, 0, 0` has the value 2/3 at zero lag. -/
theorem c85_autocorrelation_peak_violated :
    ∃ row l, corrRow false true 1 2 4 0 0 (rfft [1, -1, 0, 0]) (rfft [1, -1, 0, 0]) = .ok (row, l) ∧
      row[2]? = some (2 / 3) := by
  have hs : sampleToSave 1 2 = 2 := by simp [sampleToSave]
  obtain ⟨row, l, v, h1, h2, h3, _⟩ := c85_autocorrelation_peak_partial 1 2 0 false [1, -1, 0, 0] 2 (by norm_num) rfl
    (by rw [hs]; norm_num) (by rw [hs]; simp) (by norm_num [energy, Finset.sum_range_succ])
  refine ⟨row, l, h1, ?_⟩
  rw [hs] at h2
  rw [h2, h3]
  norm_num [energy, Finset.sum_range_succ]

/-- **C10** The correlation of the exchanged spectra is the reversed correlation
and its lags have opposite sign, for any spectra, start times, sampling rate,
parity of the length, normalised or not. -/
theorem c10_exchange_reverses (center normalize : Bool) (sr lts t0 t1 : Rat) (N : ℕ) (B0 B1 : List ℂ)
    (h0 : B0.length = N / 2 + 1) (h1 : B1.length = N / 2 + 1) (row : List ℝ) (l : Rat)
    (h : corrRow center normalize sr lts N t0 t1 B0 B1 = .ok (row, l)) :
    corrRow center normalize sr lts N t1 t0 B1 B0 = .ok (row.reverse, -(l + (row.length - 1) / sr)) := by
  have hro : roffset center sr (t1 - t0) = -roffset center sr (t0 - t1) := by
    unfold roffset
    split
    · simp
    · have hfix : ∀ q : Rat, fix (-q) = -fix q := by
        intro q
        unfold fix
        by_cases hq : q = 0
        · subst hq; simp
        · by_cases hp : 0 ≤ q
          · have : ¬ 0 ≤ -q := by
              intro h'; exact hq (le_antisymm (by linarith) hp)
            rw [if_pos hp, if_neg this, Int.ceil_neg]
          · rw [if_neg hp, if_pos (by linarith), Int.floor_neg]
      rw [show (t1 - t0) * sr = -((t0 - t1) * sr) by ring, hfix]
      push_cast; ring
  have hoff : t1 - t0 - roffset center sr (t1 - t0) = -(t0 - t1 - roffset center sr (t0 - t1)) := by
    rw [hro]; ring
  have hnorm : corrNorm normalize B1 B0 = corrNorm normalize B0 B1 := by
    unfold corrNorm
    split
    · rw [mul_comm, h0, h1]
    · rfl
  have hlen : ∀ (o : Rat) (A B : List ℂ), A.length = N / 2 + 1 → B.length = N / 2 + 1 →
      (crossSpectrum (rfftfreq N sr) o A B).length = N / 2 + 1 := by
    intro o A B hA hB
    unfold crossSpectrum
    rw [zipWith3_length _ _ _ _ (by omega) (by simp [rfftfreq]; omega), hA]
  have hm : 0 < N / 2 := by
    rcases Nat.eq_zero_or_pos (N / 2) with h' | h'
    · exfalso
      unfold corrRow irfft at h
      simp only [hlen _ _ _ h0 h1, h'] at h
      cases h
    · exact h'
  obtain ⟨g, hg1, hg2⟩ := irfft_congr_conj
    (crossSpectrum (rfftfreq N sr) (t0 - t1 - roffset center sr (t0 - t1)) B0 B1)
    (crossSpectrum (rfftfreq N sr) (-(t0 - t1 - roffset center sr (t0 - t1))) B1 B0) (N / 2) hm
    (hlen _ _ _ h0 h1) (hlen _ _ _ h1 h0)
    (fun k hk => crossSpectrum_conj _ _ B0 B1 (N / 2) h0 h1 (by simp [rfftfreq]) k hk)
  unfold corrRow at h ⊢
  simp only at h ⊢
  rw [hg1] at h
  rw [hoff, hg2, hnorm]
  simp only [bind, Except.bind] at h ⊢
  set s := sampleToSave sr lts with hs
  split at h
  · rename_i hl
    have hs1 : 1 ≤ s ∧ s < 2 * (N / 2) := by
      unfold cutCentre at hl
      simp only [List.length_append, List.length_take, List.length_map, List.length_range] at hl
      split at hl
      · simp only [List.length_map, List.length_range] at hl; omega
      · simp only [List.length_drop, List.length_map, List.length_range] at hl
        omega
    rw [cutCentre_reflect s _ g hs1.1 hs1.2, if_pos (by rw [List.length_reverse]; exact hl)]
    simp only [pure, Except.pure] at h ⊢
    injection h with h
    injection h with h2 h3
    rw [← h2, ← h3, List.map_reverse, List.length_map, hl, hro]
    congr 2
    push_cast; ring
  · cases h

end Xcorr
end SeisMIC
