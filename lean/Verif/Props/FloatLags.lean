import Verif.Props.FloatWork
import Verif.Model.Xcorr

/-!
# C193, C194: lags and rounding
-/

namespace SeisMIC

/-! ## lemmas -/

theorem f32_err (x : Rat) : |f32 x - x| ≤ |x| * pow2 (-24) := roundTo_err 24 x

theorem pow2_neg24 : pow2 (-24) = 1 / 16777216 := by rw [pow2_eq]; norm_num

theorem roundTo_pos (p : Nat) (hp : 0 < p) (x : Rat) (h : 0 < x) : 0 < roundTo p x := by
  have he := (abs_le.1 (roundTo_err p x)).1
  rw [abs_of_pos h] at he
  have h2 : pow2 (-(p : Int)) ≤ pow2 (-1) := pow2_le (by omega)
  have h3 : pow2 (-1) = 1 / 2 := by rw [pow2_eq]; norm_num
  rw [h3] at h2
  have : x * pow2 (-(p : Int)) ≤ x * (1 / 2) := mul_le_mul_of_nonneg_left h2 h.le
  linarith

theorem f64_exact {x : Rat} (h : Representable 53 x) : f64 x = x := roundTo_exact 53 (by decide) x h

theorem f32_exact {x : Rat} (h : Representable 24 x) : f32 x = x := roundTo_exact 24 (by decide) x h

theorem representable_of_le {p q : Nat} (hpq : p ≤ q) {x : Rat} (h : Representable p x) : Representable q x := by
  obtain ⟨m, k, hm, rfl⟩ := h
  exact ⟨m, k, le_trans hm (pow_le_pow_right₀ (by decide) hpq), rfl⟩

theorem f64_int (n : Int) (h : |n| ≤ 2 ^ 53) : f64 (n : Rat) = n := f64_exact (representable_int 53 n h)

theorem pyRound_nearest (y : Rat) (n : Int) (h : |y - n| < 1 / 2) : pyRound y = n := by
  obtain ⟨h1, h2⟩ := abs_lt.1 h
  obtain ⟨e1, e2⟩ := abs_le.1 (pyRound_err y)
  have a1 : (pyRound y : Rat) < n + 1 := by linarith
  have a2 : (n : Rat) < pyRound y + 1 := by linarith
  have b1 : pyRound y < n + 1 := by exact_mod_cast a1
  have b2 : n < pyRound y + 1 := by exact_mod_cast a2
  omega

theorem truncRat_int (n : Int) : truncRat (n : Rat) = n := by
  unfold truncRat
  split
  · rw [← Int.cast_neg, Rat.floor_intCast, neg_neg]
  · exact Rat.floor_intCast n

theorem f64_zero : f64 0 = 0 := roundTo_zero 53

theorem roffsetF_zero (sr : Rat) : roffsetF sr 0 = 0 := by
  unfold roffsetF
  have : truncRat 0 = 0 := by decide +kernel
  rw [zero_mul, f64_zero, this]
  simp [f64_zero]

/-! ## C193: the start lag in the header -/

/-- **C193** The number of saved samples is the smallest one that covers `lengthToSave`, up to the rounding of a product. -/
theorem c193_saved (sr lts : Rat) (hsr : 0 < sr) (hl : 0 < lts) :
    lts * sr * (1 - pow2 (-53)) ≤ savedSamplesF sr lts ∧ (savedSamplesF sr lts : Rat) < lts * sr * (1 + pow2 (-53)) + 1 := by
  have hx : 0 < lts * sr := mul_pos hl hsr
  obtain ⟨e1, e2⟩ := abs_le.1 (f64_err (lts * sr))
  rw [abs_of_pos hx] at e1 e2
  have hp : 0 < f64 (lts * sr) := roundTo_pos 53 (by decide) _ hx
  have hc1 : f64 (lts * sr) ≤ ((f64 (lts * sr)).ceil : Rat) := Rat.le_ceil
  have hc2 : ((f64 (lts * sr)).ceil : Rat) < f64 (lts * sr) + 1 := Rat.ceil_lt
  have hcn : 0 ≤ (f64 (lts * sr)).ceil := by
    have : (0 : Rat) < ((f64 (lts * sr)).ceil : Rat) := lt_of_lt_of_le hp hc1
    have : 0 < (f64 (lts * sr)).ceil := by exact_mod_cast this
    omega
  have hcast : (savedSamplesF sr lts : Rat) = ((f64 (lts * sr)).ceil : Rat) := by
    unfold savedSamplesF
    rw [← Int.cast_natCast, Int.toNat_of_nonneg hcn]
  rw [hcast]
  constructor <;> linarith

/-- **C193** The start lag in the header differs from the lag of the first sample by less than `2^-23` of it. -/
theorem c193_error (sr lts : Rat) (hsr : 0 < sr) :
    |startLagF sr lts 0 - -((savedSamplesF sr lts : Rat) / sr)| ≤ (savedSamplesF sr lts : Rat) / sr * (1 / 8388608) := by
  unfold startLagF
  rw [roffsetF_zero, sub_zero]
  generalize savedSamplesF sr lts = s
  have hs : (0 : Rat) ≤ (s : Rat) / sr := by positivity
  rw [neg_div]
  generalize hx : (s : Rat) / sr = x at *
  have e1 := f64_err (-x)
  have e2 := f64_err (f64 (-x))
  have e3 := f32_err (f64 (f64 (-x)))
  rw [pow2_neg53] at e1 e2
  rw [pow2_neg24] at e3
  rw [abs_neg, abs_of_nonneg hs] at e1
  generalize f64 (-x) = y at *
  generalize f64 y = z at *
  generalize f32 z = w at *
  have hy : |y| ≤ x + x * (1 / 9007199254740992) := by
    have := abs_add_le (y - -x) (-x)
    rw [abs_neg, abs_of_nonneg hs, sub_add_cancel] at this
    linarith
  have hz : |z| ≤ |y| + |y| * (1 / 9007199254740992) := by
    have := abs_add_le (z - y) y
    rw [sub_add_cancel] at this
    linarith
  have : w - -x = (w - z) + (z - y) + (y - -x) := by ring
  rw [this]
  have t1 := abs_add_le ((w - z) + (z - y)) (y - -x)
  have t2 := abs_add_le (w - z) (z - y)
  linarith

/-- **C193** The sample at zero lag is found from the header if the product of lag and rate is rounded to the nearest whole
number, as `measure_shift` does. -/
theorem c193_nearest (sr lts : Rat) (npts : Nat) (hsr : 0 < sr) (hs : savedSamplesF sr lts ≤ 2 ^ 21) :
    zeroIndexF ⟨startLagF sr lts 0, npts, sr⟩ = savedSamplesF sr lts := by
  have he := c193_error sr lts hsr
  unfold zeroIndexF
  simp only
  generalize startLagF sr lts 0 = L at *
  generalize savedSamplesF sr lts = s at *
  have hs' : (s : Rat) ≤ 2097152 := by
    have : s ≤ 2097152 := by omega
    exact_mod_cast this
  have hs0 : (0 : Rat) ≤ s := by positivity
  have hLs : |L * sr - -(s : Rat)| ≤ (s : Rat) * (1 / 8388608) := by
    have : L * sr - -(s : Rat) = (L - -((s : Rat) / sr)) * sr := by field_simp
    rw [this, abs_mul, abs_of_pos hsr]
    calc |L - -((s : Rat) / sr)| * sr ≤ (s : Rat) / sr * (1 / 8388608) * sr := mul_le_mul_of_nonneg_right he hsr.le
      _ = (s : Rat) * (1 / 8388608) := by field_simp
  have hf := f64_err (L * sr)
  rw [pow2_neg53] at hf
  generalize L * sr = v at *
  generalize f64 v = w at *
  have hv : |v| ≤ s + (s : Rat) * (1 / 8388608) := by
    have := abs_add_le (v - -(s : Rat)) (-(s : Rat))
    rw [abs_neg, abs_of_nonneg hs0, sub_add_cancel] at this
    linarith
  have hw : |w - ((-(s : Int) : Int) : Rat)| < 1 / 2 := by
    have h1 : w - ((-(s : Int) : Int) : Rat) = (w - v) + (v - -(s : Rat)) := by push_cast; ring
    rw [h1]
    have := abs_add_le (w - v) (v - -(s : Rat))
    linarith
  rw [pyRound_nearest w (-(s : Int)) hw, neg_neg]

/-- **C193** (part) The start lag in the header is exact if it has at most 24 binary digits.
Missing for the full property: `c193_exact_violated`, `c193_saved_violated`. -/
theorem c193_exact_partial (sr lts : Rat) (h : Representable 24 ((savedSamplesF sr lts : Rat) / sr)) :
    startLagF sr lts 0 = -((savedSamplesF sr lts : Rat) / sr) := by
  unfold startLagF
  have h24 := representable_neg h
  have h53 := representable_of_le (by decide : 24 ≤ 53) h24
  rw [roffsetF_zero, sub_zero, neg_div, f64_exact h53, f64_exact h53, f32_exact h24]

/-- **C193** (part) In particular this is so if the rate and `lengthToSave` are whole numbers: `lengthToSave` times the rate
samples are saved on each side and the start lag is `-lengthToSave`.
Missing for the full property: `c193_exact_violated`, `c193_saved_violated`. -/
theorem c193_whole_partial (sr lts : Nat) (hsr : 0 < sr) (hl : lts ≤ 2 ^ 24) (h : lts * sr ≤ 2 ^ 53) :
    savedSamplesF sr lts = lts * sr ∧ startLagF sr lts 0 = -(lts : Rat) := by
  have hs : savedSamplesF sr lts = lts * sr := by
    unfold savedSamplesF
    rw [← Nat.cast_mul, f64_nat _ h, ← Int.cast_natCast, Rat.ceil_intCast, Int.toNat_natCast]
  refine ⟨hs, ?_⟩
  have hq : ((savedSamplesF sr lts : Nat) : Rat) / sr = (lts : Rat) := by
    rw [hs]; push_cast; have : (0 : Rat) < sr := by exact_mod_cast hsr
    field_simp
  rw [c193_exact_partial _ _ (by
    rw [hq, ← Int.cast_natCast]
    exact representable_int 24 lts (by rw [abs_of_nonneg (by omega)]; exact_mod_cast hl)), hq]

example : (0 : Nat) < 25 ∧ (30 : Nat) ≤ 2 ^ 24 ∧ 30 * 25 ≤ 2 ^ 53 := by decide

/-- **C193** (negation of a part) The start lags are kept in single precision. Of correlations with 25 Hz of which 12.4 s are
saved on each side, the header starts at -12.399999618... instead of -12.4, it is not symmetric, and no sample has the lag
zero. -/
theorem c193_exact_violated :
    let L := startLagF 25 (f64 (62 / 5)) 0
    let s : LagStats := ⟨L, 621, 25⟩
    savedSamplesF 25 (f64 (62 / 5)) = 310 ∧ L = -6501171 / 524288 ∧ endLagF s ≠ -L ∧
      ∀ k : Nat, k < 621 → f64 (L + f64 (k * deltaF 25)) ≠ 0 := by
  decide +kernel

/-- **C193** (negation of a part) Of correlations with 100 Hz, 8 samples are saved on each side for a `lengthToSave` of 0.07 s,
although 7 cover it. -/
theorem c193_saved_violated : savedSamplesF 100 (f64 (7 / 100)) = 8 ∧ Xcorr.sampleToSave 100 (7 / 100) = 7 := by
  decide +kernel

end SeisMIC
