import Verif.Props.FloatLags

/-!
# C194: cutting, mirroring and tapering correlations and rounding
-/

namespace SeisMIC

/-- **C194** The sample found for a lag is at most one away from the one that exact numbers give. -/
theorem c194_index (startLag sr time : Rat) (h : |(time - startLag) * sr| ≤ 2 ^ 50) :
    |lagIndexF startLag sr time - ((time - startLag) * sr).floor| ≤ 1 := by
  unfold lagIndexF
  have e1 := f64_err (time - startLag)
  have e2 := f64_err (f64 (time - startLag) * sr)
  rw [pow2_neg53] at e1 e2
  generalize f64 (time - startLag) = d at *
  generalize hw : f64 (d * sr) = w at *
  have e3 : |d * sr - (time - startLag) * sr| ≤ |(time - startLag) * sr| * (1 / 9007199254740992) := by
    rw [← sub_mul, abs_mul, abs_mul]
    calc |d - (time - startLag)| * |sr| ≤ |time - startLag| * (1 / 9007199254740992) * |sr| :=
          mul_le_mul_of_nonneg_right e1 (abs_nonneg _)
      _ = _ := by ring
  generalize (time - startLag) * sr = v at *
  generalize d * sr = u at *
  have hu : |u| ≤ |v| + |v| * (1 / 9007199254740992) := by
    have := abs_add_le (u - v) v
    rw [sub_add_cancel] at this
    linarith
  have hwv : |w - v| < 1 := by
    have h1 : w - v = (w - u) + (u - v) := by ring
    rw [h1]
    have := abs_add_le (w - u) (u - v)
    have h2 : (2 : Rat) ^ 50 = 1125899906842624 := by norm_num
    rw [h2] at h
    linarith
  obtain ⟨a1, a2⟩ := abs_lt.1 hwv
  have f1 := Rat.floor_le w
  have f2 := Rat.lt_floor (x := w)
  have f3 := Rat.floor_le v
  have f4 := Rat.lt_floor (x := v)
  have g1 : (w.floor : Rat) < v.floor + 2 := by linarith
  have g2 : (v.floor : Rat) < w.floor + 2 := by linarith
  have g1' : w.floor < v.floor + 2 := by exact_mod_cast g1
  have g2' : v.floor < w.floor + 2 := by exact_mod_cast g2
  rw [abs_le]
  omega

/-- **C194** (part) Trimming takes the samples that exact numbers give if the distance of the lags from the start lag, in
seconds and in samples, has at most 53 binary digits.
Missing for the full property: `c194_trim_violated`, `c194_mirror_violated`, `c194_taper_violated`. -/
theorem c194_trim_partial {α : Type} (data : List (List α)) (s : LagStats) (a b : Rat)
    (ha : Representable 53 (a - s.startLag)) (ha' : Representable 53 ((a - s.startLag) * s.sr))
    (hb : Representable 53 (b - s.startLag)) (hb' : Representable 53 ((b - s.startLag) * s.sr)) :
    corrMatTrimF data s a b = corrMatTrim data s a b := by
  unfold corrMatTrimF corrMatTrim lagIndexF
  rw [f64_exact ha, f64_exact ha', f64_exact hb, f64_exact hb']
  rfl

/-- **C194** (part) Correlations with a whole rate, of which a whole number of seconds is saved, are trimmed to whole seconds as
with exact numbers.
Missing for the full property: `c194_trim_violated`, `c194_mirror_violated`, `c194_taper_violated`. -/
theorem c194_trim_whole_partial {α : Type} (data : List (List α)) (npts sr lts : Nat) (a b : Int)
    (hsr : 0 < sr) (hl : lts ≤ 2 ^ 24) (h : lts * sr ≤ 2 ^ 53)
    (ha : |(a + lts) * sr| ≤ 2 ^ 53) (hb : |(b + lts) * sr| ≤ 2 ^ 53) :
    corrMatTrimF data ⟨startLagF sr lts 0, npts, sr⟩ a b = corrMatTrim data ⟨-(lts : Rat), npts, sr⟩ a b := by
  rw [(c193_whole_partial sr lts hsr hl h).2]
  have key : ∀ t : Int, |(t + lts) * sr| ≤ 2 ^ 53 →
      Representable 53 ((t : Rat) - -(lts : Rat)) ∧ Representable 53 (((t : Rat) - -(lts : Rat)) * (sr : Rat)) := by
    intro t ht
    have e : (t : Rat) - -(lts : Rat) = ((t + lts : Int) : Rat) := by push_cast; ring
    rw [e]
    have e2 : ((t + lts : Int) : Rat) * (sr : Rat) = (((t + lts) * sr : Int) : Rat) := by push_cast; ring
    rw [e2]
    refine ⟨representable_int 53 _ (le_trans ?_ ht), representable_int 53 _ ht⟩
    rw [abs_mul]
    have : (1 : Int) ≤ |(sr : Int)| := by rw [abs_of_nonneg (by omega)]; omega
    nlinarith [abs_nonneg (t + (lts : Int))]
  exact c194_trim_partial data _ _ _ (key a ha).1 (key a ha).2 (key b hb).1 (key b hb).2

example : |((-10 : Int) + (30 : Nat)) * (25 : Nat)| ≤ 2 ^ 53 ∧
    corrMatTrimF (α := Nat) [[0, 1, 2, 3, 4]] ⟨startLagF 1 2 0, 5, 1⟩ (-1) 1 = ([[1, 2, 3]], ⟨-1, 3, 1⟩) := by
  decide +kernel

/-- **C194** (negation of a part) Correlations with 25 Hz of which 12.4 s were saved on each side are trimmed to lags from -10.4 s
to 10.4 s: samples 49 to 569 are kept instead of 50 to 570. The sample at zero lag, number 310, is then at place 261, where the
new header has the lag 0.04 s. -/
theorem c194_trim_violated :
    let s : LagStats := ⟨startLagF 25 (f64 (62 / 5)) 0, 621, 25⟩
    let r := corrMatTrimF [List.range 621] s (f64 (-52 / 5)) (f64 (52 / 5))
    r.1 = [List.range' 49 521] ∧ r.2.startLag = f64 (-52 / 5) ∧
      (corrMatTrim [List.range 621] ⟨-62 / 5, 621, 25⟩ (-52 / 5) (52 / 5)).1 = [List.range' 50 521] ∧
      (r.1.map (·[261]?)) = [some 310] ∧ 1 / 26 < f64 (r.2.startLag + f64 (261 * deltaF 25)) := by
  decide +kernel

theorem truncRat_nonneg {x : Rat} (h : 0 ≤ x) : truncRat x = x.floor := by
  unfold truncRat; rw [if_neg (not_lt.2 h)]

theorem f64_le_zero_iff (x : Rat) : f64 x ≤ 0 ↔ x ≤ 0 := by
  constructor
  · intro h
    by_contra hx
    exact absurd h (not_le.2 (roundTo_pos 53 (by decide) x (not_le.1 hx)))
  · intro h
    have := roundTo_nonneg 53 (-x) (by linarith)
    rw [roundTo_neg] at this
    exact neg_nonneg.1 this

theorem endLagF_nonpos_iff (s : LagStats) (z : Nat) (hsr : 0 < s.sr) (hL : s.startLag = -((z : Rat) / s.sr))
    (hn : s.npts < 2 ^ 50) (hne : s.npts ≠ z + 1) : endLagF s ≤ 0 ↔ s.endLag ≤ 0 := by
  unfold endLagF LagStats.endLag
  rw [f64_le_zero_iff, if_neg hsr.ne', if_neg hsr.ne']
  obtain ⟨L, n, sr⟩ := s
  simp only at *
  by_cases hn0 : n = 0
  · rw [if_pos hn0, if_pos hn0]
  rw [if_neg hn0, if_neg hn0, hL]
  have hm : (0 : Rat) ≤ (n : Rat) - 1 := by
    have : (1 : Rat) ≤ n := by exact_mod_cast Nat.one_le_iff_ne_zero.2 hn0
    linarith
  have hm' : (n : Rat) - 1 < 1125899906842624 := by
    have : (n : Rat) < 1125899906842624 := by
      have : n < 1125899906842624 := by omega
      exact_mod_cast this
    linarith
  have h1 : (0 : Rat) < 1 / sr := by positivity
  have e1 := f64_err (1 / sr)
  rw [pow2_neg53, abs_of_pos h1] at e1
  have hd := roundTo_nonneg 53 (1 / sr) h1.le
  change 0 ≤ f64 (1 / sr) at hd
  have e2 := f64_err (((n : Rat) - 1) * f64 (1 / sr))
  rw [pow2_neg53, abs_of_nonneg (mul_nonneg hm hd)] at e2
  generalize f64 (1 / sr) = d at *
  generalize f64 (((n : Rat) - 1) * d) = X at *
  obtain ⟨e1a, e1b⟩ := abs_le.1 e1
  obtain ⟨e2a, e2b⟩ := abs_le.1 e2
  -- in units of the sampling interval
  have hX1 : ((n : Rat) - 1) * (1 / sr) - (1 / sr) * (1 / 2) < X := by
    have := mul_le_mul_of_nonneg_left e1a hm
    have := mul_le_mul_of_nonneg_left e1b hm
    have hb : ((n : Rat) - 1) * (1 / sr) ≤ 1125899906842624 * (1 / sr) := mul_le_mul_of_nonneg_right hm'.le h1.le
    linarith
  have hX2 : X < ((n : Rat) - 1) * (1 / sr) + (1 / sr) * (1 / 2) := by
    have := mul_le_mul_of_nonneg_left e1a hm
    have := mul_le_mul_of_nonneg_left e1b hm
    have hb : ((n : Rat) - 1) * (1 / sr) ≤ 1125899906842624 * (1 / sr) := mul_le_mul_of_nonneg_right hm'.le h1.le
    linarith
  have hzq : (z : Rat) / sr = z * (1 / sr) := by ring
  rw [hzq]
  rcases Nat.lt_or_gt_of_ne hne with hlt | hgt
  · have : (n : Rat) - 1 ≤ z - 1 := by
      have : (n : Rat) ≤ z := by exact_mod_cast Nat.lt_succ_iff.1 hlt
      linarith
    have := mul_le_mul_of_nonneg_right this h1.le
    constructor <;> intro _ <;> linarith
  · have : (z : Rat) + 1 ≤ (n : Rat) - 1 := by
      have : (z : Rat) + 1 + 1 ≤ n := by exact_mod_cast hgt
      linarith
    have := mul_le_mul_of_nonneg_right this h1.le
    constructor <;> intro _ <;> linarith

/-- **C194** (part) Mirroring gives what exact numbers give if the number of samples before zero lag is whole and zero lag is not the
last sample.
Missing for the full property: `c194_trim_violated`, `c194_mirror_violated`, `c194_taper_violated`. -/
theorem c194_mirror_partial (data : List (List F)) (s : LagStats) (z : Nat) (hsr : 0 < s.sr) (hz : -(s.startLag * s.sr) = z)
    (hz' : z < 2 ^ 50) (hn : s.npts < 2 ^ 50) (hne : s.npts ≠ z + 1) :
    corrMatMirrorF data s = corrMatMirror data s := by
  have hL : s.startLag * s.sr = ((-(z : Int) : Int) : Rat) := by push_cast; linarith
  have hf : -f64 (s.startLag * s.sr) = z := by
    rw [hL, f64_int _ (by rw [abs_neg, abs_of_nonneg (by omega)]; omega)]; push_cast; ring
  have hL' : s.startLag = -(z : Rat) / s.sr := by rw [eq_div_iff hsr.ne', hL]; push_cast; ring
  unfold corrMatMirrorF corrMatMirror
  simp only
  rw [hf, hz]
  by_cases h0 : (z : Rat) ≤ 0
  · rw [if_pos h0, if_pos h0]
  · rw [if_neg h0, if_neg h0]
    have hend : endLagF s ≤ 0 ↔ s.endLag ≤ 0 :=
      endLagF_nonpos_iff s z hsr (by rw [hL', neg_div]) hn hne
    have htr : truncRat (f64 ((z : Rat) + 1)) = ((z : Rat) + 1).floor := by
      have : (z : Rat) + 1 = ((z + 1 : Nat) : Rat) := by push_cast; ring
      rw [this, f64_nat _ (by omega), truncRat_nonneg (by positivity)]
    simp only [hend, htr]

example : let s : LagStats := ⟨-2 / 5, 5, 5⟩;
    -(s.startLag * s.sr) = (2 : Nat) ∧ s.npts ≠ 2 + 1 ∧
      corrMatMirrorF [[some 1, some 2, some 3, some 4, some 5]] s ≠ none := by decide +kernel

/-- **C194** (negation of a part) The same correlations with 25 Hz and 12.4 s cannot be mirrored: the function returns the number
0 because `start_lag*sampling_rate` is not whole. -/
theorem c194_mirror_violated (data : List (List F)) :
    corrMatMirrorF data ⟨startLagF 25 (f64 (62 / 5)) 0, 621, 25⟩ = none ∧
      (corrMatMirror data ⟨-62 / 5, 621, 25⟩).map (·.2) = some ⟨0, 311, 25⟩ := by
  have h1 : -f64 (startLagF 25 (f64 (62 / 5)) 0 * 25) = 162529275 / 524288 := by decide +kernel
  have h2 : ¬ endLagF ⟨startLagF 25 (f64 (62 / 5)) 0, 621, 25⟩ ≤ 0 := by decide +kernel
  have h3 : ¬ (LagStats.endLag ⟨-62 / 5, 621, 25⟩) ≤ 0 := by decide +kernel
  constructor
  · unfold corrMatMirrorF
    simp only
    rw [h1, if_neg (by decide +kernel), if_neg h2, if_pos (by decide +kernel)]
  · unfold corrMatMirror
    simp only
    rw [if_neg (by decide +kernel), if_neg h3, if_neg (by decide +kernel)]
    simp only [Option.map_some, Option.some.injEq, LagStats.mk.injEq, and_true, true_and]
    decide +kernel

/-- **C194** (part) The taper around zero lag begins where exact numbers put it if its length is even, as it always is, and
the number of samples before zero lag is whole.
Missing for the full property: `c194_trim_violated`, `c194_mirror_violated`, `c194_taper_violated`. -/
theorem c194_taper_partial (s : LagStats) (z l : Nat) (hz : -(s.startLag * s.sr) = z) (hz' : z < 2 ^ 50) (hl : l < 2 ^ 50) :
    taperStartF s (2 * l) = (z : Int) - l := by
  unfold taperStartF
  have h1 : -s.startLag * s.sr = z := by rw [neg_mul, hz]
  have h2 : (((2 * (l : Int) : Int) : Rat)) / 2 = (l : Nat) := by push_cast; ring
  rw [h1, h2, f64_nat _ (by omega), f64_nat _ (by omega)]
  have h3 : (z : Rat) - (l : Rat) = (((z : Int) - l : Int) : Rat) := by push_cast; ring
  rw [h3, f64_int _ (by rw [abs_le]; omega), truncRat_int]

example : let s : LagStats := ⟨-2 / 5, 5, 5⟩;
    -(s.startLag * s.sr) = (2 : Nat) ∧ taperStartF s 2 = 1 := by decide +kernel

/-- **C194** The taper around zero lag has an even number of samples, the smallest one that is not less than its width if the
width is a whole number of samples. -/
theorem c194_taper_length (sr width : Rat) (n : Nat) (h : width * sr = n) (hn : n < 2 ^ 50) :
    taperLengthF sr width = 2 * ((n + 1) / 2 : Nat) := by
  unfold taperLengthF
  rw [h, f64_nat n (by omega)]
  have h1 : f64 ((n : Rat) / 2) = (n : Rat) / 2 := by
    refine f64_exact ⟨n, -1, by rw [abs_le]; omega, ?_⟩
    rw [show pow2 (-1) = 1 / 2 by rw [pow2_eq]; norm_num]
    push_cast
    ring
  have h2 : ((n : Rat) / 2).ceil = (((n + 1) / 2 : Nat) : Int) := by
    rw [Rat.ceil_eq_neg_floor_neg]
    have hfl : ∀ q : Rat, q.floor = ⌊q⌋ := fun q => rfl
    rw [hfl, Int.floor_neg, neg_neg, Int.ceil_eq_iff]
    rcases Nat.even_or_odd' n with ⟨k, rfl | rfl⟩
    · rw [show (2 * k + 1) / 2 = k by omega]
      push_cast
      constructor <;> linarith
    · rw [show (2 * k + 1 + 1) / 2 = k + 1 by omega]
      push_cast
      constructor <;> linarith
  rw [h1, h2]
  have h3 : (2 : Rat) * ((((n + 1) / 2 : Nat) : Int) : Rat) = ((2 * (((n + 1) / 2 : Nat) : Int) : Int) : Rat) := by push_cast; ring
  rw [h3, f64_int _ (by rw [abs_le]; omega), truncRat_int]

/-- a taper of 2.2 s at 5 Hz has 12 samples -/
example : (11 / 5 : Rat) * 5 = (11 : Nat) ∧ taperLengthF 5 (11 / 5) = 12 := by decide +kernel

/-- **C194** (negation of a part) On the same correlations a taper of 2 s begins at sample 284 instead of 285, so it is not
centred at sample 310. -/
theorem c194_taper_violated :
    taperLengthF 25 2 = 50 ∧ taperStartF ⟨startLagF 25 (f64 (62 / 5)) 0, 621, 25⟩ 50 = 284 ∧ 284 + 50 / 2 ≠ 310 := by
  decide +kernel

end SeisMIC
