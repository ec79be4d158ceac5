import Verif.Props.FloatTimes
import Verif.Props.PostCorr2

/-!
# C197: numbers of samples and rounding
-/

namespace SeisMIC

/-- `a`, `a + 1`, ... below `b` -/
def wholeNumbers (a b : Int) : List Int := (List.range (b - a).toNat).map fun i : Nat => a + i

theorem arange_one (a b : Int) : arange a b 1 = wholeNumbers a b := by
  unfold arange wholeNumbers
  rw [Int.ediv_one, neg_sub]
  simp

/-- **C197** The number of samples in a time in seconds, rounded down, up or towards zero, is at most one off. -/
theorem c197_close (sr t : Rat) (h : |t * sr| ≤ 2 ^ 50) :
    |(f64 (t * sr)).floor - (t * sr).floor| ≤ 1 ∧ |(f64 (t * sr)).ceil - (t * sr).ceil| ≤ 1 ∧
      |smoothSamplesF sr t - (t * sr).ceil| ≤ 1 ∧ |taperSamplesF sr t - truncRat (t * sr)| ≤ 1 := by
  have e := f64_err (t * sr)
  rw [pow2_neg53] at e
  unfold smoothSamplesF taperSamplesF
  generalize t * sr = v at *
  have hw : |f64 v - v| < 1 := by
    have h2 : (2 : Rat) ^ 50 = 1125899906842624 := by norm_num
    rw [h2] at h
    linarith
  have hneg : f64 v < 0 ↔ v < 0 := by
    constructor
    · intro hh
      by_contra hc
      exact absurd hh (not_lt.2 (roundTo_nonneg 53 v (not_lt.1 hc)))
    · intro hh
      have := roundTo_pos 53 (by decide) (-v) (by linarith)
      rw [roundTo_neg] at this
      exact neg_pos.1 this
  have fl : ∀ x y : Rat, |x - y| < 1 → |x.floor - y.floor| ≤ 1 := by
    intro x y hxy
    obtain ⟨a1, a2⟩ := abs_lt.1 hxy
    have f1 := Rat.floor_le x
    have f2 := Rat.lt_floor (x := x)
    have f3 := Rat.floor_le y
    have f4 := Rat.lt_floor (x := y)
    have g1 : (x.floor : Rat) < y.floor + 2 := by linarith
    have g2 : (y.floor : Rat) < x.floor + 2 := by linarith
    have g1' : x.floor < y.floor + 2 := by exact_mod_cast g1
    have g2' : y.floor < x.floor + 2 := by exact_mod_cast g2
    rw [abs_le]
    omega
  have hc : |(f64 v).ceil - v.ceil| ≤ 1 := by
    have := fl (-f64 v) (-v) (by rw [neg_sub_neg, abs_sub_comm]; exact hw)
    rw [Rat.ceil_eq_neg_floor_neg, Rat.ceil_eq_neg_floor_neg]
    rw [abs_le] at *
    omega
  refine ⟨fl _ _ hw, hc, hc, ?_⟩
  unfold truncRat
  by_cases hv : v < 0
  · rw [if_pos hv, if_pos (hneg.2 hv)]
    have := fl (-f64 v) (-v) (by rw [neg_sub_neg, abs_sub_comm]; exact hw)
    rw [abs_le] at *
    omega
  · rw [if_neg hv, if_neg (fun hh => hv (hneg.1 hh))]
    exact fl _ _ hw

/-- **C197** (part) If the limits of a window fall on samples, the window of a measurement consists of the samples from the first
limit up to but without the second, the smoothing window and the taper have the length given.
Missing for the full property: `c197_lost_violated`, `c197_decimal_violated`, `c197_resampled_violated`. -/
theorem c197_whole_partial (sr t0 t1 : Rat) (a b : Int) (ha : t0 * sr = a) (hb : t1 * sr = b) (ha' : |a| < 2 ^ 51)
    (hb' : |b| < 2 ^ 51) :
    stretchWindowF sr t0 t1 = wholeNumbers a b ∧ shiftWindowF sr t0 t1 = (wholeNumbers a b).map (fun i : Int => (i : Rat)) ∧
      smoothSamplesF sr t0 = a ∧ taperSamplesF sr t0 = a := by
  have fa : f64 (t0 * sr) = a := by rw [ha]; exact f64_int a (by omega)
  have fb : f64 (t1 * sr) = b := by rw [hb]; exact f64_int b (by omega)
  have h1 := c196_whole a b 1 (by decide) (by decide) ha' hb'
  rw [arange_one, Int.cast_one] at h1
  unfold stretchWindowF shiftWindowF smoothSamplesF taperSamplesF
  rw [fa, fb, Rat.ceil_intCast, Rat.floor_intCast, h1, truncRat_int]
  refine ⟨?_, rfl, rfl, rfl⟩
  rw [List.map_map]
  conv_rhs => rw [← List.map_id (wholeNumbers a b)]
  apply List.map_congr_left
  intro i _
  exact truncRat_int i

example : (1 / 4 : Rat) * 100 = (25 : Int) ∧ (3 / 2 : Rat) * 100 = (150 : Int) ∧ |(150 : Int)| < 2 ^ 51 := by
  decide +kernel

/-- **C197** (negation of a part) At 100 Hz a window of 0.07 s has 8 samples for the measurement and for smoothing, a taper of 0.29 s
has 28 and a window for shifts from 0.07 s to 0.29 s begins and ends one sample off. -/
theorem c197_decimal_violated :
    (stretchWindowF 100 0 (f64 (7 / 100))).length = 8 ∧ smoothSamplesF 100 (f64 (7 / 100)) = 8 ∧
      taperSamplesF 100 (f64 (29 / 100)) = 28 ∧
      shiftWindowF 100 (f64 (7 / 100)) (f64 (29 / 100)) = (wholeNumbers 8 28).map (fun i : Int => (i : Rat)) := by
  decide +kernel

/-! ## resampling -/

/-- **C197** (part) The number of samples after resampling is that of exact arithmetic if the duration has at most 53 binary digits.
Missing for the full property: `c197_lost_violated`, `c197_decimal_violated`, `c197_resampled_violated`. -/
theorem c197_resampled_partial (npts : Nat) (sr freq : Rat) (h : Representable 53 ((npts : Rat) / sr))
    (h' : Representable 53 ((npts : Rat) / sr * freq)) : resampledF npts sr freq = ((npts : Rat) / sr * freq).floor := by
  unfold resampledF
  rw [f64_exact h, f64_exact h']

/-- **C197** (negation of a part) 205 samples with 25 Hz are resampled to 122 samples with 15 Hz instead of 123. -/
theorem c197_resampled_violated : resampledF 205 25 15 = 122 ∧ ((205 : Rat) / 25 * 15).floor = 123 := by
  decide +kernel

/-- two different fractions stay different when they are rounded -/
theorem f64_div_lt (a b m n : Nat) (hm : 0 < m) (hn : 0 < n) (ha : a * n < 2 ^ 52) (hb : b * m < 2 ^ 52)
    (h : (a : Rat) / m < (b : Rat) / n) : f64 ((a : Rat) / m) < f64 ((b : Rat) / n) := by
  have hm' : (0 : Rat) < m := by exact_mod_cast hm
  have hn' : (0 : Rat) < n := by exact_mod_cast hn
  have e1 := (abs_le.1 (f64_err ((a : Rat) / m))).2
  have e2 := (abs_le.1 (f64_err ((b : Rat) / n))).1
  rw [pow2_neg53, abs_of_nonneg (by positivity)] at e1 e2
  rw [div_lt_div_iff₀ hm' hn'] at h
  have h1 : a * n + 1 ≤ b * m := by
    have : a * n < b * m := by exact_mod_cast h
    omega
  have h1' : (a : Rat) * n + 1 ≤ b * m := by exact_mod_cast h1
  have ha' : (a : Rat) * n < 4503599627370496 := by
    have : a * n < 4503599627370496 := by omega
    exact_mod_cast this
  have hb' : (b : Rat) * m < 4503599627370496 := by
    have : b * m < 4503599627370496 := by omega
    exact_mod_cast this
  have hmn : (0 : Rat) < m * n := by positivity
  have u1 : (a : Rat) / m = a * n / (m * n) := by field_simp
  have u2 : (b : Rat) / n = b * m / (m * n) := by field_simp
  rw [u1] at e1 ⊢
  rw [u2] at e2 ⊢
  have d1 : (a : Rat) * n / (m * n) * (1 / 9007199254740992) < 1 / 2 / (m * n) := by
    rw [div_mul_eq_mul_div, div_lt_div_iff_of_pos_right hmn]
    linarith
  have d2 : (b : Rat) * m / (m * n) * (1 / 9007199254740992) < 1 / 2 / (m * n) := by
    rw [div_mul_eq_mul_div, div_lt_div_iff_of_pos_right hmn]
    linarith
  have d3 : ((a : Rat) * n + 1) / (m * n) ≤ b * m / (m * n) := by
    rw [div_le_div_iff_of_pos_right hmn]; exact h1'
  have d4 : ((a : Rat) * n + 1) / (m * n) = a * n / (m * n) + 1 / 2 / (m * n) + 1 / 2 / (m * n) := by
    rw [← add_div, ← add_div]; ring_nf
  linarith

/-- states of the search that can be reached -/
def SearchBound (npts num sr freq : Nat) : Search → Prop
  | .run n1 n2 => n1 ≤ num ∧ (n2 = 0 ∨ (npts + n2) * freq ≤ (num + n1) * sr + freq)
  | _ => True

theorem searchStepF_eq (npts num sr freq : Nat) (hsr : 0 < sr) (hf : 0 < freq) (hnum : num * sr ≤ npts * freq)
    (hb : (2 * npts + 1) * freq < 2 ^ 52) (st : Search) (h : SearchBound npts num sr freq st) :
    searchStepF npts num sr freq st = searchStep npts num sr freq st ∧
      SearchBound npts num sr freq (searchStep npts num sr freq st) := by
  cases st with
  | done a b => exact ⟨rfl, trivial⟩
  | fail => exact ⟨rfl, trivial⟩
  | run n1 n2 =>
    obtain ⟨h1, h2⟩ := h
    have q1 : (num + n1) * sr ≤ 2 * (npts * freq) := by
      have : (num + n1) * sr ≤ (num + num) * sr := Nat.mul_le_mul_right _ (by omega)
      have e : (num + num) * sr = 2 * (num * sr) := by ring
      omega
    have eb : (2 * npts + 1) * freq = 2 * (npts * freq) + freq := by ring
    have q2 : (npts + n2) * freq ≤ 2 * (npts * freq) + freq := by
      rcases h2 with rfl | h2
      · rw [Nat.add_zero]; omega
      · omega
    have e1 : (num + n1 : Rat) / freq = ((num + n1 : Nat) : Rat) / (freq : Nat) := by push_cast; rfl
    have e2 : (npts + n2 : Rat) / sr = ((npts + n2 : Nat) : Rat) / (sr : Nat) := by push_cast; rfl
    have hsr' : (0 : Rat) < sr := by exact_mod_cast hsr
    have hf' : (0 : Rat) < freq := by exact_mod_cast hf
    have lt1 := f64_div_lt (num + n1) (npts + n2) freq sr hf hsr (by omega) (by omega)
    have lt2 := f64_div_lt (npts + n2) (num + n1) sr freq hsr hf (by omega) (by omega)
    rw [← e1, ← e2] at lt1 lt2
    have heq : f64 ((num + n1 : Rat) / freq) = f64 ((npts + n2 : Rat) / sr) ↔
        (num + n1 : Rat) / freq = (npts + n2 : Rat) / sr := by
      constructor
      · intro h
        rcases lt_trichotomy ((num + n1 : Rat) / freq) ((npts + n2 : Rat) / sr) with hl | hl | hl
        · exact absurd h (lt1 hl).ne
        · exact hl
        · exact absurd h (lt2 hl).ne'
      · intro h; rw [h]
    have hlt : f64 ((num + n1 : Rat) / freq) < f64 ((npts + n2 : Rat) / sr) ↔
        (num + n1 : Rat) / freq < (npts + n2 : Rat) / sr := by
      constructor
      · intro h
        by_contra hc
        exact absurd h (not_lt.2 (f64_mono (not_lt.1 hc)))
      · exact lt1
    refine ⟨?_, ?_⟩
    · unfold searchStepF searchStep
      simp only [heq, hlt]
    · unfold searchStep
      simp only
      split
      · trivial
      · rename_i hne
        split
        · rename_i hl
          simp only
          split
          · trivial
          · refine ⟨by omega, ?_⟩
            rcases h2 with h2 | h2
            · exact .inl h2
            · right
              have : (num + (n1 + 1)) * sr = (num + n1) * sr + sr := by ring
              omega
        · rename_i hl
          simp only
          rw [if_neg (by omega)]
          refine ⟨h1, .inr ?_⟩
          have hgt : (npts + n2 : Rat) / sr < (num + n1 : Rat) / freq := lt_of_le_of_ne (not_lt.1 hl) (Ne.symm hne)
          rw [div_lt_div_iff₀ hsr' hf'] at hgt
          have hgt' : (npts + n2) * freq < (num + n1) * sr := by exact_mod_cast hgt
          have : (npts + (n2 + 1)) * freq = (npts + n2) * freq + freq := by ring
          omega

/-- **C197** The search for a common length of the two series of samples, which compares durations with `!=`, takes the same steps as
with exact numbers if the rates are whole numbers. -/
theorem c197_search (npts num sr freq k : Nat) (hsr : 0 < sr) (hf : 0 < freq) (hnum : num * sr ≤ npts * freq)
    (hb : (2 * npts + 1) * freq < 2 ^ 52) : searchF npts num sr freq k = search npts num sr freq k := by
  have : searchF npts num sr freq k = search npts num sr freq k ∧
      SearchBound npts num sr freq (search npts num sr freq k) := by
    induction k with
    | zero => exact ⟨rfl, Nat.zero_le _, .inl rfl⟩
    | succ k ih =>
      have := searchStepF_eq npts num sr freq hsr hf hnum hb _ ih.2
      refine ⟨?_, this.2⟩
      show searchStepF npts num sr freq (searchF npts num sr freq k) = searchStep npts num sr freq (search npts num sr freq k)
      rw [ih.1, this.1]
  exact this.1

example : 122 * 25 ≤ 205 * 15 ∧ (2 * 205 + 1) * 15 < 2 ^ 52 ∧ searchF 205 122 25 15 2 = .done 1 0 := by decide +kernel

end SeisMIC
