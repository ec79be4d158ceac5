import Verif.Props.FloatLags
import Verif.Model.Stream

/-!
# C195, C196: sampling rates, times of windows and rounding
-/

namespace SeisMIC

/-! ## C195: sampling rates -/

/-- **C195** A rate that is a whole multiple of the requested one, as numbers on the machine, is recognised. -/
theorem c195_multiple (freq : Rat) (k : Nat) (hf : 0 < freq) (hk : k ≤ 2 ^ 53) :
    decimationFactorF (k * freq) freq = some (k : Int) := by
  unfold decimationFactorF floorDivF
  have h1 : (k : Rat) * freq / freq = k := by field_simp
  have h2 : (k : Rat).floor = (k : Int) := by
    rw [← Int.cast_natCast, Rat.floor_intCast]
  rw [h1, f64_nat k hk, h2, if_pos (by simp)]

/-- **C195** Matrices are decimated only by a factor that is the ratio of the rates up to the rounding of one quotient, and not
larger than it. -/
theorem c195_only (sr freq : Rat) (k : Int) (hs : 0 < sr) (hf : 0 < freq) (h : decimationFactorF sr freq = some k) :
    k * freq ≤ sr ∧ sr - k * freq ≤ sr * pow2 (-53) := by
  unfold decimationFactorF floorDivF at h
  split at h
  · rename_i he
    obtain rfl := Option.some.inj h
    have hq : 0 < sr / freq := div_pos hs hf
    have hfl := Rat.floor_le (sr / freq)
    have herr := (abs_le.1 (f64_err (sr / freq))).1
    rw [he, abs_of_pos hq] at herr
    constructor
    · rwa [le_div_iff₀ hf] at hfl
    · have h1 : sr / freq - ((sr / freq).floor : Rat) ≤ sr / freq * pow2 (-53) := by linarith
      have h2 := mul_le_mul_of_nonneg_right h1 hf.le
      have h3 : sr / freq * freq = sr := by field_simp
      have h4 : (sr / freq - ((sr / freq).floor : Rat)) * freq = sr - (sr / freq).floor * freq := by rw [sub_mul, h3]
      have h5 : sr / freq * pow2 (-53) * freq = sr * pow2 (-53) := by rw [mul_right_comm, h3]
      linarith
  · cases h

example : (0 : Rat) < 100 ∧ (0 : Rat) < 25 ∧ decimationFactorF 100 25 = some 4 := by decide +kernel

/-- **C195** (part) The test gives what exact numbers give whenever both rates are whole numbers.
Missing for the full property: `c195_decimal_violated`, `c195_interval_violated`. -/
theorem c195_whole_partial (sr freq : Nat) (hf : 0 < freq) (h : sr + freq < 2 ^ 53) :
    decimationFactorF sr freq = decimationFactor sr freq := by
  unfold decimationFactorF decimationFactor floorDivF
  have hfl : ((sr : Rat) / freq).floor = (sr / freq : Nat) := by
    apply le_antisymm
    · have : ((sr : Rat) / freq).floor < ((sr / freq : Nat) : Int) + 1 := by
        rw [Rat.floor_lt_iff, Int.cast_add, Int.cast_natCast, Int.cast_one, div_lt_iff₀ (by exact_mod_cast hf)]
        have := Nat.lt_div_mul_add hf (a := sr)
        have h2 : sr < (sr / freq + 1) * freq := by rw [Nat.add_mul, Nat.one_mul]; exact this
        exact_mod_cast h2
      omega
    · rw [Rat.le_floor_iff, Int.cast_natCast, le_div_iff₀ (by exact_mod_cast hf)]
      exact_mod_cast Nat.div_mul_le_self sr freq
  have hiff : f64 ((sr : Rat) / freq) = ((((sr : Rat) / freq).floor : Int) : Rat) ↔
      (sr : Rat) / freq = ((((sr : Rat) / freq).floor : Int) : Rat) := by
    constructor
    · intro he
      have hf' : (0 : Rat) < freq := by exact_mod_cast hf
      have herr := (abs_le.1 (f64_err ((sr : Rat) / freq))).1
      rw [he, abs_of_nonneg (by positivity), pow2_neg53, hfl, Int.cast_natCast] at herr
      rw [hfl, Int.cast_natCast]
      by_contra hne
      have hlt : ((sr / freq : Nat) : Rat) < (sr : Rat) / freq := by
        refine lt_of_le_of_ne ?_ (Ne.symm hne)
        rw [le_div_iff₀ hf']
        exact_mod_cast Nat.div_mul_le_self sr freq
      rw [lt_div_iff₀ hf'] at hlt
      have hlt' : sr / freq * freq + 1 ≤ sr := by
        have : sr / freq * freq < sr := by exact_mod_cast hlt
        omega
      have hlt2 : ((sr / freq : Nat) : Rat) * freq + 1 ≤ sr := by exact_mod_cast hlt'
      have hsr : (sr : Rat) < 9007199254740992 := by
        have : sr < 9007199254740992 := by omega
        exact_mod_cast this
      have hm := mul_le_mul_of_nonneg_right herr hf'.le
      have e1 : (sr : Rat) / freq * freq = sr := by field_simp
      have e2 : -((sr : Rat) / freq * (1 / 9007199254740992)) * freq = -(sr * (1 / 9007199254740992)) := by
        rw [neg_mul, mul_right_comm, e1]
      rw [e2, sub_mul, e1] at hm
      linarith
    · intro he
      conv_lhs => rw [he]
      rw [hfl, Int.cast_natCast, f64_nat _ (by
        have := Nat.div_le_self sr freq
        omega)]
  simp only [hiff]

example : (0 : Nat) < 4 ∧ 100 + 4 < 2 ^ 53 ∧ decimationFactorF (100 : Nat) (7 : Nat) = none := by decide +kernel

/-- **C195** (negation of a part) Rates that are decimal fractions: 1 Hz is five times 0.2 Hz and ten times 0.1 Hz, 10 Hz is a
hundred times 0.1 Hz, but the quotients rounded down are 4, 9 and 99. These matrices are resampled instead of decimated. -/
theorem c195_decimal_violated :
    decimationFactorF 1 (f64 (1 / 5)) = none ∧ decimationFactor 1 (1 / 5) = some 5 ∧
      decimationFactorF 1 (f64 (1 / 10)) = none ∧ decimationFactor 1 (1 / 10) = some 10 ∧
      decimationFactorF 10 (f64 (1 / 10)) = none ∧ decimationFactor 10 (1 / 10) = some 100 := by
  decide +kernel

/-- **C195** The rate that a header has after the interval of another header is assigned to it differs from the rate of that
header by at most `2^-51` of it. -/
theorem c195_interval (sr : Rat) (h : 0 < sr) : |rateF (deltaF sr) - sr| ≤ sr * (1 / 2251799813685248) := by
  have h1 : (0 : Rat) < 1 / sr := by positivity
  have hd : deltaF sr = f64 (1 / sr) := by unfold deltaF; rw [if_neg h.ne']
  have hp : 0 < f64 (1 / sr) := roundTo_pos 53 (by decide) _ h1
  have hr : rateF (deltaF sr) = f64 (1 / f64 (1 / sr)) := by unfold rateF; rw [hd, if_neg hp.ne']
  rw [hr]
  have e1 := f64_err (1 / sr)
  rw [pow2_neg53, abs_of_pos h1] at e1
  obtain ⟨a1, a2⟩ := abs_le.1 e1
  have e2 := f64_err (1 / f64 (1 / sr))
  rw [pow2_neg53, abs_of_pos (div_pos one_pos hp)] at e2
  generalize f64 (1 / sr) = d at *
  -- `1/d` is close to `sr`
  have b1 : d * sr ≤ 1 + 1 / 9007199254740992 := by
    have := mul_le_mul_of_nonneg_right a2 h.le
    have e : 1 / sr * sr = 1 := by field_simp
    have : d * sr - 1 ≤ 1 / 9007199254740992 := by
      calc d * sr - 1 = (d - 1 / sr) * sr := by rw [sub_mul, e]
        _ ≤ _ := this
        _ = 1 / 9007199254740992 := by rw [mul_right_comm, e, one_mul]
    linarith
  have b2 : 1 - 1 / 9007199254740992 ≤ d * sr := by
    have := mul_le_mul_of_nonneg_right a1 h.le
    have e : 1 / sr * sr = 1 := by field_simp
    have e' : -(1 / sr * (1 / 9007199254740992)) * sr = -(1 / 9007199254740992) := by
      rw [neg_mul, mul_right_comm, e, one_mul]
    rw [e', sub_mul, e] at this
    linarith
  have c1 : sr - sr * (1 / 9007199254740992) ≤ 1 / d := by
    rw [le_div_iff₀ hp]
    have : (sr - sr * (1 / 9007199254740992)) * d = d * sr * (1 - 1 / 9007199254740992) := by ring
    rw [this]
    have := mul_le_mul_of_nonneg_right b1 (by norm_num : (0 : Rat) ≤ 1 - 1 / 9007199254740992)
    refine le_trans this ?_
    norm_num
  have c2 : 1 / d ≤ sr + sr * (2 / 9007199254740992) := by
    rw [div_le_iff₀ hp]
    have : (sr + sr * (2 / 9007199254740992)) * d = d * sr * (1 + 2 / 9007199254740992) := by ring
    rw [this]
    have := mul_le_mul_of_nonneg_right b2 (by norm_num : (0 : Rat) ≤ 1 + 2 / 9007199254740992)
    refine le_trans ?_ this
    norm_num
  obtain ⟨f1, f2⟩ := abs_le.1 e2
  generalize f64 (1 / d) = w at *
  generalize 1 / d = v at *
  rw [abs_le]
  constructor <;> linarith

/-- **C195** (negation of a part) It is not always the same: 49 Hz becomes 49.000...007 Hz. -/
theorem c195_interval_violated : rateF (deltaF 49) ≠ 49 := by decide +kernel

/-! ## C196: times of windows -/

theorem ceil_f64_div (a s : Int) (ha : 0 ≤ a) (hs : 0 < s) (h : a < 2 ^ 53) :
    (f64 ((a : Rat) / s)).ceil = -((-a) / s) := by
  have hs' : (0 : Rat) < s := by exact_mod_cast hs
  have ha' : (0 : Rat) ≤ a := by exact_mod_cast ha
  have hx : (0 : Rat) ≤ (a : Rat) / s := by positivity
  set q := -((-a) / s) with hq
  have h1 := Int.emod_add_mul_ediv (-a) s
  have h2 := Int.emod_nonneg (-a) hs.ne'
  have h3 := Int.emod_lt_of_pos (-a) hs
  have hqs : s * ((-a) / s) = -(q * s) := by rw [hq]; ring
  have hle : a ≤ q * s := by omega
  have hlt : (q - 1) * s + 1 ≤ a := by
    have : (q - 1) * s = q * s - s := by ring
    omega
  have hqa : q ≤ a := by
    by_contra hc
    have : a ≤ q - 1 := by omega
    have := mul_le_mul_of_nonneg_left hs (by omega : (0 : Int) ≤ q - 1)
    have h4 : (q - 1) * 1 ≤ (q - 1) * s := mul_le_mul_of_nonneg_left hs (by omega)
    omega
  have hq0 : 0 ≤ q := by
    by_contra hc
    have : q * s < 0 := mul_neg_of_neg_of_pos (by omega) hs
    omega
  apply le_antisymm
  · rw [Rat.ceil_le_iff]
    have : (a : Rat) / s ≤ q := by rw [div_le_iff₀ hs']; exact_mod_cast hle
    have h5 := f64_mono this
    rwa [f64_int q (by rw [abs_of_nonneg hq0]; omega)] at h5
  · have : q - 1 < (f64 ((a : Rat) / s)).ceil := by
      rw [Rat.lt_ceil_iff]
      have herr := (abs_le.1 (f64_err ((a : Rat) / s))).1
      rw [abs_of_nonneg hx, pow2_neg53] at herr
      have h5 : ((q - 1 : Int) : Rat) * s + 1 ≤ a := by exact_mod_cast hlt
      have h6 : ((q - 1 : Int) : Rat) + 1 / s ≤ (a : Rat) / s := by
        rw [le_div_iff₀ hs', add_mul]
        have : (1 : Rat) / s * s = 1 := by field_simp
        rw [this]; exact h5
      have hsm : (a : Rat) / s * (1 / 9007199254740992) < 1 / s := by
        rw [div_mul_eq_mul_div, div_lt_div_iff_of_pos_right hs']
        have : (a : Rat) < 9007199254740992 := by
          have : a < 9007199254740992 := by omega
          exact_mod_cast this
        linarith
      linarith
    omega

/-- **C196** Times of windows are exact if start, end and step are multiples of a common binary fraction of a second (or of a
second) and less than `2^51` of them. -/
theorem c196_dyadic (a b s k : Int) (hs : 0 < s) (hs' : s < 2 ^ 51) (ha : |a| < 2 ^ 51) (hb : |b| < 2 ^ 51) :
    arangeF (a * pow2 k) (b * pow2 k) (s * pow2 k) = (arange a b s).map fun t : Int => (t : Rat) * pow2 k := by
  have hpk := pow2_pos k
  have ha1 := abs_lt.1 ha
  have hb1 := abs_lt.1 hb
  have rep : ∀ m : Int, |m| ≤ 2 ^ 53 → f64 ((m : Rat) * pow2 k) = (m : Rat) * pow2 k := fun m hm =>
    f64_exact ⟨m, k, hm, rfl⟩
  have hd1 : (b : Rat) * pow2 k - a * pow2 k = ((b - a : Int) : Rat) * pow2 k := by push_cast; ring
  have hd2 : (a : Rat) * pow2 k + s * pow2 k = ((a + s : Int) : Rat) * pow2 k := by push_cast; ring
  have hd3 : ((a + s : Int) : Rat) * pow2 k - a * pow2 k = (s : Rat) * pow2 k := by push_cast; ring
  have hrba : |b - a| ≤ 2 ^ 53 := by rw [abs_le]; omega
  have hras : |a + s| ≤ 2 ^ 53 := by rw [abs_le]; omega
  have hrs : |s| ≤ 2 ^ 53 := by rw [abs_le]; omega
  unfold arangeF arange
  simp only
  rw [hd1, hd2, rep _ hrba, rep _ hras, hd3, rep _ hrs]
  have hquot : ((b - a : Int) : Rat) * pow2 k / (s * pow2 k) = ((b - a : Int) : Rat) / s := mul_div_mul_right _ _ hpk.ne'
  rw [hquot]
  rcases le_or_gt 0 (b - a) with hba | hba
  · rw [ceil_f64_div (b - a) s hba hs (by omega), show -(b - a) = a - b by ring, List.map_map]
    apply List.map_congr_left
    intro i hi
    rw [List.mem_range] at hi
    -- `i` steps are less than the whole interval
    have h1 := Int.emod_add_mul_ediv (a - b) s
    have h2 := Int.emod_nonneg (a - b) hs.ne'
    have h3 := Int.emod_lt_of_pos (a - b) hs
    have hi' : (i : Int) + 1 ≤ -((a - b) / s) := by omega
    have h4 : ((i : Int) + 1) * s ≤ -((a - b) / s) * s := mul_le_mul_of_nonneg_right hi' hs.le
    have h5 : -((a - b) / s) * s = -(s * ((a - b) / s)) := by ring
    have h6 : ((i : Int) + 1) * s = i * s + s := by ring
    have his : (i : Int) * s ≤ b - a := by omega
    have his0 : 0 ≤ (i : Int) * s := by positivity
    simp only [Function.comp]
    by_cases h0 : i = 0
    · subst h0; simp
    · rw [if_neg h0]
      by_cases h1 : i = 1
      · subst h1; simp
      · rw [if_neg h1]
        have e1 : (i : Rat) * (s * pow2 k) = (((i : Int) * s : Int) : Rat) * pow2 k := by push_cast; ring
        rw [e1, rep _ (by rw [abs_le]; omega)]
        have e2 : (a : Rat) * pow2 k + (((i : Int) * s : Int) : Rat) * pow2 k = ((a + i * s : Int) : Rat) * pow2 k := by
          push_cast; ring
        rw [e2, rep _ (by rw [abs_le]; omega)]
  · have hq : f64 (((b - a : Int) : Rat) / s) ≤ 0 := by
      have h1 : ((b - a : Int) : Rat) / s ≤ 0 :=
        div_nonpos_of_nonpos_of_nonneg (by exact_mod_cast hba.le) (by exact_mod_cast hs.le)
      have := f64_mono h1
      rwa [f64_zero] at this
    have hc : (f64 (((b - a : Int) : Rat) / s)).ceil ≤ 0 := by rw [Rat.ceil_le_iff]; exact_mod_cast hq
    have hc2 : -((a - b) / s) ≤ 0 := by
      have := Int.ediv_nonneg (by omega : 0 ≤ a - b) hs.le
      omega
    rw [Int.toNat_of_nonpos hc, Int.toNat_of_nonpos hc2]
    rfl

/-- **C196** In particular for whole seconds. -/
theorem c196_whole (a b s : Int) (hs : 0 < s) (hs' : s < 2 ^ 51) (ha : |a| < 2 ^ 51) (hb : |b| < 2 ^ 51) :
    arangeF a b s = (arange a b s).map fun t : Int => (t : Rat) := by
  have := c196_dyadic a b s 0 hs hs' ha hb
  simpa [pow2_zero] using this

example : (0 : Int) < 3600 ∧ |(1600000000 : Int)| < 2 ^ 51 ∧
    arangeF 1600000000 1600007200 3600 = [1600000000, 1600003600] := by decide +kernel

/-- **C196** For any other step the windows of a recording are displaced by at most a microsecond per window (the times are
seconds since 1970, up to the year 2038). -/
theorem c196_error (start stop step t : Rat) (i : Nat) (h0 : |start| ≤ 2147483648) (hs : 0 < step) (hs' : step ≤ 2147483648)
    (hi : i * step ≤ 4294967296) (h : (arangeF start stop step)[i]? = some t) :
    |t - (start + i * step)| ≤ (i + 3) * (1 / 1048576) := by
  unfold arangeF at h
  simp only [List.getElem?_map, Option.map_eq_some_iff] at h
  obtain ⟨j, hj, ht⟩ := h
  obtain ⟨hlt, rfl⟩ := List.getElem?_eq_some_iff.1 hj
  rw [List.getElem_range] at ht
  have hin : (0 : Rat) ≤ i := by positivity
  have e1 := f64_err (start + step)
  rw [pow2_neg53] at e1
  have g1 : |start + step| ≤ 4294967296 := by
    have := abs_add_le start step
    rw [abs_of_pos hs] at this
    linarith
  by_cases hi0 : i = 0
  · rw [if_pos hi0] at ht
    subst ht; subst hi0
    rw [show start - (start + ((0 : Nat) : Rat) * step) = 0 by push_cast; ring, abs_zero]
    norm_num
  rw [if_neg hi0] at ht
  by_cases hi1 : i = 1
  · rw [if_pos hi1] at ht
    subst ht; subst hi1
    rw [show f64 (start + step) - (start + ((1 : Nat) : Rat) * step) = f64 (start + step) - (start + step) by push_cast; ring]
    push_cast
    linarith
  rw [if_neg hi1] at ht
  generalize f64 (start + step) = next at *
  have e2 := f64_err (next - start)
  rw [pow2_neg53] at e2
  have g2 : |next - start| ≤ 2147483649 := by
    have h1 : next - start = (next - (start + step)) + step := by ring
    rw [h1]
    have := abs_add_le (next - (start + step)) step
    rw [abs_of_pos hs] at this
    linarith
  generalize f64 (next - start) = d at *
  have g3 : |d - step| ≤ 7 / 8388608 := by
    have h1 : d - step = (d - (next - start)) + (next - (start + step)) := by ring
    rw [h1]
    have := abs_add_le (d - (next - start)) (next - (start + step))
    linarith
  have g4 : |(i : Rat) * d - i * step| ≤ i * (7 / 8388608) := by
    rw [← mul_sub, abs_mul, abs_of_nonneg hin]
    exact mul_le_mul_of_nonneg_left g3 hin
  have g5 : |(i : Rat) * d| ≤ 4294967296 + i * (7 / 8388608) := by
    have := abs_add_le ((i : Rat) * d - i * step) (i * step)
    rw [sub_add_cancel, abs_of_nonneg (mul_nonneg hin hs.le)] at this
    linarith
  have e3 := f64_err ((i : Rat) * d)
  rw [pow2_neg53] at e3
  generalize f64 ((i : Rat) * d) = m at *
  generalize (i : Rat) * d = id at *
  have g6 : |m| ≤ 4294967298 + i * (8 / 8388608) := by
    have := abs_add_le (m - id) id
    rw [sub_add_cancel] at this
    linarith
  have e4 := f64_err (start + m)
  rw [pow2_neg53] at e4
  have g7 := abs_add_le start m
  subst ht
  generalize f64 (start + m) = w at *
  have h1 : w - (start + i * step) = (w - (start + m)) + (m - id) + (id - i * step) := by ring
  rw [h1]
  have t1 := abs_add_le ((w - (start + m)) + (m - id)) (id - i * step)
  have t2 := abs_add_le (w - (start + m)) (m - id)
  linarith

example : |(1600000000 : Rat)| ≤ 2147483648 ∧ (arangeF 1600000000 1600000001 (f64 (1 / 10)))[3]? ≠ none := by decide +kernel

/-- **C196** (negation of a part) With a step of 0.1 s that begins in the year 2020 the windows come 95 nanoseconds too early per
window: window 1000 begins more than 95 microseconds before its time. -/
theorem c196_decimal_violated :
    (arangeF 1600000000 1600000200 (f64 (1 / 10)))[1000]? = some (1600000100 - 400 / 4194304) ∧
      ((95 : Rat) / 1000000 < 400 / 4194304) := by
  decide +kernel

end SeisMIC
