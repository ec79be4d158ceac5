import Verif.Model.FloatAxes
import Verif.Props.FloatSamples
import Verif.Props.TraceUtils

/-!
# C200, C201: rounding of tested stretches, masks, tapers and steps
-/

namespace SeisMIC

/-! ### C200 -/

theorem f64_near (x : Rat) : |f64 x - x| ≤ |x| / 9007199254740992 := by
  have := f64_err x
  rw [pow2_neg53] at this
  rw [div_eq_mul_one_div]
  exact this

theorem f64_neg (x : Rat) : f64 (-x) = -f64 x := roundTo_neg 53 x

theorem f64_two_mul (r : Rat) (hr : f64 r = r) : f64 (r - -r) = r - -r := by
  have h : Representable 53 r := by rw [← hr]; exact representable_roundTo 53 r
  obtain ⟨m, k, hm, hx⟩ := h
  refine f64_exact ⟨m, k + 1, hm, ?_⟩
  rw [hx, pow2_add, show pow2 1 = 2 by rw [pow2_eq]; norm_num]
  ring

/-- the error of one element -/
theorem linspaceF_err (r : Rat) (hr0 : 0 < r) (hr : f64 r = r) (n : Nat) (hn : 2 ≤ n) (k : Nat) (hk : k < n) :
    |(if k + 1 = n then r else f64 (f64 (k * f64 (f64 (r - -r) / ((n : Rat) - 1))) + -r)) - (-r + k * (2 * r / ((n : Rat) - 1)))| ≤
      r / 1125899906842624 := by
  have hn1 : (0 : Rat) < (n : Rat) - 1 := by
    have : (2 : Rat) ≤ n := by exact_mod_cast hn
    linarith
  split
  · rename_i he
    have : (k : Rat) = (n : Rat) - 1 := by rw [← he]; push_cast; ring
    rw [this]
    have e : -r + ((n : Rat) - 1) * (2 * r / ((n : Rat) - 1)) = r := by field_simp; ring
    rw [e, sub_self, abs_zero]
    positivity
  · rename_i he
    rw [f64_two_mul r hr]
    have hx : (r - -r) / ((n : Rat) - 1) = 2 * r / ((n : Rat) - 1) := by ring
    rw [hx]
    set x := 2 * r / ((n : Rat) - 1) with hxd
    have hx0 : 0 < x := by rw [hxd]; positivity
    have hkx : (k : Rat) * x ≤ 2 * r := by
      have : (k : Rat) ≤ (n : Rat) - 1 := by
        have : ((k + 1 : Nat) : Rat) ≤ (n : Rat) := by exact_mod_cast hk
        push_cast at this
        linarith
      calc (k : Rat) * x ≤ ((n : Rat) - 1) * x := mul_le_mul_of_nonneg_right this hx0.le
        _ = 2 * r := by rw [hxd]; field_simp
    have hk0 : (0 : Rat) ≤ k := by positivity
    have e1 := f64_near x
    rw [abs_of_pos hx0] at e1
    obtain ⟨a1, a2⟩ := abs_le.1 e1
    have b1 : (k : Rat) * f64 x ≤ k * x + 2 * r / 9007199254740992 := by
      have := mul_le_mul_of_nonneg_left a2 hk0
      have h3 : (k : Rat) * (x / 9007199254740992) ≤ 2 * r / 9007199254740992 := by
        rw [← mul_div_assoc]
        exact div_le_div_of_nonneg_right hkx (by norm_num)
      linarith [mul_sub (k : Rat) (f64 x) x]
    have b2 : k * x - 2 * r / 9007199254740992 ≤ (k : Rat) * f64 x := by
      have := mul_le_mul_of_nonneg_left a1 hk0
      have h3 : (k : Rat) * (x / 9007199254740992) ≤ 2 * r / 9007199254740992 := by
        rw [← mul_div_assoc]
        exact div_le_div_of_nonneg_right hkx (by norm_num)
      have h4 : (k : Rat) * -(x / 9007199254740992) = -((k : Rat) * (x / 9007199254740992)) := by ring
      linarith [mul_sub (k : Rat) (f64 x) x]
    have hkx0 : 0 ≤ (k : Rat) * x := mul_nonneg hk0 hx0.le
    set y := (k : Rat) * f64 x with hy
    have hy1 : |y| ≤ 3 * r := by
      rw [abs_le]; constructor <;> linarith
    have e2 := (f64_near y).trans (div_le_div_of_nonneg_right hy1 (by norm_num))
    obtain ⟨c1, c2⟩ := abs_le.1 e2
    set z := f64 y with hz
    have hz1 : |z + -r| ≤ 3 * r := by
      rw [abs_le]; constructor <;> linarith
    have e3 := (f64_near (z + -r)).trans (div_le_div_of_nonneg_right hz1 (by norm_num))
    obtain ⟨d1, d2⟩ := abs_le.1 e3
    rw [abs_le]
    constructor <;> linarith

theorem linspaceF_get (r : Rat) (n k : Nat) (hk : k < n) :
    (linspaceF (-r) r n)[k]? = some (if k + 1 = n then r else f64 (f64 (k * f64 (f64 (r - -r) / ((n : Rat) - 1))) + -r)) := by
  unfold linspaceF
  simp only
  rw [List.getElem?_map, List.getElem?_range hk]
  rfl

/-- **C200** There are as many stretches (or shifts) as requested, and each differs from the requested value by at most
`2^-50` of the range. -/
theorem c200_close (r : Rat) (hr0 : 0 < r) (hr : f64 r = r) (n : Nat) (hn : 2 ≤ n) :
    (linspaceF (-r) r n).length = n ∧ ∀ (k : Nat) (v : Rat), (linspaceF (-r) r n)[k]? = some v →
      |v - (-r + k * (2 * r / ((n : Rat) - 1)))| ≤ r / 2 ^ 50 := by
  refine ⟨by simp [linspaceF], fun k v hv => ?_⟩
  have hk : k < n := by
    have := (List.getElem?_eq_some_iff.1 hv).1
    simpa [linspaceF] using this
  rw [linspaceF_get r n k hk, Option.some.injEq] at hv
  rw [← hv]
  have := linspaceF_err r hr0 hr n hn k hk
  rw [show (2 : Rat) ^ 50 = 1125899906842624 by norm_num]
  exact this

/-- **C200** The first and the last one are exactly the ends of the range. -/
theorem c200_ends (r : Rat) (hr : f64 r = r) (n : Nat) (hn : 2 ≤ n) :
    (linspaceF (-r) r n)[0]? = some (-r) ∧ (linspaceF (-r) r n)[n - 1]? = some r := by
  constructor
  · rw [linspaceF_get r n 0 (by omega), if_neg (by omega)]
    simp only [Nat.cast_zero, zero_mul, f64_zero, zero_add]
    rw [f64_neg, hr]
  · rw [linspaceF_get r n (n - 1) (by omega), if_pos (by omega)]

/-- **C200** They increase strictly, so that no two of up to `2^48` values coincide. -/
theorem c200_increasing (r : Rat) (hr0 : 0 < r) (hr : f64 r = r) (n : Nat) (hn : 2 ≤ n) (hmax : n ≤ 2 ^ 48) :
    (linspaceF (-r) r n).Pairwise (· < ·) := by
  rw [List.pairwise_iff_getElem]
  intro i j hi hj hij
  have hj' : j < n := by simpa [linspaceF] using hj
  have e1 := (c200_close r hr0 hr n hn).2 i _ (List.getElem?_eq_getElem hi)
  have e2 := (c200_close r hr0 hr n hn).2 j _ (List.getElem?_eq_getElem hj)
  rw [show (2 : Rat) ^ 50 = 1125899906842624 by norm_num] at e1 e2
  obtain ⟨-, a2⟩ := abs_le.1 e1
  obtain ⟨b1, -⟩ := abs_le.1 e2
  have hn1 : (0 : Rat) < (n : Rat) - 1 := by
    have : (2 : Rat) ≤ n := by exact_mod_cast hn
    linarith
  have hx : 2 * r / 281474976710656 ≤ 2 * r / ((n : Rat) - 1) := by
    refine div_le_div_of_nonneg_left (by linarith) hn1 ?_
    have h' : n ≤ 281474976710656 := hmax.trans (by norm_num)
    have : (n : Rat) ≤ 281474976710656 := by exact_mod_cast h'
    linarith
  have hd : (1 : Rat) ≤ (j : Rat) - i := by
    have : ((i + 1 : Nat) : Rat) ≤ (j : Rat) := by exact_mod_cast hij
    push_cast at this
    linarith
  have hx0 : 0 < 2 * r / ((n : Rat) - 1) := by positivity
  have h3 : (j : Rat) * (2 * r / ((n : Rat) - 1)) - i * (2 * r / ((n : Rat) - 1)) ≥ 2 * r / ((n : Rat) - 1) := by
    have := mul_le_mul_of_nonneg_right hd hx0.le
    linarith [sub_mul (j : Rat) i (2 * r / ((n : Rat) - 1))]
  linarith

/-- **C200** (part) With an odd number of steps zero is tested if the increment has at most 53 binary digits.
Missing: other increments, see `c200_zero_violated`. -/
theorem c200_zero_partial (r : Rat) (hr : f64 r = r) (m : Nat) (hm : 0 < m) (hstep : f64 (r / m) = r / m) :
    (linspaceF (-r) r (2 * m + 1))[m]? = some 0 := by
  have hm' : (m : Rat) ≠ 0 := by exact_mod_cast hm.ne'
  rw [linspaceF_get r (2 * m + 1) m (by omega), if_neg (by omega), f64_two_mul r hr]
  have : (r - -r) / (((2 * m + 1 : Nat) : Rat) - 1) = r / m := by
    push_cast
    field_simp
    ring
  rw [this, hstep, show (m : Rat) * (r / m) = r by field_simp, hr, add_neg_cancel, f64_zero]

/-- **C200** (negation of a part) With a range of 0.05 and 601 steps the value in the middle is not zero but about 7e-18. -/
theorem c200_zero_violated : (linspaceF (-f64 (5 / 100)) (f64 (5 / 100)) 601)[300]? = some (1 / 2 ^ 57) := by
  decide +kernel

/-- a range of 0.01 with 101 steps, and one where the increment is exact -/
example : f64 (f64 (1 / 100)) = f64 (1 / 100) ∧ (linspaceF (-f64 (1 / 100)) (f64 (1 / 100)) 101)[50]? = some 0 ∧
    f64 (1 / 2) = 1 / 2 ∧ f64 (1 / 2 / (4 : Nat)) = 1 / 2 / (4 : Nat) := by decide +kernel

/-! ### C201 -/

theorem pyRound_close (x : Rat) (m : Int) (h : |x - m| < 1 / 2) : pyRound x = m := by
  have e := pyRound_err x
  have h1 : |(pyRound x : Rat) - m| < 1 := by
    have := abs_add_le ((pyRound x : Rat) - x) (x - m)
    rw [sub_add_sub_cancel] at this
    linarith
  have h2 : |pyRound x - m| < 1 := by exact_mod_cast h1
  have := abs_lt.1 h2
  omega

/-- **C201** A taper whose length is a whole number of samples (in seconds, as close as a float can be) has this
number of samples. -/
theorem c201_taper (sr : Rat) (hsr : 0 < sr) (m : Nat) (hm : m ≤ 2 ^ 50) : cosTaperSamplesF sr (f64 (m / sr)) = m := by
  have hm' : (m : Rat) ≤ 1125899906842624 := by
    have h' : m ≤ 1125899906842624 := hm.trans (by norm_num)
    exact_mod_cast h'
  have hm0 : (0 : Rat) ≤ m := by positivity
  have e1 := f64_near ((m : Rat) / sr)
  rw [abs_of_nonneg (by positivity : (0 : Rat) ≤ m / sr)] at e1
  obtain ⟨a1, a2⟩ := abs_le.1 e1
  have q : (m : Rat) / sr * sr = m := by field_simp
  have b1 : f64 (m / sr) * sr ≤ m + m / 9007199254740992 := by
    have := mul_le_mul_of_nonneg_right a2 hsr.le
    rw [sub_mul, q, div_mul_eq_mul_div, q] at this
    linarith
  have b2 : m - m / 9007199254740992 ≤ f64 (m / sr) * sr := by
    have := mul_le_mul_of_nonneg_right a1 hsr.le
    rw [sub_mul, q, neg_mul, div_mul_eq_mul_div, q] at this
    linarith
  unfold cosTaperSamplesF
  have e2 := f64_near (f64 (m / sr) * sr)
  set y := f64 (m / sr) * sr
  have hy : |y| ≤ 2 * m := by rw [abs_le]; constructor <;> linarith
  have e3 := e2.trans (div_le_div_of_nonneg_right hy (by norm_num))
  obtain ⟨c1, c2⟩ := abs_le.1 e3
  apply pyRound_close
  push_cast
  rw [abs_lt]
  constructor <;> linarith

/-- a taper of 0.29 s at 100 Hz has 29 samples (the other taper, which cuts off the decimals, has 28) -/
example : cosTaperSamplesF 100 (f64 (29 / 100)) = 29 ∧ taperSamplesF 100 (f64 (29 / 100)) = 28 := by decide +kernel

/-- **C201** Similarity matrices are moved by the number of steps that is next to the shift, if the shift is within a
quarter of a step of it: the increment of the axis is good enough for up to a million steps. -/
theorem c201_roll (r : Rat) (hr0 : 0 < r) (hr : f64 r = r) (n : Nat) (hn : 3 ≤ n) (hmax : n ≤ 2 ^ 20) (a0 a1 : Rat)
    (h0 : (linspaceF (-r) r n)[0]? = some a0) (h1 : (linspaceF (-r) r n)[1]? = some a1) (shift : Rat) (m : Int) (hm : |m| ≤ n)
    (hs : |shift - m * (2 * r / ((n : Rat) - 1))| ≤ 2 * r / ((n : Rat) - 1) / 4) : rollF shift a0 a1 = -m := by
  have ha0 : a0 = -r := by
    have := (c200_ends r hr n (by omega)).1
    rw [h0] at this
    exact Option.some.inj this
  have e1 := (c200_close r hr0 hr n (by omega)).2 1 a1 h1
  rw [show (2 : Rat) ^ 50 = 1125899906842624 by norm_num, Nat.cast_one, one_mul] at e1
  have hn1 : (0 : Rat) < (n : Rat) - 1 := by
    have : (3 : Rat) ≤ n := by exact_mod_cast hn
    linarith
  have hn2 : (n : Rat) ≤ 1048576 := by
    have h' : n ≤ 1048576 := hmax.trans (by norm_num)
    exact_mod_cast h'
  set d := 2 * r / ((n : Rat) - 1) with hd
  have hd0 : 0 < d := by rw [hd]; positivity
  have hrd : r ≤ d * 524288 := by
    have : r = d * (((n : Rat) - 1) / 2) := by rw [hd]; field_simp
    rw [this]
    exact mul_le_mul_of_nonneg_left (by linarith) hd0.le
  obtain ⟨a1l, a1u⟩ := abs_le.1 e1
  have hw : |a1 - a0| ≤ 2 * d := by
    rw [ha0, abs_le]; constructor <;> linarith
  have e2 := (f64_near (a1 - a0)).trans (div_le_div_of_nonneg_right hw (by norm_num))
  obtain ⟨b1, b2⟩ := abs_le.1 e2
  set w := f64 (a1 - a0) with hwd
  -- the increment is good to `2^-30`
  have c1 : w ≤ d + d / 1073741824 := by rw [ha0] at b2; linarith
  have c2 : d - d / 1073741824 ≤ w := by rw [ha0] at b1; linarith
  have hw0 : 0 < w := by linarith
  have hmn : |(m : Rat)| ≤ 1048576 := by
    have : |(m : Rat)| ≤ n := by exact_mod_cast hm
    linarith
  have hmw : |(m : Rat) * (w - d)| ≤ d / 1024 := by
    rw [abs_mul]
    have : |w - d| ≤ d / 1073741824 := by rw [abs_le]; constructor <;> linarith
    calc |(m : Rat)| * |w - d| ≤ 1048576 * (d / 1073741824) := mul_le_mul hmn this (abs_nonneg _) (by norm_num)
      _ = d / 1024 := by ring
  have hsw : |shift - m * w| ≤ d * (257 / 1024) := by
    have := abs_sub (shift - m * d) (m * (w - d))
    have h3 : shift - m * d - m * (w - d) = shift - m * w := by ring
    rw [h3] at this
    linarith
  have hq : |-shift / w - ((-m : Int) : Rat)| ≤ 3 / 10 := by
    have h4 : -shift / w - ((-m : Int) : Rat) = -((shift - m * w) / w) := by
      push_cast
      field_simp
      ring
    rw [h4, abs_neg, abs_div, abs_of_pos hw0, div_le_iff₀ hw0]
    linarith
  unfold rollF
  rw [← hwd]
  set q := -shift / w
  apply pyRound_close
  have hqb : |q| ≤ 1048577 := by
    have := abs_add_le (q - ((-m : Int) : Rat)) ((-m : Int) : Rat)
    rw [sub_add_cancel] at this
    have h5 : |(((-m : Int)) : Rat)| = |(m : Rat)| := by push_cast; exact abs_neg _
    rw [h5] at this
    linarith
  have e3 := (f64_near q).trans (div_le_div_of_nonneg_right hqb (by norm_num))
  have := abs_add_le (f64 q - q) (q - ((-m : Int) : Rat))
  rw [sub_add_sub_cancel] at this
  linarith

/-- a shift of about 7 steps of an axis with 1001 values between -0.03 and 0.03 -/
example : rollF (f64 (425 / 1000000)) (((linspaceF (-f64 (3 / 100)) (f64 (3 / 100)) 1001)[0]?).getD 0)
      (((linspaceF (-f64 (3 / 100)) (f64 (3 / 100)) 1001)[1]?).getD 0) = -7 ∧
    |f64 (425 / 1000000) - (7 : Int) * (2 * f64 (3 / 100) / (((1001 : Nat) : Rat) - 1))| ≤ 2 * f64 (3 / 100) / (((1001 : Nat) : Rat) - 1) / 4 := by
  decide +kernel

/-- **C201** The number of windows of a process without data is the one of exact arithmetic if the lengths are whole
numbers of seconds.
Missing for the full property: `c201_windows_violated`. -/
theorem c201_windows_partial (a b : Nat) (hb : 0 < b) (ha : a < 2 ^ 50) : emptyWindowsF a b = ((a : Rat) / b).ceil := by
  have hb' : (0 : Rat) < b := by exact_mod_cast hb
  have ha' : (a : Rat) ≤ 1125899906842624 := by
    have h' : a ≤ 1125899906842624 := ha.le.trans (by norm_num)
    exact_mod_cast h'
  have ha0 : (0 : Rat) ≤ a := by positivity
  unfold emptyWindowsF
  have e := f64_near ((a : Rat) / b)
  have hq0 : (0 : Rat) ≤ (a : Rat) / b := by positivity
  rw [abs_of_nonneg hq0] at e
  obtain ⟨e1, e2⟩ := abs_le.1 e
  have hqa : (a : Rat) / b / 9007199254740992 < 1 / b := by
    rw [div_div, div_lt_div_iff₀ (by positivity) hb']
    have := mul_le_mul_of_nonneg_right ha' hb'.le
    linarith
  refine eq_of_forall_ge_iff fun k => ?_
  rw [Rat.ceil_le_iff, Rat.ceil_le_iff]
  constructor
  · intro h
    by_contra hc
    rw [not_le, lt_div_iff₀ hb'] at hc
    have hc' : k * (b : Int) + 1 ≤ a := by exact_mod_cast hc
    have hc2 : (k : Rat) * b + 1 ≤ a := by exact_mod_cast hc'
    have : (k : Rat) + 1 / b ≤ a / b := by
      rw [le_div_iff₀ hb', add_mul, one_div, inv_mul_cancel₀ hb'.ne']
      exact hc2
    linarith
  · intro h
    have hk0 : (0 : Rat) ≤ k := hq0.trans h
    by_cases hk : |k| ≤ 2 ^ 53
    · have := f64_mono h
      rwa [f64_int k hk] at this
    · have hk1 : (9007199254740992 : Rat) < k := by
        have h0 : 0 ≤ k := by exact_mod_cast hk0
        rw [abs_of_nonneg h0, not_le] at hk
        have : (9007199254740992 : Int) < k := by norm_num at hk; exact hk
        exact_mod_cast this
      have hb1 : (1 : Rat) ≤ b := by exact_mod_cast hb
      have : (a : Rat) / b ≤ a := by
        rw [div_le_iff₀ hb']
        have := mul_le_mul_of_nonneg_left hb1 ha0
        linarith
      linarith

/-- one day in steps of 1100 seconds -/
example : emptyWindowsF (86400 : Nat) (1100 : Nat) = 79 := by decide +kernel

/-- **C201** (negation of a part) 2.1 s hold three increments of 0.7 s, but the processes without data pass four windows. -/
theorem c201_windows_violated : emptyWindowsF (f64 (21 / 10)) (f64 (7 / 10)) = 4 ∧ ((21 / 10 : Rat) / (7 / 10)).ceil = 3 := by
  decide +kernel

theorem f64_half (i : Int) (h : |2 * i + 1| ≤ 2 ^ 53) : f64 ((i : Rat) + 1 / 2) = (i : Rat) + 1 / 2 := by
  refine f64_exact ⟨2 * i + 1, -1, h, ?_⟩
  rw [show pow2 (-1) = 1 / 2 by rw [pow2_eq]; norm_num]
  push_cast
  ring

/-- `c201_mask` without `reverse`: every sample inside an interval with an end in the trace is masked, and no sample that is two samples or more away
from all intervals, whatever the rounding of times (`secs`, here up to a quarter of a sample) and products. -/
theorem maskAtUtcF_plain (secs : Rat → Rat) (η : Rat) (npts : Nat) (hnp : npts ≤ 2 ^ 50) (sr start : Rat) (hsr : 0 < sr) (hη : sr * η ≤ 1 / 4)
    (hsecs : ∀ x : Rat, 0 < x → sr * x ≤ npts → |secs x - x| ≤ η ∧ 0 ≤ secs x) (ivs : List (Rat × Rat)) (hiv : ∀ iv ∈ ivs, iv.1 ≤ iv.2)
    (i : Nat) (hi : i < npts) :
    (∀ iv ∈ ivs, ((start < iv.1 ∧ iv.1 < start + ((npts : Rat) - 1) / sr) ∨
        (start < iv.2 ∧ iv.2 < start + ((npts : Rat) - 1) / sr)) →
      iv.1 ≤ start + i / sr → start + i / sr ≤ iv.2 → (maskAtUtcF secs npts sr start ivs false)[i]? = some true) ∧
    ((∀ iv ∈ ivs, start + i / sr ≤ iv.1 - 2 / sr ∨ iv.2 + 2 / sr ≤ start + i / sr) →
      (maskAtUtcF secs npts sr start ivs false)[i]? = some false) := by
  set stop := start + ((npts : Rat) - 1) / sr with hstop
  set ii := fun iv : Rat × Rat => decide (iv.1 < stop) && decide (iv.1 > start) with hii
  set jj := fun iv : Rat × Rat => decide (iv.2 < stop) && decide (iv.2 > start) with hjj
  have hiit : ∀ iv, ii iv = true ↔ iv.1 < stop ∧ start < iv.1 := by intro iv; simp [hii]
  have hjjt : ∀ iv, jj iv = true ↔ iv.2 < stop ∧ start < iv.2 := by intro iv; simp [hjj]
  have hnr : (npts : Rat) ≤ 1125899906842624 := by
    have h' : npts ≤ 1125899906842624 := hnp.trans (by norm_num)
    exact_mod_cast h'
  have hir : (i : Rat) ≤ (npts : Rat) - 1 := by
    have : ((i + 1 : Nat) : Rat) ≤ (npts : Rat) := by exact_mod_cast hi
    push_cast at this
    linarith
  have hi0 : (0 : Rat) ≤ i := by positivity
  -- the product for a time in the trace
  have prod : ∀ s : Rat, start < s → s < stop → |sr * secs (s - start) - sr * (s - start)| ≤ 1 / 4 ∧ 0 ≤ sr * secs (s - start) ∧
      sr * (s - start) ≤ npts := by
    intro s h1 h2
    have h3 : sr * (s - start) ≤ npts := by
      have : s - start ≤ ((npts : Rat) - 1) / sr := by rw [hstop] at h2; linarith
      have := mul_le_mul_of_nonneg_left this hsr.le
      rw [mul_div_cancel₀ _ hsr.ne'] at this
      linarith
    obtain ⟨g1, g2⟩ := hsecs (s - start) (by linarith) h3
    refine ⟨?_, mul_nonneg hsr.le g2, h3⟩
    rw [← mul_sub, abs_mul, abs_of_pos hsr]
    exact (mul_le_mul_of_nonneg_left g1 hsr.le).trans hη
  have hti : start + (i : Rat) / sr ≤ stop := by
    rw [hstop]
    have := div_le_div_of_nonneg_right hir hsr.le
    linarith
  have hti0 : start ≤ start + (i : Rat) / sr := by
    have : (0 : Rat) ≤ i / sr := by positivity
    linarith
  have scale : ∀ s : Rat, sr * (s - start) ≤ i ↔ s ≤ start + i / sr := by
    intro s
    rw [mul_comm, ← le_div_iff₀ hsr]
    constructor <;> intro h <;> linarith
  have scale' : ∀ s : Rat, (i : Rat) ≤ sr * (s - start) ↔ start + i / sr ≤ s := by
    intro s
    rw [mul_comm, ← div_le_iff₀ hsr]
    constructor <;> intro h <;> linarith
  have hns0 : ∀ s, start < s → s < stop → 0 ≤ (f64 (sr * secs (s - start))).floor := by
    intro s h1 h2
    rw [Rat.le_floor_iff]
    push_cast
    exact roundTo_nonneg 53 _ (prod s h1 h2).2.1
  have hne0 : ∀ e, start < e → e < stop → 0 ≤ (f64 (sr * secs (e - start))).ceil + 1 := by
    intro e h1 h2
    have h3 : (0 : Rat) ≤ f64 (sr * secs (e - start)) := roundTo_nonneg 53 _ (prod e h1 h2).2.1
    have h4 := Rat.le_ceil (x := f64 (sr * secs (e - start)))
    have h5 : (0 : Int) ≤ (f64 (sr * secs (e - start))).ceil := by exact_mod_cast h3.trans h4
    omega
  have hii64 : |2 * (i : Int) + 1| ≤ 2 ^ 53 := by
    rw [abs_of_nonneg (by positivity)]
    have : i < 2 ^ 50 := lt_of_lt_of_le hi hnp
    have : (i : Int) < 2 ^ 50 := by exact_mod_cast this
    norm_num at this ⊢
    omega
  have hii64' : |2 * ((i : Int) - 1) + 1| ≤ 2 ^ 53 := by
    have : i < 2 ^ 50 := lt_of_lt_of_le hi hnp
    have : (i : Int) < 2 ^ 50 := by exact_mod_cast this
    norm_num at this
    rw [abs_le]
    norm_num
    omega
  have hcov1 : ∀ s, start < s → s < stop → s ≤ start + i / sr → (f64 (sr * secs (s - start))).floor ≤ (i : Int) := by
    intro s h1 h2 h3
    have h4 := (scale s).2 h3
    have h5 := (abs_le.1 (prod s h1 h2).1).2
    have h6 := f64_mono (show sr * secs (s - start) ≤ ((i : Int) : Rat) + 1 / 2 by push_cast; linarith)
    rw [f64_half _ hii64] at h6
    have h7 := Rat.floor_le (f64 (sr * secs (s - start)))
    have h8 : ((f64 (sr * secs (s - start))).floor : Rat) < ((i : Int) : Rat) + 1 := by linarith
    have h9 : (f64 (sr * secs (s - start))).floor < (i : Int) + 1 := by exact_mod_cast h8
    omega
  have hcov2 : ∀ e, start < e → e < stop → start + i / sr ≤ e → (i : Int) < (f64 (sr * secs (e - start))).ceil + 1 := by
    intro e h1 h2 h3
    have h4 := (scale' e).2 h3
    have h5 := (abs_le.1 (prod e h1 h2).1).1
    have h6 := f64_mono (show (((i : Int) - 1 : Int) : Rat) + 1 / 2 ≤ sr * secs (e - start) by push_cast; linarith)
    rw [f64_half _ hii64'] at h6
    have h7 := Rat.le_ceil (x := f64 (sr * secs (e - start)))
    have h8 : (((i : Int) - 1 : Int) : Rat) < ((f64 (sr * secs (e - start))).ceil : Rat) := by push_cast at h6 ⊢; linarith
    have h9 : (i : Int) - 1 < (f64 (sr * secs (e - start))).ceil := by exact_mod_cast h8
    omega
  have hprod2 : ∀ s, start < s → s < stop → |f64 (sr * secs (s - start)) - sr * (s - start)| < 1 := by
    intro s h1 h2
    obtain ⟨p1, p2, p3⟩ := prod s h1 h2
    obtain ⟨p4, p5⟩ := abs_le.1 p1
    have p6 : |sr * secs (s - start)| ≤ 2251799813685248 := by rw [abs_of_nonneg p2]; linarith
    have e := (f64_near (sr * secs (s - start))).trans (div_le_div_of_nonneg_right p6 (by norm_num))
    obtain ⟨e1, e2⟩ := abs_le.1 e
    rw [abs_lt]
    constructor <;> linarith
  have hdist : ∀ c : Rat, (i : Rat) / sr + c / sr = ((i : Rat) + c) / sr := by intro c; ring
  have hfar1 : ∀ s, start < s → s < stop → (f64 (sr * secs (s - start))).floor ≤ (i : Int) → s - 2 / sr < start + i / sr := by
    intro s h1 h2 h3
    obtain ⟨p1, p2⟩ := abs_lt.1 (hprod2 s h1 h2)
    have h4 := Rat.lt_floor (x := f64 (sr * secs (s - start)))
    have h5 : ((f64 (sr * secs (s - start))).floor : Rat) ≤ (i : Rat) := by exact_mod_cast h3
    have h6 : sr * (s - start) < i + 2 := by linarith
    have h7 : s - start < (i + 2) / sr := by rw [lt_div_iff₀ hsr]; linarith
    rw [← hdist] at h7
    linarith
  have hfar2 : ∀ e, start < e → e < stop → (i : Int) < (f64 (sr * secs (e - start))).ceil + 1 → start + i / sr < e + 2 / sr := by
    intro e h1 h2 h3
    obtain ⟨p1, p2⟩ := abs_lt.1 (hprod2 e h1 h2)
    have h4 : ((f64 (sr * secs (e - start))).ceil : Rat) < f64 (sr * secs (e - start)) + 1 := Rat.ceil_lt
    have h5 : (i : Rat) ≤ ((f64 (sr * secs (e - start))).ceil : Rat) := by exact_mod_cast (show (i : Int) ≤ _ by omega)
    have h6 : (i : Rat) - 2 < sr * (e - start) := by linarith
    have h7 : ((i : Rat) + -2) / sr < e - start := by rw [div_lt_iff₀ hsr]; linarith
    rw [← hdist] at h7
    have : (-2 : Rat) / sr = -(2 / sr) := by ring
    linarith
  -- the three loops
  let m0 := List.replicate npts false
  let m1 := (ivs.filter fun iv => jj iv && ii iv).foldl
    (fun m iv => setMask m (some (f64 (sr * secs (iv.1 - start))).floor) (some ((f64 (sr * secs (iv.2 - start))).ceil + 1))) m0
  let m2 := (ivs.filter fun iv => ii iv && !jj iv).foldl
    (fun m iv => setMask m (some (f64 (sr * secs (iv.1 - start))).floor) none) m1
  let m3 := (ivs.filter fun iv => !ii iv && jj iv).foldl
    (fun m iv => setMask m none (some ((f64 (sr * secs (iv.2 - start))).ceil + 1))) m2
  have hm0 : m0.length = npts := by simp [m0]
  have h1 := fold_setMask (ivs.filter fun iv => jj iv && ii iv) (fun iv => some (f64 (sr * secs (iv.1 - start))).floor)
    (fun iv => some ((f64 (sr * secs (iv.2 - start))).ceil + 1)) m0 i (by rw [hm0]; exact hi)
    (by
      intro iv h k hk
      have h2 := (List.mem_filter.1 h).2
      simp only [Bool.and_eq_true] at h2
      cases hk
      exact hns0 _ ((hiit iv).1 h2.2).2 ((hiit iv).1 h2.2).1)
    (by
      intro iv h k hk
      have h2 := (List.mem_filter.1 h).2
      simp only [Bool.and_eq_true] at h2
      cases hk
      exact hne0 _ ((hjjt iv).1 h2.1).2 ((hjjt iv).1 h2.1).1)
  have hm1 : m1.length = npts := h1.1.trans hm0
  have h2 := fold_setMask (ivs.filter fun iv => ii iv && !jj iv) (fun iv => some (f64 (sr * secs (iv.1 - start))).floor)
    (fun _ => none) m1 i (by rw [hm1]; exact hi)
    (by
      intro iv h k hk
      have h2 := (List.mem_filter.1 h).2
      simp only [Bool.and_eq_true] at h2
      cases hk
      exact hns0 _ ((hiit iv).1 h2.1).2 ((hiit iv).1 h2.1).1)
    (by intro iv h k hk; cases hk)
  have hm2 : m2.length = npts := h2.1.trans hm1
  have h3 := fold_setMask (ivs.filter fun iv => !ii iv && jj iv) (fun _ => none)
    (fun iv => some ((f64 (sr * secs (iv.2 - start))).ceil + 1)) m2 i (by rw [hm2]; exact hi)
    (by intro iv h k hk; cases hk)
    (by
      intro iv h k hk
      have h2 := (List.mem_filter.1 h).2
      simp only [Bool.and_eq_true] at h2
      cases hk
      exact hne0 _ ((hjjt iv).1 h2.2).2 ((hjjt iv).1 h2.2).1)
  have hm3 : m3.length = npts := h3.1.trans hm2
  have hfun : maskAtUtcF secs npts sr start ivs false = m3 := rfl
  have hz : m0[i]? ≠ some true := by simp [m0, hi]
  have hmain := h3.2
  rw [h2.2, h1.2] at hmain
  simp only [hz, false_or, Option.mem_def, Option.some.injEq, forall_eq', reduceCtorEq, false_imp_iff, implies_true,
    and_true, true_and, List.mem_filter, Bool.and_eq_true, Bool.not_eq_true'] at hmain
  have hmain' : m3[i]? = some true ↔ _ := hmain
  have hinv : (0 : Rat) < 2 / sr := by positivity
  rw [hfun]
  constructor
  · intro iv hm hin g1 g2
    rw [hmain']
    by_cases hI : ii iv = true
    · obtain ⟨i1, i2⟩ := (hiit iv).1 hI
      by_cases hJ : jj iv = true
      · obtain ⟨j1, j2⟩ := (hjjt iv).1 hJ
        exact Or.inl (Or.inl ⟨iv, ⟨hm, hJ, hI⟩, hcov1 _ i2 i1 g1, hcov2 _ j2 j1 g2⟩)
      · exact Or.inl (Or.inr ⟨iv, ⟨hm, hI, by simpa using hJ⟩, hcov1 _ i2 i1 g1⟩)
    · by_cases hJ : jj iv = true
      · obtain ⟨j1, j2⟩ := (hjjt iv).1 hJ
        exact Or.inr ⟨iv, ⟨hm, by simpa using hI, hJ⟩, hcov2 _ j2 j1 g2⟩
      · exfalso
        rcases hin with h4 | h4
        · exact hI ((hiit iv).2 ⟨h4.2, h4.1⟩)
        · exact hJ ((hjjt iv).2 ⟨h4.2, h4.1⟩)
  · intro hfar
    have hn : ¬ m3[i]? = some true := by
      rw [hmain']
      rintro ((⟨iv, ⟨hm, hj, hi'⟩, h4, h5⟩ | ⟨iv, ⟨hm, hi', hj⟩, h4⟩) | ⟨iv, ⟨hm, hi', hj⟩, h5⟩)
      · obtain ⟨i1, i2⟩ := (hiit iv).1 hi'
        obtain ⟨j1, j2⟩ := (hjjt iv).1 hj
        have := hfar1 _ i2 i1 h4
        have := hfar2 _ j2 j1 h5
        rcases hfar iv hm with h | h <;> linarith
      · obtain ⟨i1, i2⟩ := (hiit iv).1 hi'
        have := hfar1 _ i2 i1 h4
        have hn' : ¬ (iv.2 < stop ∧ start < iv.2) := fun h => by rw [(hjjt iv).2 h] at hj; cases hj
        have h6 : stop ≤ iv.2 := by
          by_contra hc
          exact hn' ⟨not_le.1 hc, by linarith [hiv iv hm]⟩
        rcases hfar iv hm with h | h <;> linarith
      · obtain ⟨j1, j2⟩ := (hjjt iv).1 hj
        have := hfar2 _ j2 j1 h5
        have hn' : ¬ (iv.1 < stop ∧ start < iv.1) := fun h => by rw [(hiit iv).2 h] at hi'; cases hi'
        have h6 : iv.1 ≤ start := by
          by_contra hc
          exact hn' ⟨by linarith [hiv iv hm], not_le.1 hc⟩
        rcases hfar iv hm with h | h <;> linarith
    have : m3[i]? = some (m3[i]'(by rw [hm3]; exact hi)) := List.getElem?_eq_getElem _
    rw [this] at hn ⊢
    cases hb : m3[i]'(by rw [hm3]; exact hi) with
    | true => rw [hb] at hn; exact absurd rfl hn
    | false => rfl

/-- **C201** Every sample inside an interval with an end in the trace is masked, and no sample that is two samples or more away
from all intervals (with `reverse` the other way round), whatever the rounding of times (`secs`, here up to a quarter of a sample) and products. -/
theorem c201_mask (secs : Rat → Rat) (η : Rat) (npts : Nat) (hnp : npts ≤ 2 ^ 50) (sr start : Rat) (hsr : 0 < sr) (hη : sr * η ≤ 1 / 4)
    (hsecs : ∀ x : Rat, 0 < x → sr * x ≤ npts → |secs x - x| ≤ η ∧ 0 ≤ secs x) (ivs : List (Rat × Rat)) (hiv : ∀ iv ∈ ivs, iv.1 ≤ iv.2)
    (reverse : Bool) (i : Nat) (hi : i < npts) :
    (∀ iv ∈ ivs, ((start < iv.1 ∧ iv.1 < start + ((npts : Rat) - 1) / sr) ∨
        (start < iv.2 ∧ iv.2 < start + ((npts : Rat) - 1) / sr)) →
      iv.1 ≤ start + i / sr → start + i / sr ≤ iv.2 → (maskAtUtcF secs npts sr start ivs reverse)[i]? = some (!reverse)) ∧
    ((∀ iv ∈ ivs, start + i / sr ≤ iv.1 - 2 / sr ∨ iv.2 + 2 / sr ≤ start + i / sr) →
      (maskAtUtcF secs npts sr start ivs reverse)[i]? = some reverse) := by
  have h := maskAtUtcF_plain secs η npts hnp sr start hsr hη hsecs ivs hiv i hi
  cases reverse with
  | false => exact h
  | true =>
    have e : maskAtUtcF secs npts sr start ivs true = (maskAtUtcF secs npts sr start ivs false).map (!·) := rfl
    rw [e, List.getElem?_map]
    refine ⟨fun iv a b c d => ?_, fun a => ?_⟩
    · rw [h.1 iv a b c d]; rfl
    · rw [h.2 a]; rfl

/-- times rounded to floats meet the hypotheses: ten samples at 10 Hz -/
example : maskAtUtcF f64 10 10 0 [(3 / 10, 7 / 10)] false = [false, false, false, true, true, true, true, true, false, false] := by
  decide +kernel

example : ∀ x : Rat, 0 < x → 10 * x ≤ (10 : Nat) → |f64 x - x| ≤ 1 / 40 ∧ 0 ≤ f64 x := by
  intro x h1 h2
  refine ⟨?_, roundTo_nonneg 53 x h1.le⟩
  have := f64_near x
  rw [abs_of_pos h1] at this
  push_cast at h2
  linarith

end SeisMIC
