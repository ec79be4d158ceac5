import Verif.Model.RateCopy
import Verif.Props.FloatTimes
import Verif.Props.FloatAxes

/-!
# C204: sampling rates survive copying, storing and comparing of headers
-/

namespace SeisMIC

/-! ### Lemmas: reciprocals of floats -/

/-- the mantissa of the reciprocal -/
def recip (M : Int) : Int := pyRound ((2 ^ 105 : Rat) / M)

theorem recip_near (M : Int) (hM : 0 < M) : 2 * |recip M * M - 2 ^ 105| ≤ M := by
  have h := pyRound_err ((2 ^ 105 : Rat) / M)
  have hM' : (0 : Rat) < M := by exact_mod_cast hM
  have e : ((recip M * M - 2 ^ 105 : Int) : Rat) = ((recip M : Rat) - 2 ^ 105 / M) * M := by
    push_cast; field_simp; norm_num
  have h2 : |((recip M * M - 2 ^ 105 : Int) : Rat)| ≤ 1 / 2 * M := by
    rw [e, abs_mul, abs_of_pos hM']
    exact mul_le_mul_of_nonneg_right h hM'.le
  have h3 : ((2 * |recip M * M - 2 ^ 105| : Int) : Rat) ≤ M := by
    push_cast at h2 ⊢
    linarith
  exact_mod_cast h3

theorem recip_unique (M N : Int) (hM : 0 < M) (h : 2 * |N * M - 2 ^ 105| < M) : recip M = N := by
  have hM' : (0 : Rat) < M := by exact_mod_cast hM
  refine pyRound_close _ _ ?_
  have e : (2 ^ 105 : Rat) / M - N = -(((N * M - 2 ^ 105 : Int) : Rat) / M) := by
    push_cast; field_simp; ring
  rw [e, abs_neg, abs_div, abs_of_pos hM', div_lt_iff₀ hM']
  have h3 : ((2 * |N * M - 2 ^ 105| : Int) : Rat) < M := by exact_mod_cast h
  push_cast at h3 ⊢
  linarith

theorem recip_range (M : Int) (h1 : 2 ^ 52 < M) (h2 : M < 2 ^ 53) : 2 ^ 52 < recip M ∧ recip M < 2 ^ 53 := by
  have h := recip_near M (by omega)
  obtain ⟨a, b⟩ := abs_le.1 (show |recip M * M - 2 ^ 105| ≤ M / 2 by omega)
  generalize recip M = N at *
  constructor
  · by_contra hc
    have hN : N ≤ 2 ^ 52 := by omega
    have : N * M ≤ 2 ^ 52 * M := mul_le_mul_of_nonneg_right hN (by omega)
    omega
  · by_contra hc
    have hN : 2 ^ 53 ≤ N := by omega
    have : 2 ^ 53 * M ≤ N * M := mul_le_mul_of_nonneg_right hN (by omega)
    omega

/-- two reciprocals give the number, or three give what one gives -/
theorem recip_cycle (M : Int) (h1 : 2 ^ 52 < M) (h2 : M < 2 ^ 53) :
    recip (recip M) = M ∨ recip (recip (recip M)) = recip M := by
  have hN := recip_near M (by omega)
  obtain ⟨n1, n2⟩ := recip_range M h1 h2
  generalize recip M = N at *
  by_cases hlt : M < N
  · left
    exact recip_unique N M (by omega) (by rw [mul_comm M N]; omega)
  · right
    have hP := recip_near N (by omega)
    obtain ⟨p1, p2⟩ := recip_range N n1 n2
    generalize recip N = P at *
    refine recip_unique P N (by omega) ?_
    rw [mul_comm N P]
    suffices N < P by omega
    by_contra hc
    have hPN : P * N ≤ N * N := mul_le_mul_of_nonneg_right (by omega) (by omega)
    obtain ⟨a, b⟩ := abs_le.1 (show |P * N - 2 ^ 105| ≤ N / 2 by omega)
    obtain ⟨c, d⟩ := abs_le.1 (show |N * M - 2 ^ 105| ≤ M / 2 by omega)
    have hNM : N * N ≤ N * M := mul_le_mul_of_nonneg_left (by omega) (by omega)
    by_cases hNs : N ≤ 6369051672525772
    · have : N * N ≤ 6369051672525772 * 6369051672525772 := by nlinarith
      omega
    · by_cases hMs : M = N
      · subst hMs
        have : 6369051672525773 * 6369051672525773 ≤ M * M := by nlinarith
        by_cases hMs' : M ≤ 6369051672525773
        · have : M = 6369051672525773 := by omega
          subst this
          omega
        · have : 6369051672525774 * M ≤ M * M := mul_le_mul_of_nonneg_right (by omega) (by omega)
          omega
      · have : 6369051672525773 * M ≤ N * M := mul_le_mul_of_nonneg_right (by omega) (by omega)
        omega

theorem f64_recip (M k : Int) (h1 : 2 ^ 52 < M) (h2 : M < 2 ^ 53) :
    f64 (1 / (M * pow2 k)) = recip M * pow2 (-k - 105) := by
  have hM : (0 : Rat) < M := by
    have : (0 : Int) < M := by omega
    exact_mod_cast this
  have hk := pow2_pos k
  have hx : (0 : Rat) < 1 / (M * pow2 k) := by positivity
  have hkk : pow2 k * pow2 (-k) = 1 := by rw [mul_comm]; exact pow2_neg_mul k
  have hinv : (1 : Rat) / (M * pow2 k) = pow2 (-k) / M := by
    rw [div_eq_div_iff (by positivity) hM.ne']
    linear_combination (-(M : Rat)) * hkk
  have hlog : ilog2 (1 / (M * pow2 k)) = -k - 53 := by
    obtain ⟨a, b⟩ := ilog2_spec _ hx.ne'
    rw [abs_of_pos hx, hinv] at a b
    have hkp := pow2_pos (-k)
    have e53 : pow2 (-k - 53) = pow2 (-k) / 2 ^ 53 := by
      rw [sub_eq_add_neg, pow2_add, pow2_eq (-53)]; norm_num [div_eq_mul_inv]
    have e52 : pow2 (-k - 53 + 1) = pow2 (-k) / 2 ^ 52 := by
      rw [show -k - 53 + 1 = -k + -52 by ring, pow2_add, pow2_eq (-52)]; norm_num [div_eq_mul_inv]
    have m1 : ((2 : Rat) ^ 52) < M := by exact_mod_cast h1
    have m2 : (M : Rat) < 2 ^ 53 := by exact_mod_cast h2
    have l1 : pow2 (-k - 53) < pow2 (-k) / M := by
      rw [e53]; exact div_lt_div_of_pos_left hkp hM m2
    have l2 : pow2 (-k) / M < pow2 (-k - 53 + 1) := by
      rw [e52]; exact div_lt_div_of_pos_left hkp (by positivity) m1
    have c1 := lt_of_pow2_lt (lt_trans l1 b)
    have c2 := lt_of_pow2_lt (lt_of_le_of_lt a l2)
    rw [hinv]
    omega
  unfold f64 roundTo
  rw [if_neg hx.ne', hlog]
  have e : (1 : Rat) / (M * pow2 k) * pow2 (((53 : Nat) : Int) - 1 - (-k - 53)) = 2 ^ 105 / M := by
    rw [hinv, show ((53 : Nat) : Int) - 1 - (-k - 53) = k + 105 by push_cast; ring, pow2_add, pow2_eq 105]
    rw [div_mul_eq_mul_div, div_eq_div_iff hM.ne' hM.ne']
    have : pow2 (-k) * (pow2 k * (2 : Rat) ^ (105 : Int)) = 2 ^ 105 := by
      rw [← mul_assoc, pow2_neg_mul, one_mul]; norm_num
    rw [this]
  rw [e]
  unfold recip
  rw [show ((53 : Nat) : Int) - 1 - (-k - 53) = -(-k - 105) by push_cast; ring, div_eq_iff (pow2_pos _).ne', mul_assoc,
    mul_comm (pow2 (-k - 105)), pow2_neg_mul, mul_one]

/-- a positive float is a power of two, or has a mantissa with 53 digits that is not the smallest -/
theorem float_cases (x : Rat) (hx : 0 < x) (h : f64 x = x) :
    (∃ k : Int, x = pow2 k) ∨ ∃ M k : Int, 2 ^ 52 < M ∧ M < 2 ^ 53 ∧ x = M * pow2 k := by
  obtain ⟨a, b⟩ := ilog2_spec x hx.ne'
  rw [abs_of_pos hx] at a b
  unfold f64 roundTo at h
  rw [if_neg hx.ne'] at h
  generalize ilog2 x = e at *
  have hs : ((53 : Nat) : Int) - 1 - e = -(e - 52) := by push_cast; ring
  rw [hs] at h
  generalize hM : pyRound (x * pow2 (-(e - 52))) = M at *
  have hxM : x = M * pow2 (e - 52) := by
    have h' := (div_eq_iff (pow2_pos _).ne').1 h
    rw [h', mul_assoc, pow2_neg_mul, mul_one]
  have hp := pow2_pos (e - 52)
  have ea : pow2 e = 2 ^ 52 * pow2 (e - 52) := by
    rw [show pow2 e = pow2 (52 + (e - 52)) by congr 1; ring, pow2_add, pow2_eq 52]; norm_num
  have eb : pow2 (e + 1) = 2 ^ 53 * pow2 (e - 52) := by
    rw [show pow2 (e + 1) = pow2 (53 + (e - 52)) by congr 1; ring, pow2_add, pow2_eq 53]; norm_num
  have m1 : ((2 : Rat) ^ 52) ≤ M := by
    rw [ea, hxM] at a; exact le_of_mul_le_mul_right a hp
  have m2 : (M : Rat) < 2 ^ 53 := by
    rw [eb, hxM] at b; exact lt_of_mul_lt_mul_right b hp.le
  have m1' : (2 : Int) ^ 52 ≤ M := by exact_mod_cast m1
  have m2' : M < (2 : Int) ^ 53 := by exact_mod_cast m2
  rcases eq_or_lt_of_le m1' with he | hl
  · left
    refine ⟨e, ?_⟩
    rw [ea, hxM, ← he]; push_cast; rfl
  · exact .inr ⟨M, e - 52, hl, m2', hxM⟩

theorem f64_pow2 (k : Int) : f64 (pow2 k) = pow2 k :=
  f64_exact ⟨1, k, by norm_num, by simp⟩

theorem one_div_pow2 (k : Int) : 1 / pow2 k = pow2 (-k) := by
  rw [div_eq_iff (pow2_pos k).ne', pow2_neg_mul]

theorem rateF_deltaF (x : Rat) (hx : 0 < x) : rateF (deltaF x) = f64 (1 / f64 (1 / x)) := by
  have hp : 0 < f64 (1 / x) := roundTo_pos 53 (by decide) _ (by positivity)
  unfold rateF deltaF
  rw [if_neg hx.ne', if_neg hp.ne']

theorem rate_pos (x : Rat) (hx : 0 < x) : 0 < rateF (deltaF x) := by
  rw [rateF_deltaF x hx]
  have hp : 0 < f64 (1 / x) := roundTo_pos 53 (by decide) _ (by positivity)
  exact roundTo_pos 53 (by decide) _ (by positivity)

theorem rate_float (M k : Int) (h1 : 2 ^ 52 < M) (h2 : M < 2 ^ 53) :
    rateF (deltaF (M * pow2 k)) = recip (recip M) * pow2 k := by
  have hM : (0 : Rat) < M := by
    have : (0 : Int) < M := by omega
    exact_mod_cast this
  have hk := pow2_pos k
  obtain ⟨n1, n2⟩ := recip_range M h1 h2
  rw [rateF_deltaF _ (by positivity), f64_recip M k h1 h2, f64_recip _ _ n1 n2]
  congr 2
  ring

theorem rate_pow2 (k : Int) : rateF (deltaF (pow2 k)) = pow2 k := by
  rw [rateF_deltaF _ (pow2_pos k), one_div_pow2, f64_pow2, one_div_pow2, f64_pow2, neg_neg]

/-! ### Specification -/

/-- what happens to a header in memory and in files: it is copied, or it is written to a file and read -/
inductive Handling where
  | copied
  | stored

/-- the header after one of these -/
def Handling.apply (h : RateHdr) : Handling → RateHdr
  | .copied => h.copy
  | .stored => h.store

/-- the header after a history of these, in any order -/
def handled (h : RateHdr) (steps : List Handling) : RateHdr := steps.foldl Handling.apply h

/-! ### C204 -/

/-- **C204** The sampling rate changes at most once, when a header is copied for the first time: a copy of a copy has the rate
of the copy, for every positive float. The change is at most `2^-51` of the rate. -/
theorem c204_once (sr : Rat) (h0 : 0 < sr) (h : f64 sr = sr) :
    rateF (deltaF (rateF (deltaF sr))) = rateF (deltaF sr) ∧ |rateF (deltaF sr) - sr| ≤ sr / 2 ^ 51 := by
  refine ⟨?_, ?_⟩
  · rcases float_cases sr h0 h with ⟨k, rfl⟩ | ⟨M, k, h1, h2, rfl⟩
    · simp only [rate_pow2]
    · obtain ⟨n1, n2⟩ := recip_range M h1 h2
      obtain ⟨p1, p2⟩ := recip_range _ n1 n2
      rw [rate_float M k h1 h2, rate_float _ k p1 p2]
      rcases recip_cycle M h1 h2 with hc | hc
      · rw [hc, hc]
      · rw [hc]
  · have := c195_interval sr h0
    norm_num at this ⊢
    linarith

example : (0 : Rat) < 49 ∧ f64 49 = 49 ∧ rateF (deltaF 49) ≠ 49 := by decide +kernel

/-- **C204** Rates less than `√2` times a power of two (1, 2.5, 5, 10, 20, 40, 80 Hz, ...) are not changed at all. -/
theorem c204_kept (sr : Rat) (h0 : 0 < sr) (h : f64 sr = sr) (j : Int) (h1 : (2 : Rat) ^ j ≤ sr)
    (h2 : sr * sr < 2 * ((2 : Rat) ^ j * (2 : Rat) ^ j)) : rateF (deltaF sr) = sr := by
  rcases float_cases sr h0 h with ⟨k, rfl⟩ | ⟨M, k, m1, m2, rfl⟩
  · exact rate_pow2 k
  · rw [← pow2_eq] at h1 h2
    have hk := pow2_pos k
    have hj := pow2_pos j
    have m1' : ((2 : Rat) ^ 52) < M := by exact_mod_cast m1
    have m2' : (M : Rat) < 2 ^ 53 := by exact_mod_cast m2
    have hjk : j ≤ k + 52 := by
      have : pow2 j < pow2 (k + 52 + 1) := by
        refine lt_of_le_of_lt h1 ?_
        rw [show k + 52 + 1 = 53 + k by ring, pow2_add, pow2_eq 53]
        exact mul_lt_mul_of_pos_right (by norm_num at m2' ⊢; exact m2') hk
      have := lt_of_pow2_lt this
      omega
    have hsq : (M : Rat) * M < 2 ^ 105 := by
      have hjp : pow2 j ≤ 2 ^ 52 * pow2 k := by
        have := pow2_le hjk
        rw [show k + 52 = 52 + k by ring, pow2_add, pow2_eq 52] at this
        norm_num at this ⊢
        exact this
      have h3 : pow2 j * pow2 j ≤ (2 ^ 52 * pow2 k) * (2 ^ 52 * pow2 k) := mul_le_mul hjp hjp hj.le (by positivity)
      have h4 : (M * M : Rat) * (pow2 k * pow2 k) < 2 ^ 105 * (pow2 k * pow2 k) := by
        calc (M * M : Rat) * (pow2 k * pow2 k) = M * pow2 k * (M * pow2 k) := by ring
          _ < 2 * (pow2 j * pow2 j) := h2
          _ ≤ 2 * ((2 ^ 52 * pow2 k) * (2 ^ 52 * pow2 k)) := by linarith
          _ = 2 ^ 105 * (pow2 k * pow2 k) := by ring
      exact lt_of_mul_lt_mul_right h4 (by positivity)
    have hsq' : M * M < 2 ^ 105 := by exact_mod_cast hsq
    have hMs : M ≤ 6369051672525772 := by
      by_contra hc
      have : 6369051672525773 * 6369051672525773 ≤ M * M := by nlinarith
      omega
    rw [rate_float M k m1 m2]
    have hN := recip_near M (by omega)
    obtain ⟨n1, n2⟩ := recip_range M m1 m2
    have hlt : M < recip M := by
      generalize recip M = N at *
      obtain ⟨c, d⟩ := abs_le.1 (show |N * M - 2 ^ 105| ≤ M / 2 by omega)
      by_contra hc
      have a1 : N * M ≤ M * M := mul_le_mul_of_nonneg_right (by omega) (by omega)
      have a2 : M * M ≤ 6369051672525772 * M := mul_le_mul_of_nonneg_right hMs (by omega)
      omega
    rw [recip_unique (recip M) M (by omega) (by rw [mul_comm M]; omega)]

example : (0 : Rat) < 40 ∧ f64 40 = 40 ∧ (2 : Rat) ^ (5 : Int) ≤ 40 ∧ (40 : Rat) * 40 < 2 * ((2 : Rat) ^ (5 : Int) * (2 : Rat) ^ (5 : Int)) := by
  refine ⟨by norm_num, by decide +kernel, by norm_num, by norm_num⟩

theorem combineRate_eq (sr lag : Rat) (n : Nat) :
    combineRate sr (deltaF sr) lag n = RateHdr.refresh ⟨rateF (deltaF sr), 0, lag, 0, n⟩ := rfl

theorem refresh_copy (r lag : Rat) (n : Nat) (d e : Rat) (hr : rateF (deltaF r) = r) :
    (RateHdr.refresh ⟨r, d, lag, e, n⟩).copy = RateHdr.refresh ⟨r, d, lag, e, n⟩ := by
  show RateHdr.refresh ⟨rateF (deltaF r), _, lag, _, n⟩ = _
  rw [hr]
  rfl

theorem refresh_store (r lag : Rat) (n : Nat) (d e : Rat) :
    (RateHdr.refresh ⟨r, d, lag, e, n⟩).store = RateHdr.refresh ⟨r, d, lag, e, n⟩ := rfl

/-- **C204** The header of a correlation of two traces with the same sampling rate is the same after it was copied, and
written and read, any number of times in any order. Its rate is the one of the traces up to `2^-51` of it. -/
theorem c204_history (sr lag : Rat) (n : Nat) (h0 : 0 < sr) (h : f64 sr = sr) (steps : List Handling) :
    handled (combineRate sr (deltaF sr) lag n) steps = combineRate sr (deltaF sr) lag n ∧
    |(combineRate sr (deltaF sr) lag n).rate - sr| ≤ sr / 2 ^ 51 ∧
    (combineRate sr (deltaF sr) lag n).startLag = lag ∧ (combineRate sr (deltaF sr) lag n).npts = n := by
  refine ⟨?_, (c204_once sr h0 h).2, rfl, rfl⟩
  unfold handled
  rw [combineRate_eq]
  induction steps with
  | nil => rfl
  | cons s steps ih =>
    rw [List.foldl_cons]
    cases s with
    | copied =>
      rw [show Handling.apply _ Handling.copied = RateHdr.copy _ from rfl, refresh_copy _ _ _ _ _ (c204_once sr h0 h).1]
      exact ih
    | stored =>
      rw [show Handling.apply _ Handling.stored = RateHdr.store _ from rfl, refresh_store]
      exact ih

/-- **C204** (last lag) The last lag in the header of a correlation of two traces with the same sampling rate, after any history, is the first lag plus
the number of samples less one, times the sampling interval of the header, up to rounding; the interval is one over the rate of the header, rounded. -/
theorem c204_end (sr lag : Rat) (n : Nat) (h0 : 0 < sr) (h : f64 sr = sr) (hn : 0 < n) (steps : List Handling) :
    let hd := handled (combineRate sr (deltaF sr) lag n) steps
    |hd.endLag - (lag + ((n : Rat) - 1) * hd.delta)| ≤ (|lag| + 3 * (((n : Rat) - 1) * |hd.delta|)) / 2 ^ 53 ∧
      |hd.delta - 1 / hd.rate| ≤ |1 / hd.rate| / 2 ^ 53 := by
  simp only [(c204_history sr lag n h0 h steps).1]
  rw [combineRate_eq]
  have e53 : pow2 (-53) = 1 / 2 ^ 53 := by rw [pow2_neg53]; norm_num
  constructor
  · unfold RateHdr.refresh
    simp only
    rw [if_neg (by omega)]
    generalize deltaF (rateF (deltaF sr)) = d
    have hn' : (0 : Rat) ≤ (n : Rat) - 1 := by
      have : (1 : Rat) ≤ n := by exact_mod_cast hn
      linarith
    have a1 := f64_err (((n : Rat) - 1) * d)
    have a2 := f64_err (lag + f64 (((n : Rat) - 1) * d))
    rw [e53] at a1 a2
    have a3 : |((n : Rat) - 1) * d| = ((n : Rat) - 1) * |d| := by rw [abs_mul, abs_of_nonneg hn']
    rw [a3] at a1
    generalize hX : ((n : Rat) - 1) * d = X at *
    generalize hY : ((n : Rat) - 1) * |d| = Y at *
    have hY0 : 0 ≤ Y := by rw [← a3]; exact abs_nonneg _
    have b1 : |lag + f64 X| ≤ |lag| + |f64 X| := abs_add_le _ _
    have b2 : |f64 X| ≤ |f64 X - X| + |X| := by
      have := abs_add_le (f64 X - X) X
      simpa using this
    have b3 : |f64 (lag + f64 X) - (lag + X)| ≤ |f64 (lag + f64 X) - (lag + f64 X)| + |f64 X - X| := by
      have := abs_add_le (f64 (lag + f64 X) - (lag + f64 X)) (f64 X - X)
      refine le_trans (le_of_eq ?_) this
      congr 1
      ring
    rw [a3] at b2
    have c1 : |lag + f64 X| * (1 / 2 ^ 53) ≤ (|lag| + 2 * Y) * (1 / 2 ^ 53) := by
      refine mul_le_mul_of_nonneg_right ?_ (by norm_num)
      have : Y * (1 / 2 ^ 53) ≤ Y * 1 := mul_le_mul_of_nonneg_left (by norm_num) hY0
      linarith
    calc _ ≤ _ := b3
      _ ≤ (|lag| + 2 * Y) * (1 / 2 ^ 53) + Y * (1 / 2 ^ 53) := by linarith
      _ = _ := by ring
  · show |deltaF (rateF (deltaF sr)) - 1 / rateF (deltaF sr)| ≤ |1 / rateF (deltaF sr)| / 2 ^ 53
    generalize rateF (deltaF sr) = r
    unfold deltaF
    by_cases hr : r = 0
    · rw [if_pos hr, hr]
      norm_num
    · rw [if_neg hr]
      have := f64_err (1 / r)
      rw [e53] at this
      refine le_trans this (le_of_eq ?_)
      ring

/-- 981 samples at 49 Hz from -10 s -/
example : (handled (combineRate 49 (deltaF 49) (-10) 981) [.stored, .copied]).endLag = 10 := by decide +kernel

/-- **C204** (part) Correlations of traces with the same sampling rate, with the same lags and numbers of samples, can be put
into one matrix, whatever happened to the header of each of them. Missing: headers in which a rate was set and that were not
copied since (`c204_set_violated`). -/
theorem c204_bulk_partial (sr lag : Rat) (n : Nat) (h0 : 0 < sr) (h : f64 sr = sr) (histories : List (List Handling)) :
    bulkRates (histories.map fun steps => handled (combineRate sr (deltaF sr) lag n) steps) = true := by
  have he : (histories.map fun steps => handled (combineRate sr (deltaF sr) lag n) steps) =
      histories.map fun _ => combineRate sr (deltaF sr) lag n :=
    List.map_congr_left fun steps _ => (c204_history sr lag n h0 h steps).1
  rw [he]
  cases histories with
  | nil => rfl
  | cons s hs =>
    unfold bulkRates
    simp only [List.map_cons]
    rw [List.all_eq_true]
    intro g hg
    have hg : g = combineRate sr (deltaF sr) lag n := by
      rcases List.mem_cons.1 hg with rfl | hm
      · rfl
      · obtain ⟨_, _, rfl⟩ := List.mem_map.1 hm; rfl
    have hc := (c204_history sr lag n h0 h [.copied]).1
    have hc : (combineRate sr (deltaF sr) lag n).copy = combineRate sr (deltaF sr) lag n := hc
    subst hg
    rw [hc]
    simp

example : (combineRate 49 (deltaF 49) (-10) 981).rate ≠ 49 ∧
    bulkRates [combineRate 49 (deltaF 49) (-10) 981, handled (combineRate 49 (deltaF 49) (-10) 981) [.stored, .copied]] = true := by
  decide +kernel

/-- **C204** is violated: a correlation whose rate was set to 49 Hz (by an assignment to its header, or by the resampling of
obspy) is not equal to itself: a matrix of this single correlation is refused because of different sampling rates. The same
correlation is accepted after it was copied. -/
theorem c204_set_violated :
    let h := (combineRate 98 (deltaF 98) (-10) 981).setRate 49
    bulkRates [h] = false ∧ bulkRates [h.copy] = true := by
  decide +kernel

end SeisMIC
