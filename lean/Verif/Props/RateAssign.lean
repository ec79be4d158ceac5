import Verif.Props.RateCopy

/-!
# C204: the fields of a header after any assignment, despite rounding
-/

namespace SeisMIC

/-- an assignment to one of the fields of a header that can be set -/
inductive RateAssign
  | rate (r : Rat)
  | delta (d : Rat)
  | startLag (l : Rat)
  | npts (n : Nat)

/-- the header after an assignment -/
def RateAssign.apply (h : RateHdr) : RateAssign → RateHdr
  | .rate r => h.setRate r
  | .delta d => h.setDelta d
  | .startLag l => h.setStartLag l
  | .npts n => h.setNpts n

/-- The interval is one over the rate and the last lag is that of the last sample, up to the rounding of one and three operations. -/
def RateHdr.Consistent (h : RateHdr) : Prop :=
  |h.delta - 1 / h.rate| ≤ |1 / h.rate| / 2 ^ 53 ∧
    (0 < h.npts → |h.endLag - (h.startLag + ((h.npts : Rat) - 1) * h.delta)| ≤ (|h.startLag| + 3 * (((h.npts : Rat) - 1) * |h.delta|)) / 2 ^ 53)

theorem refresh_consistent (h : RateHdr) : h.refresh.Consistent := by
  have e53 : pow2 (-53) = 1 / 2 ^ 53 := by rw [pow2_neg53]; norm_num
  constructor
  · show |deltaF h.rate - 1 / h.rate| ≤ |1 / h.rate| / 2 ^ 53
    generalize h.rate = r
    unfold deltaF
    by_cases hr : r = 0
    · rw [if_pos hr, hr]
      norm_num
    · rw [if_neg hr]
      have := f64_err (1 / r)
      rw [e53] at this
      refine le_trans this (le_of_eq ?_)
      ring
  · intro hn
    have hn : 0 < h.npts := hn
    unfold RateHdr.refresh
    simp only
    rw [if_neg (by omega)]
    generalize deltaF h.rate = d
    generalize h.startLag = lag
    generalize h.npts = n at *
    have hn' : (0 : Rat) ≤ (n : Rat) - 1 := by
      have : (1 : Rat) ≤ n := by exact_mod_cast hn
      linarith
    have a1 := f64_err (((n : Rat) - 1) * d)
    have a2 := f64_err (lag + f64 (((n : Rat) - 1) * d))
    rw [e53] at a1 a2
    have a3 : |((n : Rat) - 1) * d| = ((n : Rat) - 1) * |d| := by rw [abs_mul, abs_of_nonneg hn']
    rw [a3] at a1
    generalize hX : ((n : Rat) - 1) * d = X at *
    generalize hY : ((n : Rat) - 1) * |d| = Y at *
    have hY0 : 0 ≤ Y := by rw [← a3]; exact abs_nonneg _
    have b1 : |lag + f64 X| ≤ |lag| + |f64 X| := abs_add_le _ _
    have b2 : |f64 X| ≤ |f64 X - X| + |X| := by
      have := abs_add_le (f64 X - X) X
      simpa using this
    have b3 : |f64 (lag + f64 X) - (lag + X)| ≤ |f64 (lag + f64 X) - (lag + f64 X)| + |f64 X - X| := by
      have := abs_add_le (f64 (lag + f64 X) - (lag + f64 X)) (f64 X - X)
      refine le_trans (le_of_eq ?_) this
      congr 1
      ring
    rw [a3] at b2
    have c1 : |lag + f64 X| * (1 / 2 ^ 53) ≤ (|lag| + 2 * Y) * (1 / 2 ^ 53) := by
      refine mul_le_mul_of_nonneg_right ?_ (by norm_num)
      have : Y * (1 / 2 ^ 53) ≤ Y * 1 := mul_le_mul_of_nonneg_left (by norm_num) hY0
      linarith
    calc _ ≤ _ := b3
      _ ≤ (|lag| + 2 * Y) * (1 / 2 ^ 53) + Y * (1 / 2 ^ 53) := by linarith
      _ = _ := by ring

/-- **C204** (assignments) After any assignment to any header, the sampling interval and the last lag belong to the rate, the first lag and the number of
samples. The assigned field has the assigned value (an assigned interval becomes a rate, up to rounding), and the other fields are kept. -/
theorem c204_assign (h : RateHdr) (a : RateAssign) : (a.apply h).Consistent ∧
    match a with
    | .rate r => (a.apply h).rate = r ∧ (a.apply h).startLag = h.startLag ∧ (a.apply h).npts = h.npts
    | .delta d => |(a.apply h).rate - 1 / d| ≤ |1 / d| / 2 ^ 53 ∧ (a.apply h).startLag = h.startLag ∧ (a.apply h).npts = h.npts
    | .startLag l => (a.apply h).startLag = l ∧ (a.apply h).rate = h.rate ∧ (a.apply h).npts = h.npts
    | .npts n => (a.apply h).npts = n ∧ (a.apply h).rate = h.rate ∧ (a.apply h).startLag = h.startLag := by
  cases a with
  | rate r => exact ⟨refresh_consistent _, rfl, rfl, rfl⟩
  | delta d =>
    refine ⟨refresh_consistent _, ?_, rfl, rfl⟩
    show |rateF d - 1 / d| ≤ |1 / d| / 2 ^ 53
    unfold rateF
    by_cases hd : d = 0
    · rw [if_pos hd, hd]
      norm_num
    · rw [if_neg hd]
      have := f64_err (1 / d)
      rw [show pow2 (-53) = 1 / 2 ^ 53 by rw [pow2_neg53]; norm_num] at this
      refine le_trans this (le_of_eq ?_)
      ring
  | startLag l => exact ⟨refresh_consistent _, rfl, rfl, rfl⟩
  | npts n => exact ⟨refresh_consistent _, rfl, rfl, rfl⟩

/-- 11 samples from -5 s: with 2 Hz instead of 1 Hz, the last lag is 0 s instead of 5 s -/
example : (RateAssign.rate 2).apply ⟨1, 1, -5, 5, 11⟩ = ⟨2, 1 / 2, -5, 0, 11⟩ := by decide +kernel

end SeisMIC
