import Verif.Model.FloatResample
import Verif.Props.FloatTimes
import Verif.Props.FloatSamples
import Verif.Props.PostCorr2

/-!
# C197, continued: resampling the lag axis despite the rounding of durations
-/

namespace SeisMIC

/-- the rounded product of duration and rate -/
theorem newLength_err (npts sr freq : Nat) (hsr : 0 < sr) (hb : npts * freq + sr < 2 ^ 50) :
    |f64 (f64 ((npts : Rat) / sr) * freq) - (npts : Rat) * freq / sr| < 1 / sr := by
  have hsr' : (0 : Rat) < sr := by exact_mod_cast hsr
  set x := (npts : Rat) / sr with hx
  have hx0 : 0 ≤ x := by positivity
  have hf0 : (0 : Rat) ≤ freq := by positivity
  have e1 := f64_err x
  have e2 := f64_err (f64 x * freq)
  have hy : (npts : Rat) * freq / sr = x * freq := by rw [hx]; ring
  have hfx : 0 ≤ f64 x := by
    have := f64_mono hx0
    rwa [f64_zero] at this
  rw [abs_of_nonneg hx0, pow2_neg53] at e1
  rw [abs_of_nonneg (mul_nonneg hfx hf0), pow2_neg53] at e2
  obtain ⟨a1, a2⟩ := abs_le.1 e1
  have b1 : -(x * freq * (1 / 9007199254740992)) ≤ f64 x * freq - x * freq := by
    have := mul_le_mul_of_nonneg_right a1 hf0
    linarith
  have b2 : f64 x * freq - x * freq ≤ x * freq * (1 / 9007199254740992) := by
    have := mul_le_mul_of_nonneg_right a2 hf0
    linarith
  obtain ⟨c1, c2⟩ := abs_le.1 e2
  have hxf : 0 ≤ x * freq := mul_nonneg hx0 hf0
  have hsmall : x * freq * (1 / 1125899906842624) < 1 / sr := by
    rw [← hy, div_mul_div_comm, mul_one, div_lt_div_iff₀ (by positivity) hsr']
    have : ((npts * freq : Nat) : Rat) < 1125899906842624 := by exact_mod_cast (by omega : npts * freq < 1125899906842624)
    push_cast at this
    nlinarith
  rw [hy, abs_lt]
  constructor <;> linarith

/-- **C197** (lengths, part) If both sampling rates are whole numbers (and the matrix is not extremely long), the numbers of samples with which the lag axis is resampled
are the exact ones, in particular those of C44, although durations are compared as floats: unless the duration is a whole number of new samples.
Missing: that case, see `c197_duration_partial` and `c197_lost_violated`, and other rates. -/
theorem c197_lengths_partial (fuel : Nat) (lag : Rat) (npts sr freq : Nat) (hf : 0 < freq) (hb : npts * freq + sr < 2 ^ 50) (hd : ¬ sr ∣ npts * freq) :
    resampleTimePlanF fuel ⟨lag, npts, sr⟩ freq = resampleTimePlan fuel ⟨lag, npts, sr⟩ freq := by
  unfold resampleTimePlanF resampleTimePlan resampledF
  simp only
  by_cases hgt : (freq : Rat) > sr
  · rw [if_pos hgt, if_pos hgt]
  by_cases heq : (freq : Rat) = sr
  · rw [if_neg hgt, if_neg hgt, if_pos heq, if_pos heq]
  rw [if_neg hgt, if_neg hgt, if_neg heq, if_neg heq]
  have hle : freq < sr := by
    have h1 : (freq : Rat) ≤ sr := not_lt.1 hgt
    have h2 : freq ≤ sr := by exact_mod_cast h1
    have h3 : freq ≠ sr := fun h => heq (by rw [h])
    omega
  have hsr : 0 < sr := by omega
  have hsr' : (0 : Rat) < sr := by exact_mod_cast hsr
  have herr := abs_lt.1 (newLength_err npts sr freq hsr hb)
  have hq : npts * freq / sr * sr + npts * freq % sr = npts * freq := Nat.div_add_mod' _ _
  have hm : 0 < npts * freq % sr := Nat.pos_of_ne_zero fun h => hd (Nat.dvd_of_mod_eq_zero h)
  have hm' : npts * freq % sr < sr := Nat.mod_lt _ hsr
  set N := npts * freq / sr with hN
  set r := npts * freq % sr with hr
  have hy : (npts : Rat) * freq / sr = N + (r : Rat) / sr := by
    have : (npts : Rat) * freq = N * sr + r := by exact_mod_cast hq.symm
    rw [this]; field_simp
  have h1 : (1 : Rat) / sr ≤ r / sr := div_le_div_of_nonneg_right (by exact_mod_cast hm) hsr'.le
  have h2 : (r : Rat) / sr ≤ 1 - 1 / sr := by
    rw [le_sub_iff_add_le, ← add_div, div_le_one hsr']
    exact_mod_cast hm'
  have hfl : ∀ q : Rat, q.floor = ⌊q⌋ := fun q => rfl
  have f1 : (f64 (f64 ((npts : Rat) / sr) * freq)).floor = N := by
    rw [hfl, Int.floor_eq_iff]
    push_cast
    constructor <;> linarith
  have f2 : ((npts : Rat) / sr * freq).floor = N := by
    rw [hfl, Int.floor_eq_iff, div_mul_eq_mul_div, hy]
    push_cast
    have : 0 < (1 : Rat) / sr := by positivity
    constructor <;> linarith
  rw [f1, f2, Int.toNat_natCast, c197_search npts N sr freq fuel hsr hf (by omega) (by nlinarith)]
  cases search npts N sr freq fuel <;> rfl

/-- **C197** (whole duration, part) If the duration is a whole number of new samples, at least two, the matrix is padded and resampled correctly, but one of the new samples
may be cut off. Missing: that all are kept, see `c197_lost_violated`. -/
theorem c197_duration_partial (fuel : Nat) (h2 : 2 ≤ fuel) (lag : Rat) (npts sr freq N : Nat) (hf : 0 < freq) (hfs : freq < sr) (hb : npts * freq + sr < 2 ^ 50)
    (hd : npts * freq = N * sr) (hN : 2 ≤ N) :
    resampleTimePlan fuel ⟨lag, npts, sr⟩ freq = some (.ok (some (npts, 2 * N, N))) ∧
    ∃ m, (m = N ∨ m + 1 = N) ∧ resampleTimePlanF fuel ⟨lag, npts, sr⟩ freq = some (.ok (some (npts, 2 * N, m))) := by
  have hsr : 0 < sr := by omega
  have hsr' : (0 : Rat) < sr := by exact_mod_cast hsr
  have hf' : (0 : Rat) < freq := by exact_mod_cast hf
  have hgt : ¬ (freq : Rat) > sr := not_lt.2 (by exact_mod_cast hfs.le)
  have hne : ¬ (freq : Rat) = sr := by
    intro h
    have : freq = sr := by exact_mod_cast h
    omega
  have hdR : (npts : Rat) * freq = N * sr := by exact_mod_cast hd
  have hy : (npts : Rat) * freq / sr = N := by rw [hdR]; field_simp
  have heq : (N : Rat) / freq = (npts : Rat) / sr := by
    rw [div_eq_div_iff hf'.ne' hsr'.ne']; linarith
  have hfl : ∀ q : Rat, q.floor = ⌊q⌋ := fun q => rfl
  obtain ⟨k, rfl⟩ : ∃ k, fuel = k + 2 := ⟨fuel - 2, by omega⟩
  have doneE : ∀ (num : Nat) (n1 n2 : Nat) (j : Nat), searchF npts num sr freq j = .done n1 n2 → ∀ i, searchF npts num sr freq (j + i) = .done n1 n2 := by
    intro num n1 n2 j h i
    induction i with
    | zero => exact h
    | succ i ih => change searchStepF npts num sr freq (searchF npts num sr freq (j + i)) = _; rw [ih]; rfl
  have doneX : ∀ (num : Nat) (n1 n2 : Nat) (j : Nat), search npts num sr freq j = .done n1 n2 → ∀ i, search npts num sr freq (j + i) = .done n1 n2 := by
    intro num n1 n2 j h i
    induction i with
    | zero => exact h
    | succ i ih => change searchStep npts num sr freq (search npts num sr freq (j + i)) = _; rw [ih]; rfl
  constructor
  · unfold resampleTimePlan
    simp only
    rw [if_neg hgt, if_neg hne, div_mul_eq_mul_div, hy]
    have : ((N : Rat)).floor.toNat = N := by
      rw [show (N : Rat) = ((N : Int) : Rat) by push_cast; rfl, Rat.floor_intCast, Int.toNat_natCast]
    rw [this, show k + 2 = 1 + (k + 1) by omega, doneX N 0 0 1 (by
      change searchStep npts N sr freq (.run 0 0) = _
      simp [searchStep, heq])]
    simp
  · have herr := abs_lt.1 (newLength_err npts sr freq hsr hb)
    rw [hy] at herr
    have h1 : (1 : Rat) / sr ≤ 1 := by
      rw [div_le_one hsr']; exact_mod_cast hsr
    set v := f64 (f64 ((npts : Rat) / sr) * freq) with hv
    unfold resampleTimePlanF resampledF
    simp only
    rw [if_neg hgt, if_neg hne, ← hv]
    rcases le_or_gt (N : Rat) v with hge | hlt
    · have f1 : v.floor = N := by
        rw [hfl, Int.floor_eq_iff]; push_cast; constructor <;> linarith
      refine ⟨N, .inl rfl, ?_⟩
      rw [f1, Int.toNat_natCast, show k + 2 = 1 + (k + 1) by omega, doneE N 0 0 1 (by
        change searchStepF npts N sr freq (.run 0 0) = _
        simp [searchStepF, heq])]
      simp
    · obtain ⟨m, rfl⟩ : ∃ m, N = m + 1 := ⟨N - 1, by omega⟩
      have f1 : v.floor = m := by
        rw [hfl, Int.floor_eq_iff]
        push_cast at *
        constructor <;> linarith
      refine ⟨m, .inr rfl, ?_⟩
      have hltm : ((m : Nat) : Rat) / freq < (npts : Rat) / sr := by
        rw [← heq]
        apply div_lt_div_of_pos_right _ hf'
        push_cast
        linarith
      have hms : m * sr < 2 ^ 52 := by
        have : (m + 1) * sr = m * sr + sr := by ring
        omega
      have hF := f64_div_lt m npts freq sr hf hsr hms (by omega) hltm
      have s1 : searchF npts m sr freq 1 = .run 1 0 := by
        change searchStepF npts m sr freq (.run 0 0) = _
        simp only [searchStepF, Nat.cast_zero, add_zero]
        rw [if_neg hF.ne, if_pos hF]
        simp only
        rw [if_neg (by omega)]
      have s2 : searchF npts m sr freq 2 = .done 1 0 := by
        change searchStepF npts m sr freq (searchF npts m sr freq 1) = _
        rw [s1]
        push_cast at heq
        simp only [searchStepF, Nat.cast_zero, add_zero, Nat.cast_one]
        rw [heq, if_pos rfl]
      rw [f1, Int.toNat_natCast, show k + 2 = 2 + k by omega, doneE m 1 0 2 s2]
      simp

/-- **C197** (violated: a sample is lost) From 20 Hz to 15 Hz, 164 samples (8.2 s) are 123 new samples, but 122 are kept: the last one of the time axis is lost. -/
theorem c197_lost_violated :
    resampleTimePlan 5 ⟨0, 164, 20⟩ 15 = some (.ok (some (164, 246, 123))) ∧ resampleTimePlanF 5 ⟨0, 164, 20⟩ 15 = some (.ok (some (164, 246, 122))) := by
  decide +kernel

/-- 1001 samples from 25 Hz to 10 Hz -/
example : (0 : Nat) < 10 ∧ 1001 * 10 + 25 < 2 ^ 50 ∧ ¬ 25 ∣ 1001 * 10 ∧ resampleTimePlan 10 ⟨-20, 1001, 25⟩ 10 = some (.ok (some (1009, 804, 400))) := by
  decide +kernel

end SeisMIC
