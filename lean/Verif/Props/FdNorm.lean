import Mathlib.Tactic.Linarith
import Mathlib.Tactic.FieldSimp
import Mathlib.Tactic.Ring
import Mathlib.Tactic.NormNum
import Mathlib.Tactic.Positivity
import Mathlib.Tactic.IntervalCases
import Mathlib.Data.List.GetD
import Verif.Model.FdNorm
import Verif.Props.Xcorr
import Verif.Lemmas.ListAux

/-!
# C125, C126: sign bit normalisation and filter in the frequency domain
-/

namespace SeisMIC

noncomputable section

open Xcorr

/-! ### C125 -/

/-- a unit impulse -/
def impulse (n : Nat) : List ℝ := (List.range n).map fun j => if j = 0 then 1 else 0

theorem getD_impulse (n j : Nat) (h : 0 < n) : (impulse n).getD j 0 = if j = 0 then 1 else 0 := by
  unfold impulse
  by_cases hj : j < n
  · rw [List.getD_eq_getElem _ _ (by simpa using hj)]; simp
  · rw [List.getD_eq_default _ _ (by simpa using hj), if_neg (by omega)]

theorem rfft_impulse (n : Nat) (h : 0 < n) : rfft (impulse n) = List.replicate (n / 2 + 1) 1 := by
  have hl : (impulse n).length = n := by simp [impulse]
  apply List.ext_getElem
  · simp [rfft, hl]
  · intro k h1 h2
    simp only [rfft, List.getElem_map, List.getElem_range, List.getElem_replicate, dft, hl]
    rw [Finset.sum_eq_single 0]
    · rw [getD_impulse n 0 h]; simp
    · intro j _ hj
      rw [getD_impulse n j h, if_neg hj]; simp
    · intro h0; simp at h0; omega

theorem irfft_rfft (x : List ℝ) (m : Nat) (hm : 0 < m) (hx : x.length = 2 * m) : irfft (rfft x) = .ok x := by
  have hl : (impulse (2 * m)).length = 2 * m := by simp [impulse]
  have h := irfft_cross 1 0 (impulse (2 * m)) x (by rw [hl, hx]) m hm hl 0 (by norm_num)
  have hc : crossSpectrum (rfftfreq (impulse (2 * m)).length 1) 0 (rfft (impulse (2 * m))) (rfft x) = rfft x := by
    rw [rfft_impulse _ (by omega), hl]
    unfold crossSpectrum
    have hl1 : (List.replicate (2 * m / 2 + 1) (1 : ℂ)).length = (rfft x).length := by simp [rfft, hx]
    have hl2 : (List.replicate (2 * m / 2 + 1) (1 : ℂ)).length = (rfftfreq (2 * m) 1).length := by simp [rfftfreq]
    apply List.ext_getElem
    · rw [zipWith3_length _ _ _ _ hl1 hl2, hl1]
    · intro k h1 h2
      have hk : k < (List.replicate (2 * m / 2 + 1) (1 : ℂ)).length := by rw [hl1]; exact h2
      rw [← List.getD_eq_getElem _ 0 h1, zipWith3_getD _ _ _ _ _ hk h2 (by rw [← hl2]; exact hk), List.getD_eq_getElem _ _ hk,
        List.getD_eq_getElem _ _ h2, List.getElem_replicate]
      simp
  rw [hc, hl] at h
  rw [h]
  congr 1
  apply List.ext_getElem
  · simp [hx]
  · intro k h1 h2
    simp only [List.getElem_map, List.getElem_range, circCorr, hl]
    rw [Finset.sum_eq_single 0]
    · rw [getD_impulse _ 0 (by omega), if_pos rfl, one_mul]
      have : (((0 : Nat) : Int) + ((k : Int) + 0)) % x.length = k := by
        rw [Int.emod_eq_of_lt] <;> omega
      rw [this, Int.toNat_natCast, List.getD_eq_getElem _ _ h2]
    · intro j _ hj
      rw [getD_impulse _ j (by omega), if_neg hj, zero_mul]
    · intro h0; simp at h0; omega

/-- C125: for traces with an even number of samples the result are the spectra of the signs of the samples.
Missing: traces with an odd number of samples (`c125_odd_violated`). -/
theorem c125_signs_partial (m : Nat) (hm : 0 < m) (A : List (List ℝ)) (hA : ∀ x ∈ A, x.length = 2 * m) :
    fdSignBit (A.map rfft) = .ok (A.map fun x => rfft (x.map Real.sign)) := by
  unfold fdSignBit
  induction A with
  | nil => rfl
  | cons x A ih =>
    rw [List.map_cons, List.mapM_cons, ih fun y hy => hA y (by simp [hy]), irfft_rfft x m hm (hA x (by simp))]
    rfl

/-- C125: for traces with an even number of samples the amplitude has no effect, and a second application neither.
Missing for the full property: `c125_odd_violated`. -/
theorem c125_again_partial (m : Nat) (hm : 0 < m) (A : List (List ℝ)) (hA : ∀ x ∈ A, x.length = 2 * m) (c : List ℝ → ℝ) (hc : ∀ x, 0 < c x) :
    fdSignBit (A.map fun x => rfft (x.map (c x * ·))) = fdSignBit (A.map rfft) ∧
    (fdSignBit (A.map rfft) >>= fdSignBit) = fdSignBit (A.map rfft) := by
  have e : (A.map fun x => rfft (x.map (c x * ·))) = (A.map fun x => x.map (c x * ·)).map rfft := by rw [List.map_map]; rfl
  have e' : (A.map fun x => rfft (x.map Real.sign)) = (A.map fun x => x.map Real.sign).map rfft := by rw [List.map_map]; rfl
  constructor
  · rw [e, c125_signs_partial m hm A hA, c125_signs_partial m hm _ (by simpa using hA), List.map_map]
    congr 1
    refine List.map_congr_left fun x _ => ?_
    simp only [Function.comp, List.map_map]
    congr 1
    refine List.map_congr_left fun y _ => ?_
    have := hc x
    simp only [Function.comp]
    rcases lt_trichotomy y 0 with h | h | h
    · rw [Real.sign_of_neg h, Real.sign_of_neg (mul_neg_of_pos_of_neg this h)]
    · rw [h, mul_zero]
    · rw [Real.sign_of_pos h, Real.sign_of_pos (mul_pos this h)]
  · rw [c125_signs_partial m hm A hA]
    simp only [bind, Except.bind]
    rw [e', c125_signs_partial m hm _ (by simpa using hA), List.map_map, List.map_map]
    congr 1
    refine List.map_congr_left fun x _ => ?_
    simp only [Function.comp, List.map_map]
    congr 1
    refine List.map_congr_left fun y _ => ?_
    rcases lt_trichotomy y 0 with h | h | h
    · simp [Real.sign_of_neg h, Real.sign_of_neg (show (-1 : ℝ) < 0 by norm_num)]
    · simp [h, Real.sign_zero]
    · simp [Real.sign_of_pos h, Real.sign_of_pos one_pos]

/-- C125: traces of a single sample are refused -/
theorem c125_single (x : ℝ) : fdSignBit [rfft [x]] = .error .valueError := by
  simp [fdSignBit, irfft, rfft, bind, Except.bind]

/-- C125 is violated: the inverse transform has an even number of samples. The three samples 1, 1, 1 are their own signs, but their spectrum is
changed: its first coefficient, their sum, becomes 2. -/
theorem c125_odd_violated : ∃ x : List ℝ, x.map Real.sign = x ∧ ∃ B, fdSignBit [rfft x] = .ok [B] ∧ B.getD 0 0 = 2 ∧ (rfft x).getD 0 0 = 3 := by
  have h3 : (rfft [1, 1, 1]).getD 0 0 = 3 := by
    simp [rfft, dft, Finset.sum_range_succ, List.range_succ]; norm_num
  have hl : (rfft [1, 1, 1]).length = 2 := by simp [rfft]
  have h1 : (rfft [1, 1, 1]).getD 1 0 = 0 := by
    have ho := orth 3 (by norm_num) (-1)
    rw [if_neg (by decide)] at ho
    have : (rfft [1, 1, 1]).getD 1 0 = dft [1, 1, 1] 1 := by simp [rfft, List.range_succ]
    rw [this, dft_eq, ← ho]
    refine Finset.sum_congr rfl fun j hj => ?_
    have hj' : j < 3 := Finset.mem_range.mp hj
    have hg : ([1, 1, 1] : List ℝ).getD j 0 = 1 := by
      rcases (by omega : j = 0 ∨ j = 1 ∨ j = 2) with rfl | rfl | rfl <;> rfl
    rw [hg]
    simp only [Complex.ofReal_one, one_mul]
    congr 1
    push_cast
    simp
    ring
  refine ⟨[1, 1, 1], by simp [Real.sign_of_pos], rfft [1, 1], ?_, ?_, h3⟩
  · have hi : irfft (rfft [1, 1, 1]) = .ok [3 / 2, 3 / 2] := by
      unfold irfft
      simp only [hl, h3, h1]
      simp [List.range_succ]
    simp [fdSignBit, hi, bind, Except.bind, pure, Except.pure, Real.sign_of_pos]
  · simp [rfft, dft, Finset.sum_range_succ, List.range_succ]; norm_num

/-- the hypotheses of C125 can be met -/
example : fdSignBit [rfft [3, -1, 0, 2]] = .ok [rfft [1, -1, 0, 1]] := by
  have := c125_signs_partial 2 (by norm_num) [[3, -1, 0, 2]] (by simp)
  simpa [Real.sign_of_pos, Real.sign_of_neg] using this

/-! ### C126 -/

theorem nearestIdx_spec (freqs : List Rat) (f : Rat) (h : freqs ≠ []) :
    ∃ hi : nearestIdx freqs f < freqs.length, ∀ y ∈ freqs, |freqs[nearestIdx freqs f] - f| ≤ |y - f| := by
  have hex : ∃ x ∈ freqs, ∀ y ∈ freqs, |x - f| ≤ |y - f| := by
    clear * - h
    induction freqs with
    | nil => exact absurd rfl h
    | cons a l ih =>
      by_cases hl : l = []
      · subst hl; exact ⟨a, by simp, by simp⟩
      · obtain ⟨x, hx, hm⟩ := ih hl
        rcases le_total |a - f| |x - f| with hle | hle
        · exact ⟨a, by simp, fun y hy => by
            rcases List.mem_cons.mp hy with rfl | hy
            exacts [le_rfl, hle.trans (hm y hy)]⟩
        · exact ⟨x, by simp [hx], fun y hy => by
            rcases List.mem_cons.mp hy with rfl | hy
            exacts [hle, hm y hy]⟩
  obtain ⟨x, hx, hm⟩ := hex
  have hi : nearestIdx freqs f < freqs.length := List.findIdx_lt_length_of_exists ⟨x, hx, by simpa using hm⟩
  refine ⟨hi, ?_⟩
  have := List.findIdx_getElem (p := fun x => freqs.all fun y => decide (|x - f| ≤ |y - f|)) (w := hi)
  simp only [List.all_eq_true, decide_eq_true_eq] at this
  exact this

/-- frequencies in increasing order -/
def Increasing (freqs : List Rat) : Prop := ∀ i j (_ : i < j) (hj : j < freqs.length), freqs[i] < freqs[j]

theorem nearestIdx_ge {freqs : List Rat} (hinc : Increasing freqs) {f : Rat} {k : Nat} (hk : k < freqs.length) (h : freqs[k] ≤ f) :
    k ≤ nearestIdx freqs f := by
  obtain ⟨hi, hs⟩ := nearestIdx_spec freqs f (by rintro rfl; simp at hk)
  by_contra hc
  have h1 := hinc _ k (by omega : nearestIdx freqs f < k) hk
  have h2 := hs _ (List.getElem_mem hk)
  rw [abs_of_nonpos (by linarith), abs_of_nonpos (by linarith)] at h2
  linarith

theorem nearestIdx_le {freqs : List Rat} (hinc : Increasing freqs) {f : Rat} {k : Nat} (hk : k < freqs.length) (h : f ≤ freqs[k]) :
    nearestIdx freqs f ≤ k := by
  obtain ⟨hi, hs⟩ := nearestIdx_spec freqs f (by rintro rfl; simp at hk)
  by_contra hc
  have h1 := hinc k _ (by omega : k < nearestIdx freqs f) hi
  have h2 := hs _ (List.getElem_mem hk)
  rw [abs_of_nonneg (by linarith), abs_of_nonneg (by linarith)] at h2
  linarith

/-- `a` and `b` are two different frequencies from `lo` to `hi` -/
def TwoBetween (freqs : List Rat) (lo hi : Rat) : Prop := ∃ a ∈ freqs, ∃ b ∈ freqs, lo ≤ a ∧ a < b ∧ b ≤ hi

theorem nearestIdx_lt {freqs : List Rat} (hinc : Increasing freqs) {lo hi : Rat} (h : TwoBetween freqs lo hi) :
    nearestIdx freqs lo < nearestIdx freqs hi := by
  obtain ⟨a, ha, b, hb, h1, h2, h3⟩ := h
  obtain ⟨i, hi, rfl⟩ := List.mem_iff_getElem.mp ha
  obtain ⟨j, hj, rfl⟩ := List.mem_iff_getElem.mp hb
  have hij : i < j := by
    by_contra hc
    rcases Nat.lt_or_ge j i with h | h
    · have := hinc j i h hi; linarith
    · have : i = j := by omega
      subst this; linarith
  have := nearestIdx_le hinc hi h1
  have := nearestIdx_ge hinc hj h3
  omega

theorem nearestIdx_mono {freqs : List Rat} (hinc : Increasing freqs) {f f' : Rat} (h : f ≤ f') : nearestIdx freqs f ≤ nearestIdx freqs f' := by
  by_cases hne : freqs = []
  · subst hne; rfl
  obtain ⟨hi, hs⟩ := nearestIdx_spec freqs f hne
  obtain ⟨hi', hs'⟩ := nearestIdx_spec freqs f' hne
  by_contra hc
  have hlt := hinc _ _ (by omega : nearestIdx freqs f' < nearestIdx freqs f) hi
  have h1 := hs _ (List.getElem_mem hi')
  have h2 := hs' _ (List.getElem_mem hi)
  have he : f = f' := by
    generalize freqs[nearestIdx freqs f] = b at *
    generalize freqs[nearestIdx freqs f'] = a at *
    rcases abs_cases (b - f) with ⟨e1, _⟩ | ⟨e1, _⟩ <;> rcases abs_cases (a - f) with ⟨e2, _⟩ | ⟨e2, _⟩ <;>
      rcases abs_cases (b - f') with ⟨e3, _⟩ | ⟨e3, _⟩ <;> rcases abs_cases (a - f') with ⟨e4, _⟩ | ⟨e4, _⟩ <;>
      rw [e1, e2] at h1 <;> rw [e3, e4] at h2 <;> linarith
  subst he
  omega

theorem fdTaper_ok {freqs : List Rat} (hinc : Increasing freqs) {f1 f2 f3 f4 : Rat} (h12 : TwoBetween freqs f1 f2) (h34 : TwoBetween freqs f3 f4) :
    fdTaper freqs f1 f2 f3 f4 = .ok ((List.range freqs.length).map fun k : Nat =>
        if nearestIdx freqs f3 ≤ k ∧ k ≤ nearestIdx freqs f4 then
          1 / 2 * (1 + Real.cos (Real.pi * ((nearestIdx freqs f3 : ℝ) - k) / ((nearestIdx freqs f4 : ℝ) - nearestIdx freqs f3)))
        else if nearestIdx freqs f2 < k ∧ k < nearestIdx freqs f3 then 1
        else if nearestIdx freqs f1 ≤ k ∧ k ≤ nearestIdx freqs f2 then
          1 / 2 * (1 - Real.cos (Real.pi * ((k : ℝ) - nearestIdx freqs f1) / ((nearestIdx freqs f2 : ℝ) - nearestIdx freqs f1)))
        else 0) := by
  have h1 := nearestIdx_lt hinc h12
  have h2 := nearestIdx_lt hinc h34
  have hne : freqs ≠ [] := by
    obtain ⟨a, ha, _⟩ := h12
    rintro rfl; cases ha
  unfold fdTaper
  rw [if_neg hne]
  simp only
  rw [if_neg (by omega), if_neg h1.ne, if_neg h2.ne]

/-- the weight that a coefficient of frequency `f` gets -/
def FilterWeight (f1 f2 f3 f4 f : Rat) (w : ℝ) : Prop :=
  0 ≤ w ∧ w ≤ 1 ∧ (f ≤ f1 ∨ f4 ≤ f → w = 0) ∧ (f2 ≤ f ∧ f ≤ f3 → w = 1)

/-- C126: if both flanks have at least two frequencies, each coefficient is multiplied with a weight from 0 to 1, the same for all traces: 1 in the pass band, 0
outside of the outer corner frequencies.
Missing: narrow flanks (`c126_lowpass_violated`, `c126_highpass_violated`). -/
theorem c126_weights_partial (freqs : List Rat) (hinc : Increasing freqs) (f1 f2 f3 f4 : Rat) (h12 : TwoBetween freqs f1 f2) (h23 : f2 ≤ f3)
    (h34 : TwoBetween freqs f3 f4) (B : List (List ℂ)) :
    ∃ w : List ℝ, List.Forall₂ (FilterWeight f1 f2 f3 f4) freqs w ∧
      fdFilter freqs f1 f2 f3 f4 B = .ok (B.map fun row => List.zipWith (fun (z : ℂ) (t : ℝ) => z * t) row w) := by
  have h1 := nearestIdx_lt hinc h12
  have h2 := nearestIdx_lt hinc h34
  have hle23 : nearestIdx freqs f2 ≤ nearestIdx freqs f3 := nearestIdx_mono hinc h23
  refine ⟨_, ?_, by unfold fdFilter; rw [fdTaper_ok hinc h12 h34]; rfl⟩
  rw [List.forall₂_iff_get]
  refine ⟨by simp, fun k hk hk' => ?_⟩
  simp only [List.get_eq_getElem, List.getElem_map, List.getElem_range]
  have hc1 := Real.neg_one_le_cos
  have hc2 := Real.cos_le_one
  refine ⟨?_, ?_, ?_, ?_⟩
  · split
    · linarith [hc1 (Real.pi * ((nearestIdx freqs f3 : ℝ) - k) / ((nearestIdx freqs f4 : ℝ) - nearestIdx freqs f3))]
    · split
      · norm_num
      · split
        · linarith [hc2 (Real.pi * ((k : ℝ) - nearestIdx freqs f1) / ((nearestIdx freqs f2 : ℝ) - nearestIdx freqs f1))]
        · norm_num
  · split
    · linarith [hc2 (Real.pi * ((nearestIdx freqs f3 : ℝ) - k) / ((nearestIdx freqs f4 : ℝ) - nearestIdx freqs f3))]
    · split
      · norm_num
      · split
        · linarith [hc1 (Real.pi * ((k : ℝ) - nearestIdx freqs f1) / ((nearestIdx freqs f2 : ℝ) - nearestIdx freqs f1))]
        · norm_num
  · rintro (h | h)
    · have hk1 := nearestIdx_ge hinc hk h
      rw [if_neg (by omega), if_neg (by omega)]
      split
      · next h =>
        have : k = nearestIdx freqs f1 := by omega
        rw [this]; simp
      · rfl
    · have hk1 := nearestIdx_le hinc hk h
      by_cases he : k = nearestIdx freqs f4
      · rw [if_pos (by omega), he]
        have : Real.pi * ((nearestIdx freqs f3 : ℝ) - (nearestIdx freqs f4 : ℝ)) / ((nearestIdx freqs f4 : ℝ) - nearestIdx freqs f3) = -Real.pi := by
          have hd : ((nearestIdx freqs f4 : ℝ) - nearestIdx freqs f3) ≠ 0 := by
            have : (nearestIdx freqs f3 : ℝ) < nearestIdx freqs f4 := by exact_mod_cast h2
            linarith
          field_simp
          ring
        rw [this, Real.cos_neg, Real.cos_pi]
        norm_num
      · rw [if_neg (by omega), if_neg (by omega), if_neg (by omega)]
  · rintro ⟨ha, hb⟩
    have hk1 := nearestIdx_le hinc hk ha
    have hk2 := nearestIdx_ge hinc hk hb
    by_cases he : k = nearestIdx freqs f3
    · rw [if_pos (by omega), he]; simp
      norm_num
    · rw [if_neg (by omega)]
      by_cases he2 : k = nearestIdx freqs f2
      · rw [if_neg (by omega), if_pos (by omega), he2]
        have hd : ((nearestIdx freqs f2 : ℝ) - nearestIdx freqs f1) ≠ 0 := by
          have : (nearestIdx freqs f1 : ℝ) < nearestIdx freqs f2 := by exact_mod_cast h1
          linarith
        rw [mul_div_assoc, div_self hd, mul_one, Real.cos_pi]
        norm_num
      · rw [if_pos (by omega)]

/-- C126 is violated: a low pass, which has no lower flank (`f1 = f2 = 0`), removes the mean: the first coefficient gets the weight 0 -/
theorem c126_lowpass_violated : ∃ B, fdFilter [0, 1, 2, 3, 4] 0 0 2 4 [[1, 1, 1, 1, 1]] = .ok [B] ∧ B.getD 0 0 = 0 := by
  have e0 : nearestIdx [0, 1, 2, 3, 4] 0 = 0 := by decide +kernel
  have e2 : nearestIdx [0, 1, 2, 3, 4] 2 = 2 := by decide +kernel
  have e4 : nearestIdx [0, 1, 2, 3, 4] 4 = 4 := by decide +kernel
  refine ⟨_, by simp [fdFilter, fdTaper, e0, e2, e4, bind, Except.bind, List.range, List.range.loop]; rfl, ?_⟩
  simp

/-- C126 is violated: a high pass, which has no upper flank (`f3 = f4`, the highest frequency), removes the highest frequency -/
theorem c126_highpass_violated : ∃ B, fdFilter [0, 1, 2, 3, 4] 0 2 4 4 [[1, 1, 1, 1, 1]] = .ok [B] ∧ B.getD 4 0 = 0 := by
  have e0 : nearestIdx [0, 1, 2, 3, 4] 0 = 0 := by decide +kernel
  have e2 : nearestIdx [0, 1, 2, 3, 4] 2 = 2 := by decide +kernel
  have e4 : nearestIdx [0, 1, 2, 3, 4] 4 = 4 := by decide +kernel
  refine ⟨_, by simp [fdFilter, fdTaper, e0, e2, e4, bind, Except.bind, List.range, List.range.loop]; rfl, ?_⟩
  have : (Real.pi : ℂ) * (3 - 4) / (4 - 3) = -Real.pi := by norm_num
  simp [this]

/-- C126 is violated: a pass band above all frequencies does not give zero: the function fails -/
theorem c126_outside_violated (B : List (List ℂ)) : fdFilter [0, 1, 2, 3, 4] 4 5 6 7 B = .error .valueError := by
  have e1 : nearestIdx [0, 1, 2, 3, 4] 4 = 4 := by decide +kernel
  have e2 : nearestIdx [0, 1, 2, 3, 4] 5 = 4 := by decide +kernel
  simp [fdFilter, fdTaper, e1, e2, bind, Except.bind]

/-- the hypotheses of C126 can be met: frequencies in steps of 1 -/
example : Increasing [0, 1, 2, 3, 4, 5, 6] ∧ TwoBetween [0, 1, 2, 3, 4, 5, 6] (1 / 2) 2 ∧ TwoBetween [0, 1, 2, 3, 4, 5, 6] 4 (11 / 2) := by
  refine ⟨?_, ⟨1, by simp, 2, by simp, by norm_num, by norm_num, by norm_num⟩, ⟨4, by simp, 5, by simp, by norm_num, by norm_num, by norm_num⟩⟩
  intro i j hij hj
  simp only [List.length_cons, List.length_nil] at hj
  interval_cases j <;> interval_cases i <;> norm_num

end

end SeisMIC
