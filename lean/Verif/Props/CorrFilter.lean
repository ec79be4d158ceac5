import Verif.Model.CorrFilter
import Verif.Props.Decay
import Verif.Lemmas.Xcorr
import Mathlib.RingTheory.PowerSeries.Inverse
import Mathlib.Tactic.Linarith
import Mathlib.Tactic.Positivity
import Mathlib.Tactic.FieldSimp

/-!
# C129 - C130: filter and envelope of correlations

* C129 `CorrBulk.filter` is linear and has zero phase.
* C130 `CorrBulk.envelope` is the envelope: the amplitude of a sinusoid, and never less than the correlation.
-/

namespace SeisMIC

open Finset

noncomputable section

/-! ### C129: the filter as a convolution -/

/-- the impulse response -/
def impulseResponse (b a : List ℝ) (n : Nat) : ℝ := lfilterAt b a [1] n

/-- the list as power series -/
def series (l : List ℝ) : PowerSeries ℝ := PowerSeries.mk fun n => l.getD n 0

theorem lfilter_series (b a x : List ℝ) (ha : a.getD 0 0 ≠ 0) :
    series a * PowerSeries.mk (lfilterAt b a x) = series b * series x := by
  ext n
  rw [PowerSeries.coeff_mul, PowerSeries.coeff_mul, Finset.Nat.sum_antidiagonal_eq_sum_range_succ_mk, Finset.Nat.sum_antidiagonal_eq_sum_range_succ_mk]
  simp only [series, PowerSeries.coeff_mk]
  rw [Finset.sum_range_succ']
  simp only [Nat.sub_zero]
  rw [lfilterAt, mul_div_cancel₀ _ ha]
  have : ∑ k : Fin n, a.getD (k + 1) 0 * lfilterAt b a x (n - 1 - k) = ∑ k ∈ range n, a.getD (k + 1) 0 * lfilterAt b a x (n - (k + 1)) := by
    rw [← Fin.sum_univ_eq_sum_range (fun k => a.getD (k + 1) 0 * lfilterAt b a x (n - (k + 1)))]
    refine Finset.sum_congr rfl fun k _ => ?_
    rw [show n - 1 - (k : Nat) = n - (k + 1) by omega]
  rw [this]
  ring

theorem lfilterAt_conv (b a x : List ℝ) (ha : a.getD 0 0 ≠ 0) (n : Nat) :
    lfilterAt b a x n = ∑ k ∈ range (n + 1), impulseResponse b a (n - k) * x.getD k 0 := by
  have h1 := lfilter_series b a x ha
  have h2 := lfilter_series b a [1] ha
  have e1 : series [1] = 1 := by
    ext n
    simp only [series, PowerSeries.coeff_mk, PowerSeries.coeff_one]
    cases n <;> simp
  have hu : series a ≠ 0 := by
    intro h0
    have := congrArg (PowerSeries.coeff 0) h0
    simp only [series, PowerSeries.coeff_mk, map_zero] at this
    exact ha this
  rw [e1, mul_one] at h2
  have h3 : PowerSeries.mk (lfilterAt b a x) = series x * PowerSeries.mk (impulseResponse b a) := by
    apply mul_left_cancel₀ hu
    rw [h1, ← h2]
    unfold impulseResponse
    ring
  have := congrArg (PowerSeries.coeff n) h3
  rw [PowerSeries.coeff_mk, PowerSeries.coeff_mul, Finset.Nat.sum_antidiagonal_eq_sum_range_succ_mk] at this
  rw [this]
  refine Finset.sum_congr rfl fun k _ => ?_
  simp only [series, PowerSeries.coeff_mk]
  ring

/-- the filter as a matrix -/
def filterEntry (h : Nat → ℝ) (m k : Nat) : ℝ := if k ≤ m then h (m - k) else 0

theorem lfilter_length (b a x : List ℝ) : (lfilter b a x).length = x.length := by simp [lfilter]

theorem lfilter_getD (b a x : List ℝ) (ha : a.getD 0 0 ≠ 0) (m : Nat) (hm : m < x.length) :
    (lfilter b a x).getD m 0 = ∑ k ∈ range x.length, filterEntry (impulseResponse b a) m k * x.getD k 0 := by
  unfold lfilter
  rw [List.getD_eq_getElem _ _ (by simpa using hm), List.getElem_map, List.getElem_range, lfilterAt_conv b a x ha]
  rw [← Finset.sum_subset (s₁ := range (m + 1)) (s₂ := range x.length) (by intro k; simp only [mem_range]; omega)]
  · refine Finset.sum_congr rfl fun k hk => ?_
    unfold filterEntry
    rw [if_pos (by rw [mem_range] at hk; omega)]
  · intro k _ hk
    unfold filterEntry
    rw [if_neg (by rw [mem_range] at hk; omega), zero_mul]

theorem getD_reverse (x : List ℝ) (k : Nat) (hk : k < x.length) : x.reverse.getD k 0 = x.getD (x.length - 1 - k) 0 := by
  rw [List.getD_eq_getElem _ _ (by simpa using hk), List.getElem_reverse, List.getD_eq_getElem _ _ (by omega)]

theorem zeroPhase_length (b a x : List ℝ) : (zeroPhase b a x).length = x.length := by simp [zeroPhase, lfilter]

theorem zeroPhase_getD (b a x : List ℝ) (ha : a.getD 0 0 ≠ 0) (i : Nat) (hi : i < x.length) :
    (zeroPhase b a x).getD i 0 = ∑ m ∈ range x.length, filterEntry (impulseResponse b a) m i *
      ∑ k ∈ range x.length, filterEntry (impulseResponse b a) m k * x.getD k 0 := by
  unfold zeroPhase
  rw [getD_reverse _ _ (by rw [lfilter_length, List.length_reverse, lfilter_length]; exact hi)]
  rw [lfilter_getD b a _ ha _ (by rw [lfilter_length, List.length_reverse, lfilter_length]; omega)]
  rw [lfilter_length, List.length_reverse, lfilter_length, ← Finset.sum_range_reflect]
  refine Finset.sum_congr rfl fun m hm => ?_
  rw [mem_range] at hm
  rw [getD_reverse _ _ (by rw [lfilter_length]; omega), lfilter_length, show x.length - 1 - (x.length - 1 - m) = m by omega, lfilter_getD b a x ha m hm]
  congr 1
  unfold filterEntry
  by_cases h : i ≤ m
  · rw [if_pos h, if_pos (by omega)]
    congr 1
    omega
  · rw [if_neg h, if_neg (by omega)]

theorem mapM_some (x : List ℝ) : (x.map some).mapM id = some x := by
  induction x with
  | nil => rfl
  | cons a x ih =>
    rw [List.map_cons, List.mapM_cons, ih]
    rfl

theorem mapM_none (row : List (Option ℝ)) (h : none ∈ row) : row.mapM id = none := by
  induction row with
  | nil => simp at h
  | cons a row ih =>
    rw [List.mapM_cons]
    cases a with
    | none => rfl
    | some a =>
      rw [ih (by simpa using h)]
      rfl

/-- C129: for correlations of a given length the filter is one matrix, which is symmetric (zero phase: sample `i` gets from an impulse at `k` what
sample `k` gets from an impulse at `i`) and not negative (no frequency changes its sign). `butter` gives the coefficients.
Missing: NaN (`c129_nan_violated`), and the ends of the correlations (`c129_reversal_violated`). -/
theorem c129_zero_phase_partial (butter : Nat → List Rat → Except PyErr (List ℝ × List ℝ)) (s : LagStats) (f1 f2 : Rat) (order : Nat) (b a : List ℝ)
    (hb : butter order [f1 / (s.sr / 2), f2 / (s.sr / 2)] = .ok (b, a)) (ha : a.getD 0 0 ≠ 0) :
    ∃ G : Nat → Nat → ℝ, (∀ i k, G i k = G k i) ∧ (∀ u : Nat → ℝ, 0 ≤ ∑ i ∈ range s.npts, ∑ k ∈ range s.npts, u i * G i k * u k) ∧
      ∀ X : List (List ℝ), (∀ x ∈ X, x.length = s.npts) →
        corrMatFilter butter (X.map fun x => x.map some) s [f1, f2] order =
          .ok (X.map fun x => (List.range s.npts).map fun i => some (∑ k ∈ range s.npts, G i k * x.getD k 0)) := by
  set H := filterEntry (impulseResponse b a) with hH
  refine ⟨fun i k => ∑ m ∈ range s.npts, H m i * H m k, fun i k => Finset.sum_congr rfl fun m _ => mul_comm _ _, ?_, ?_⟩
  · intro u
    have : ∑ i ∈ range s.npts, ∑ k ∈ range s.npts, u i * (∑ m ∈ range s.npts, H m i * H m k) * u k =
        ∑ m ∈ range s.npts, (∑ i ∈ range s.npts, H m i * u i) ^ 2 := by
      simp_rw [sq, Finset.sum_mul_sum, Finset.mul_sum, Finset.sum_mul]
      rw [Finset.sum_congr rfl fun i _ => Finset.sum_comm, Finset.sum_comm]
      refine Finset.sum_congr rfl fun m _ => Finset.sum_congr rfl fun i _ => Finset.sum_congr rfl fun k _ => ?_
      ring
    rw [this]
    exact Finset.sum_nonneg fun m _ => sq_nonneg _
  · intro X hX
    unfold corrMatFilter
    rw [if_neg (by simp)]
    simp only [List.map_cons, List.map_nil, hb, bind, Except.bind]
    rw [List.map_map]
    congr 1
    refine List.map_congr_left fun x hx => ?_
    simp only [Function.comp, zeroPhaseRow, mapM_some]
    apply List.ext_getElem
    · simp [zeroPhase_length, hX x hx]
    · intro i h1 h2
      simp only [List.length_map, List.length_range] at h2
      have hi : i < x.length := by rw [hX x hx]; exact h2
      rw [List.getElem_map, List.getElem_map, List.getElem_range]
      congr 1
      rw [← List.getD_eq_getElem _ 0, zeroPhase_getD b a x ha i hi, hX x hx]
      simp_rw [Finset.sum_mul, Finset.mul_sum]
      rw [Finset.sum_comm]
      exact Finset.sum_congr rfl fun k _ => Finset.sum_congr rfl fun m _ => by ring

/-- C129: other than two frequencies are refused, and so are bands for which there is no filter -/
theorem c129_refused (butter : Nat → List Rat → Except PyErr (List ℝ × List ℝ)) (data : List (List (Option ℝ))) (s : LagStats) (order : Nat) :
    (∀ freqs, freqs.length ≠ 2 → corrMatFilter butter data s freqs order = .error .valueError) ∧
    (∀ f1 f2 e, butter order [f1 / (s.sr / 2), f2 / (s.sr / 2)] = .error e → corrMatFilter butter data s [f1, f2] order = .error e) := by
  constructor
  · intro freqs h
    unfold corrMatFilter
    rw [if_pos h]
  · intro f1 f2 e h
    unfold corrMatFilter
    rw [if_neg (by simp)]
    simp only [List.map_cons, List.map_nil, h, bind, Except.bind]

/-- C129 is violated: a correlation with a NaN is lost completely -/
theorem c129_nan_violated (butter : Nat → List Rat → Except PyErr (List ℝ × List ℝ)) (s : LagStats) (f1 f2 : Rat) (order : Nat) (b a : List ℝ)
    (hb : butter order [f1 / (s.sr / 2), f2 / (s.sr / 2)] = .ok (b, a)) (row : List (Option ℝ)) (h : none ∈ row) :
    corrMatFilter butter [row] s [f1, f2] order = .ok [row.map fun _ => none] := by
  unfold corrMatFilter
  rw [if_neg (by simp)]
  simp only [List.map_cons, List.map_nil, hb, bind, Except.bind, zeroPhaseRow, mapM_none row h]

/-- C129 is violated: correlations that are the same for positive and negative lags are not the same afterwards, because what leaves a correlation at its
end is lost when the filter goes forwards, but not when it goes backwards. This is so for each filter with an impulse response that is longer than one
sample. -/
theorem c129_reversal_violated (b a : List ℝ) (ha : a.getD 0 0 ≠ 0) (n m : Nat) (hm : 1 ≤ m) (hmn : m < n) (hh : impulseResponse b a m ≠ 0) :
    ∃ x : List ℝ, x.length = n ∧ x.reverse = x ∧ (zeroPhase b a x).reverse ≠ zeroPhase b a x := by
  set x : List ℝ := (List.range n).map fun k => if k = 0 ∨ k = n - 1 then 1 else 0 with hx
  have hl : x.length = n := by simp [hx]
  have hget : ∀ k < n, x.getD k 0 = if k = 0 ∨ k = n - 1 then 1 else 0 := by
    intro k hk
    rw [hx, List.getD_eq_getElem _ _ (by simpa using hk), List.getElem_map, List.getElem_range]
  refine ⟨x, hl, ?_, ?_⟩
  · apply List.ext_getElem (by simp)
    intro k h1 h2
    rw [hl] at h2
    rw [← List.getD_eq_getElem _ 0, ← List.getD_eq_getElem _ 0, getD_reverse x k (by omega), hl, hget _ (by omega), hget _ h2]
    congr 1
    apply propext
    omega
  · intro he
    have h0 := congrArg (fun l => l.getD 0 0) he
    rw [getD_reverse _ 0 (by rw [zeroPhase_length]; omega), zeroPhase_length, hl, zeroPhase_getD b a x ha _ (by omega),
      zeroPhase_getD b a x ha _ (by omega), hl] at h0
    set h := impulseResponse b a with hdef
    have hin : ∀ j, ∑ k ∈ range n, filterEntry h j k * x.getD k 0 = filterEntry h j 0 + filterEntry h j (n - 1) := by
      intro j
      rw [Finset.sum_congr rfl fun k hk => by rw [hget k (mem_range.1 hk)]]
      rw [← Finset.sum_subset (s₁ := {0, n - 1}) (by
        intro k hk
        simp only [mem_insert, mem_singleton] at hk
        rw [mem_range]; omega) (by
        intro k _ hk
        simp only [mem_insert, mem_singleton] at hk
        rw [if_neg hk, mul_zero])]
      rw [Finset.sum_pair (by omega)]
      simp
    simp only [hin] at h0
    have e1 : ∑ j ∈ range n, filterEntry h j (n - 1 - 0) * (filterEntry h j 0 + filterEntry h j (n - 1)) = h 0 * (h (n - 1) + h 0) := by
      rw [Finset.sum_eq_single_of_mem (n - 1) (by rw [mem_range]; omega)]
      · unfold filterEntry
        rw [if_pos (by omega), if_pos (by omega), if_pos (by omega)]
        simp
      · intro j hj hne
        rw [mem_range] at hj
        unfold filterEntry
        rw [if_neg (by omega), zero_mul]
    have e2 : ∑ j ∈ range n, filterEntry h j 0 * (filterEntry h j 0 + filterEntry h j (n - 1)) = ∑ j ∈ range n, h j ^ 2 + h (n - 1) * h 0 := by
      have : ∀ j, filterEntry h j 0 * (filterEntry h j 0 + filterEntry h j (n - 1)) = h j ^ 2 + h j * filterEntry h j (n - 1) := by
        intro j
        unfold filterEntry
        rw [if_pos (Nat.zero_le _)]
        simp only [Nat.sub_zero]
        ring
      simp only [this]
      rw [Finset.sum_add_distrib]
      congr 1
      rw [Finset.sum_eq_single_of_mem (n - 1) (by rw [mem_range]; omega)]
      · unfold filterEntry
        rw [if_pos (le_refl _)]
        simp
      · intro j hj hne
        rw [mem_range] at hj
        unfold filterEntry
        rw [if_neg (by omega), mul_zero]
    rw [e1, e2] at h0
    have hle : h 0 ^ 2 + h m ^ 2 ≤ ∑ j ∈ range n, h j ^ 2 := by
      have : ∑ j ∈ ({0, m} : Finset Nat), h j ^ 2 ≤ ∑ j ∈ range n, h j ^ 2 :=
        Finset.sum_le_sum_of_subset_of_nonneg (by
          intro k hk
          simp only [mem_insert, mem_singleton] at hk
          rw [mem_range]; omega) fun _ _ _ => sq_nonneg _
      rwa [Finset.sum_pair (by omega)] at this
    have : 0 < h m ^ 2 := by positivity
    nlinarith

/-- the hypotheses of C129 can be met: a filter with `b = [1, 0, -1]`, `a = [2, 1, 1]` has a longer response than one sample -/
example : ([2, 1, 1] : List ℝ).getD 0 0 ≠ 0 ∧ impulseResponse [1, 0, -1] [2, 1, 1] 1 ≠ 0 := by
  refine ⟨by simp, ?_⟩
  unfold impulseResponse
  rw [lfilterAt, Fin.sum_univ_one, lfilterAt]
  simp [Finset.sum_range_succ]

/-! ### C130 -/

theorem hilbertFactor_pair (N m : Nat) (h1 : 1 ≤ m) (h2 : m < N) : hilbertFactor N m + hilbertFactor N (N - m) = 2 := by
  unfold hilbertFactor
  split_ifs <;> first | (exfalso; omega) | norm_num

theorem sum_hilbertFactor (N : Nat) (F : Nat → ℝ) (hF : ∀ m, 1 ≤ m → m < N → F (N - m) = F m) :
    ∑ m ∈ range N, hilbertFactor N m * F m = ∑ m ∈ range N, F m := by
  cases N with
  | zero => simp
  | succ n =>
    rw [Finset.sum_range_succ', Finset.sum_range_succ' F]
    have h0 : hilbertFactor (n + 1) 0 = 1 := by simp [hilbertFactor]
    rw [h0, one_mul]
    congr 1
    have h1 : ∑ k ∈ range n, hilbertFactor (n + 1) (k + 1) * F (k + 1) =
        ∑ k ∈ range n, hilbertFactor (n + 1) (n + 1 - (k + 1)) * F (k + 1) := by
      rw [← Finset.sum_range_reflect]
      refine Finset.sum_congr rfl fun k hk => ?_
      rw [mem_range] at hk
      rw [show n - 1 - k + 1 = n + 1 - (k + 1) by omega, hF (k + 1) (by omega) (by omega)]
    have h2 : 2 * ∑ k ∈ range n, hilbertFactor (n + 1) (k + 1) * F (k + 1) = 2 * ∑ k ∈ range n, F (k + 1) := by
      rw [two_mul]
      conv => lhs; rhs; rw [h1]
      rw [← Finset.sum_add_distrib, Finset.mul_sum]
      refine Finset.sum_congr rfl fun k hk => ?_
      rw [mem_range] at hk
      rw [← hilbertFactor_pair (n + 1) (k + 1) (by omega) (by omega)]
      ring
    linarith

/-- the inverse transform -/
theorem idft (x : List ℝ) (j : Nat) (hj : j < x.length) :
    ∑ m ∈ range x.length, Xcorr.dft x m * Xcorr.ex (j * m / x.length) = x.length * (x.getD j 0 : ℂ) := by
  have hN : 0 < x.length := by omega
  have hN0 : (x.length : ℂ) ≠ 0 := by exact_mod_cast hN.ne'
  simp only [Xcorr.dft_eq, Finset.sum_mul]
  rw [Finset.sum_comm]
  have : ∀ i ∈ range x.length, ∑ m ∈ range x.length, (x.getD i 0 : ℂ) * Xcorr.ex (-(i * m / x.length)) * Xcorr.ex (j * m / x.length) =
      if i = j then x.length * (x.getD j 0 : ℂ) else 0 := by
    intro i hi
    rw [mem_range] at hi
    have e : ∀ m ∈ range x.length, (x.getD i 0 : ℂ) * Xcorr.ex (-(i * m / x.length)) * Xcorr.ex (j * m / x.length) =
        (x.getD i 0 : ℂ) * Xcorr.ex (m * (((j : Int) - i : Int) : ℂ) / x.length) := by
      intro m _
      rw [mul_assoc, ← Xcorr.ex_add]
      congr 2
      push_cast
      ring
    rw [Finset.sum_congr rfl e, ← Finset.mul_sum, Xcorr.orth _ hN]
    by_cases hij : i = j
    · subst hij
      simp [mul_comm]
    · rw [if_neg hij, if_neg, mul_zero]
      intro hd
      have := Int.eq_zero_of_abs_lt_dvd hd (by rw [abs_lt]; omega)
      omega
  rw [Finset.sum_congr rfl this, Finset.sum_ite_eq' (range x.length) j, if_pos (mem_range.2 hj)]

theorem analytic_length (x : List ℝ) : (analytic x).length = x.length := by simp [analytic]

theorem analytic_getD (x : List ℝ) (j : Nat) (hj : j < x.length) : (analytic x).getD j 0 =
    (∑ m ∈ range x.length, (hilbertFactor x.length m : ℂ) * (Xcorr.dft x m * Xcorr.ex (j * m / x.length))) / x.length := by
  unfold analytic
  rw [List.getD_eq_getElem _ _ (by simpa using hj), List.getElem_map, List.getElem_range]
  congr 1
  refine Finset.sum_congr rfl fun m _ => ?_
  unfold Xcorr.ex
  rw [mul_assoc]

/-- the real part of the analytic signal is the signal -/
theorem analytic_re (x : List ℝ) (j : Nat) (hj : j < x.length) : ((analytic x).getD j 0).re = x.getD j 0 := by
  have hN : (x.length : ℝ) ≠ 0 := by
    have : 0 < x.length := by omega
    positivity
  have hNc : (x.length : ℂ) ≠ 0 := by exact_mod_cast hN
  rw [analytic_getD x j hj]
  rw [show ((∑ m ∈ range x.length, (hilbertFactor x.length m : ℂ) * (Xcorr.dft x m * Xcorr.ex (j * m / x.length))) / x.length).re =
    (∑ m ∈ range x.length, (hilbertFactor x.length m : ℂ) * (Xcorr.dft x m * Xcorr.ex (j * m / x.length))).re / x.length from by
      exact Complex.div_natCast_re _ _]
  rw [Complex.re_sum]
  simp only [Complex.re_ofReal_mul]
  rw [sum_hilbertFactor x.length (fun m => (Xcorr.dft x m * Xcorr.ex (j * m / x.length)).re), ← Complex.re_sum, idft x j hj]
  · rw [← Complex.ofReal_natCast, ← Complex.ofReal_mul, Complex.ofReal_re]
    field_simp
  · intro m h1 h2
    rw [Xcorr.dft_reflect x m h2.le]
    have : Xcorr.ex (j * ((x.length - m : Nat) : ℂ) / x.length) = (starRingEnd ℂ) (Xcorr.ex (j * m / x.length)) := by
      have := Xcorr.conj_ex ((j : ℝ) * m / x.length)
      push_cast at this
      rw [this, Nat.cast_sub h2.le, show (j : ℂ) * (x.length - m) / x.length = ((j : Int) : ℂ) + -(j * m / x.length) by
        push_cast; field_simp; ring, Xcorr.ex_add, Xcorr.ex_int, one_mul]
    rw [this, ← map_mul, Complex.conj_re]

/-- the envelope that is used for the correction of the decay (C128) is the one of this function -/
theorem envelopeRow_hilbert (x : List ℝ) : envelopeRow hilbertIm x = (analytic x).map fun z => ‖z‖ := by
  unfold envelopeRow hilbertIm
  apply List.ext_getElem
  · simp [analytic_length]
  · intro j h1 h2
    simp only [List.length_map, analytic_length] at h2
    rw [List.getElem_zipWith, List.getElem_map, List.getElem_map]
    have := analytic_re x j h2
    rw [List.getD_eq_getElem _ _ (by rw [analytic_length]; exact h2), List.getD_eq_getElem _ _ h2] at this
    rw [← this, Complex.norm_eq_sqrt_sq_add_sq]

/-- C130: the envelope has the shape of the correlations, and is at least their absolute value.
Missing: NaN (`c130_nan_violated`). -/
theorem c130_bound_partial (X : List (List ℝ)) :
    List.Forall₂ (fun x e => List.Forall₂ (fun (a : ℝ) (o : Option ℝ) => ∃ b, o = some b ∧ |a| ≤ b) x e) X (corrMatEnvelope (X.map fun x => x.map some)) := by
  unfold corrMatEnvelope
  rw [List.map_map, List.forall₂_map_right_iff, List.forall₂_same]
  intro x _
  simp only [Function.comp, mapM_some]
  rw [List.forall₂_iff_get]
  refine ⟨by simp [analytic_length], fun j h1 h2 => ?_⟩
  simp only [List.get_eq_getElem, List.getElem_map]
  refine ⟨_, rfl, ?_⟩
  have := analytic_re x j h1
  rw [List.getD_eq_getElem _ _ (by rw [analytic_length]; exact h1), List.getD_eq_getElem _ _ h1] at this
  rw [← this]
  exact Complex.abs_re_le_norm _

theorem dft_scaled (c : ℝ) (x : List ℝ) (m : Nat) : Xcorr.dft (x.map (c * ·)) m = c * Xcorr.dft x m := by
  rw [Xcorr.dft_eq, Xcorr.dft_eq, Finset.mul_sum, List.length_map]
  refine Finset.sum_congr rfl fun j _ => ?_
  rw [getD_scaled]
  push_cast
  ring

theorem analytic_scaled (c : ℝ) (x : List ℝ) : analytic (x.map (c * ·)) = (analytic x).map ((c : ℂ) * ·) := by
  unfold analytic
  rw [List.map_map, List.length_map]
  refine List.map_congr_left fun j _ => ?_
  simp only [Function.comp]
  rw [← mul_div_assoc, Finset.mul_sum]
  congr 1
  refine Finset.sum_congr rfl fun m _ => ?_
  rw [dft_scaled]
  ring

/-- C130: a factor, also a negative one, multiplies the envelope with its absolute value. NaN do not change that. -/
theorem c130_scale (c : ℝ) (data : List (List (Option ℝ))) :
    corrMatEnvelope (scaled c data) = (corrMatEnvelope data).map fun row => row.map fun x => x.map (|c| * ·) := by
  unfold corrMatEnvelope scaled
  rw [List.map_map, List.map_map]
  refine List.map_congr_left fun row _ => ?_
  simp only [Function.comp]
  have : (row.map fun x => x.map (c * ·)).mapM id = (row.mapM id).map fun x => x.map (c * ·) := by
    clear * -
    induction row with
    | nil => rfl
    | cons a row ih =>
      cases a with
      | none => simp
      | some a =>
        simp only [List.map_cons, List.mapM_cons, ih, id, Option.map_some, Option.bind_eq_bind, Option.bind_some]
        cases List.mapM id row <;> rfl
  rw [this]
  cases row.mapM id with
  | none => simp [Function.comp_def]
  | some x =>
    simp only [Option.map_some]
    rw [analytic_scaled, List.map_map, List.map_map]
    refine List.map_congr_left fun z _ => ?_
    simp only [Function.comp, Option.map_some, Option.some.injEq]
    rw [norm_mul, Complex.norm_real, Real.norm_eq_abs]

theorem ex_norm (q : ℝ) : ‖Xcorr.ex q‖ = 1 := by
  unfold Xcorr.ex
  rw [show 2 * (Real.pi : ℂ) * Complex.I * q = ((2 * Real.pi * q : ℝ) : ℂ) * Complex.I by push_cast; ring]
  exact Complex.norm_exp_ofReal_mul_I _

/-- C130: the envelope of an oscillation with `p` periods in the correlation, and more than two samples per period, is its amplitude, at all lags and
for any phase -/
theorem c130_sinusoid (N p : Nat) (hp : 0 < p) (h2 : 2 * p < N) (A phi : ℝ) :
    corrMatEnvelope [(List.range N).map fun k : Nat => some (A * Real.cos (2 * Real.pi * p * k / N + phi))] = [List.replicate N (some |A|)] := by
  have hN : 0 < N := by omega
  have hNc : (N : ℂ) ≠ 0 := by exact_mod_cast hN.ne'
  set x : List ℝ := (List.range N).map fun k : Nat => A * Real.cos (2 * Real.pi * p * k / N + phi) with hx
  have hl : x.length = N := by simp [hx]
  set B : ℂ := A * Complex.exp (phi * Complex.I) with hB
  have hcos : ∀ k : Nat, ((A * Real.cos (2 * Real.pi * p * k / N + phi) : ℝ) : ℂ) =
      1 / 2 * (B * Xcorr.ex (k * p / N) + (starRingEnd ℂ) B * Xcorr.ex (-(k * p / N))) := by
    intro k
    have hcb : (starRingEnd ℂ) B = A * Complex.exp (-(phi * Complex.I)) := by
      rw [hB, map_mul, Complex.conj_ofReal, ← Complex.exp_conj, map_mul, Complex.conj_ofReal, Complex.conj_I, mul_neg]
    rw [hcb, hB]
    unfold Xcorr.ex
    push_cast
    rw [Complex.cos, mul_assoc (A : ℂ), mul_assoc (A : ℂ), ← Complex.exp_add, ← Complex.exp_add]
    rw [show (2 * (Real.pi : ℂ) * p * k / N + phi) * Complex.I = phi * Complex.I + 2 * Real.pi * Complex.I * (k * p / N) by ring,
      show -(2 * (Real.pi : ℂ) * p * k / N + phi) * Complex.I = -(phi * Complex.I) + 2 * Real.pi * Complex.I * -(k * p / N) by ring]
    ring
  have hdft : ∀ m < N, Xcorr.dft x m = 1 / 2 * ((if m = p then B * N else 0) + (if m = N - p then (starRingEnd ℂ) B * N else 0)) := by
    intro m hm
    rw [Xcorr.dft_eq, hl]
    have e : ∀ k ∈ range N, ((x.getD k 0 : ℝ) : ℂ) * Xcorr.ex (-(k * m / N)) =
        1 / 2 * (B * Xcorr.ex (k * (((p : Int) - m : Int) : ℂ) / N) + (starRingEnd ℂ) B * Xcorr.ex (k * ((-(p : Int) - m : Int) : ℂ) / N)) := by
      intro k hk
      rw [mem_range] at hk
      rw [hx, List.getD_eq_getElem _ _ (by simpa using hk), List.getElem_map, List.getElem_range, hcos k, mul_assoc, add_mul, mul_assoc B, mul_assoc ((starRingEnd ℂ) B),
        ← Xcorr.ex_add, ← Xcorr.ex_add]
      congr 4
      · push_cast; congr 1; ring
      · push_cast; congr 1; ring
    rw [Finset.sum_congr rfl e, ← Finset.mul_sum, Finset.sum_add_distrib, ← Finset.mul_sum, ← Finset.mul_sum, Xcorr.orth N hN, Xcorr.orth N hN]
    congr 2
    · by_cases h : m = p
      · rw [if_pos h, if_pos (by rw [h]; simp)]
      · rw [if_neg h, if_neg, mul_zero]
        intro hd
        have := Int.eq_zero_of_abs_lt_dvd hd (by rw [abs_lt]; omega)
        omega
    · by_cases h : m = N - p
      · rw [if_pos h, if_pos ⟨-1, by omega⟩]
      · rw [if_neg h, if_neg, mul_zero]
        rintro ⟨c, hc⟩
        have : c = -1 := by
          have h1 : (N : Int) * c < 0 := by omega
          have h2 : -(2 * N : Int) < N * c := by omega
          have h3 : c < 0 := by by_contra h; push Not at h; have := mul_nonneg (by omega : (0 : Int) ≤ N) h; omega
          have h4 : -2 < c := by
            by_contra h
            push Not at h
            have := mul_le_mul_of_nonneg_left h (by omega : (0 : Int) ≤ N)
            omega
          omega
        subst this
        omega
  have han : ∀ j < N, (analytic x).getD j 0 = B * Xcorr.ex (j * p / N) := by
    intro j hj
    rw [analytic_getD x j (by omega), hl]
    have e : ∀ m ∈ range N, (hilbertFactor N m : ℂ) * (Xcorr.dft x m * Xcorr.ex (j * m / N)) = if m = p then B * Xcorr.ex (j * p / N) * N else 0 := by
      intro m hm
      rw [mem_range] at hm
      rw [hdft m hm]
      by_cases h : m = p
      · subst h
        have : hilbertFactor N m = 2 := by
          unfold hilbertFactor
          rw [if_neg (by omega)]
          split
          · rw [if_pos (by omega)]
          · rw [if_pos (by omega)]
        rw [if_pos rfl, if_neg (by omega), if_pos rfl, this]
        push_cast
        ring
      · rw [if_neg h, if_neg h]
        by_cases h' : m = N - p
        · have : hilbertFactor N m = 0 := by
            unfold hilbertFactor
            rw [if_neg (by omega)]
            split
            · rw [if_neg (by omega), if_neg (by omega)]
            · rw [if_neg (by omega)]
          rw [this]
          simp
        · rw [if_neg h']
          simp
    rw [Finset.sum_congr rfl e, Finset.sum_ite_eq' (range N) p, if_pos (mem_range.2 (by omega))]
    field_simp
  unfold corrMatEnvelope
  have hrow : ((List.range N).map fun k : Nat => some (A * Real.cos (2 * Real.pi * p * k / N + phi))) = x.map some := by
    rw [hx, List.map_map]; rfl
  simp only [List.map_cons, List.map_nil, hrow, mapM_some]
  congr 1
  apply List.ext_getElem
  · simp [analytic_length, hl]
  · intro j h1 h2
    simp only [List.length_replicate] at h2
    rw [List.getElem_map, List.getElem_replicate]
    have := han j h2
    rw [List.getD_eq_getElem _ _ (by rw [analytic_length, hl]; exact h2)] at this
    rw [this]
    congr 1
    have hex := ex_norm ((j : ℝ) * p / N)
    push_cast at hex
    rw [norm_mul, hex, mul_one, hB, norm_mul, Complex.norm_real, Real.norm_eq_abs, Complex.norm_exp_ofReal_mul_I, mul_one]

/-- C130 is violated: a correlation with a NaN is lost completely -/
theorem c130_nan_violated (row : List (Option ℝ)) (h : none ∈ row) : corrMatEnvelope [row] = [row.map fun _ => none] := by
  unfold corrMatEnvelope
  simp only [List.map_cons, List.map_nil, mapM_none row h]

/-- the hypotheses of C128 are met by the actual function -/
example : (∀ x, (hilbertIm x).length = x.length) ∧ (∀ c x, hilbertIm (x.map (c * ·)) = (hilbertIm x).map (c * ·)) ∧ ∀ a b, hilbertIm [a, b] = [0, 0] := by
  refine ⟨fun x => by simp [hilbertIm, analytic_length], fun c x => ?_, fun a b => ?_⟩
  · unfold hilbertIm
    rw [analytic_scaled, List.map_map, List.map_map]
    refine List.map_congr_left fun z _ => ?_
    simp only [Function.comp, Complex.im_ofReal_mul]
  · have h : ∀ j, j < 2 → ((analytic [a, b]).getD j 0).im = 0 := by
      intro j hj
      rw [analytic_getD [a, b] j hj]
      have e : ∀ m ∈ range [a, b].length, (hilbertFactor [a, b].length m : ℂ) * (Xcorr.dft [a, b] m * Xcorr.ex (j * m / [a, b].length)) =
          Xcorr.dft [a, b] m * Xcorr.ex (j * m / [a, b].length) := by
        intro m hm
        rw [mem_range] at hm
        have : hilbertFactor [a, b].length m = 1 := by
          simp only [List.length_cons, List.length_nil] at hm ⊢
          unfold hilbertFactor
          split_ifs <;> first | rfl | (exfalso; omega)
        rw [this]
        simp
      rw [Finset.sum_congr rfl e, idft [a, b] j hj, Complex.div_natCast_im, ← Complex.ofReal_natCast, ← Complex.ofReal_mul, Complex.ofReal_im, zero_div]
    have h0 := h 0 (by omega)
    have h1 := h 1 (by omega)
    unfold hilbertIm
    obtain ⟨u, v, huv⟩ := List.length_eq_two.1 (analytic_length [a, b])
    rw [huv] at h0 h1 ⊢
    simpa using And.intro h0 h1

end

end SeisMIC
