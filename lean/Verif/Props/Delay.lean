import Verif.Props.Xcorr
import Mathlib.Tactic.Push
import Mathlib.Tactic.Linarith
import Mathlib.Tactic.FieldSimp
import Mathlib.Tactic.SplitIfs
import Mathlib.Order.Interval.Finset.Nat
import Mathlib.Data.Int.Interval

/-!
# C185: a signal that arrives later at the second station is found at its delay
-/

namespace SeisMIC
namespace Xcorr

open Finset

/-- `y` (first sample at `t1`) is the recording `x` (first sample at `t0`), `D`
seconds later and multiplied by `c`. Both are zero outside of their windows, so
nothing of the signal is outside of one of the windows. -/
def DelayedCopy (sr t0 t1 D : Rat) (c : ℝ) (x y : List ℝ) : Prop :=
  ∀ t : Rat, valueAt t1 sr y t = c * valueAt t0 sr x (t - D)

theorem sampleAt_nat (x : List ℝ) (j : ℕ) : sampleAt x j = x.getD j 0 := by
  simp [sampleAt]

theorem sampleAt_out (x : List ℝ) (i : ℤ) (h : i < 0 ∨ (x.length : ℤ) ≤ i) : sampleAt x i = 0 := by
  unfold sampleAt
  split_ifs with h0
  · rcases h with h | h
    · omega
    · rw [List.getD_eq_default]; omega
  · rfl

theorem sum_range_int (n : ℕ) (g : ℤ → ℝ) : ∑ j ∈ range n, g j = ∑ i ∈ Finset.Ico (0 : ℤ) n, g i := by
  symm
  refine Finset.sum_bij (fun i _ => i.toNat) ?_ ?_ ?_ ?_
  · intro i hi; rw [Finset.mem_Ico] at hi; rw [mem_range]; omega
  · intro i hi j hj h; rw [Finset.mem_Ico] at hi hj; omega
  · intro j hj; rw [mem_range] at hj
    exact ⟨(j : ℤ), by rw [Finset.mem_Ico]; omega, by simp⟩
  · intro i hi; rw [Finset.mem_Ico] at hi
    rw [Int.toNat_of_nonneg hi.1]

/-- the part of a signal in a shifted window has not more energy than the signal -/
theorem energy_shift (x : List ℝ) (m : ℤ) :
    ∑ j ∈ range x.length, sampleAt x (j + m) ^ 2 ≤ energy x := by
  unfold energy
  have h1 : ∑ j ∈ range x.length, x.getD j 0 ^ 2 = ∑ j ∈ range x.length, sampleAt x (j : ℤ) ^ 2 := by
    apply Finset.sum_congr rfl; intro j _; rw [sampleAt_nat]
  rw [h1, sum_range_int x.length (fun i => sampleAt x (i + m) ^ 2), sum_range_int x.length (fun i => sampleAt x i ^ 2)]
  have h2 : ∑ i ∈ Finset.Ico (0 : ℤ) x.length, sampleAt x (i + m) ^ 2 =
      ∑ i ∈ (Finset.Ico (0 : ℤ) x.length).image (· + m), sampleAt x i ^ 2 := by
    rw [Finset.sum_image]
    intro a _ b _ h
    simpa using h
  rw [h2]
  calc _ = ∑ i ∈ ((Finset.Ico (0 : ℤ) x.length).image (· + m)).filter (fun i => i ∈ Finset.Ico (0 : ℤ) x.length),
          sampleAt x i ^ 2 := by
        symm
        apply Finset.sum_filter_of_ne
        intro i _ hne
        by_contra hout
        rw [Finset.mem_Ico] at hout
        apply hne
        rw [sampleAt_out x i (by omega)]; simp
    _ ≤ _ := by
        apply Finset.sum_le_sum_of_subset_of_nonneg
        · intro i hi; exact (Finset.mem_filter.1 hi).2
        · intro i _ _; positivity

/-- a signal that is not zero differs from its shifted version -/
theorem differs_shift (x : List ℝ) (m : ℤ) (hm : m ≠ 0) (hx : ∃ v ∈ x, v ≠ 0) :
    ∃ j ∈ range x.length, x.getD j 0 ≠ sampleAt x (j + m) := by
  by_contra hcon
  push Not at hcon
  have hz : ∀ j : ℕ, sampleAt x j = 0 := by
    rcases lt_or_gt_of_ne hm with hneg | hpos
    · intro j
      induction j using Nat.strong_induction_on with
      | _ j ih =>
        by_cases hj : j < x.length
        · rw [sampleAt_nat, hcon j (mem_range.2 hj)]
          by_cases h0 : (j : ℤ) + m < 0
          · exact sampleAt_out x _ (Or.inl h0)
          · have := ih ((j : ℤ) + m).toNat (by omega)
            rwa [Int.toNat_of_nonneg (by omega)] at this
        · exact sampleAt_out x _ (Or.inr (by omega))
    · have : ∀ k j : ℕ, x.length ≤ j + k → sampleAt x j = 0 := by
        intro k
        induction k using Nat.strong_induction_on with
        | _ k ih =>
          intro j hjk
          by_cases hj : j < x.length
          · rw [sampleAt_nat, hcon j (mem_range.2 hj)]
            have := ih (k - 1) (by omega) ((j : ℤ) + m).toNat (by omega)
            rwa [Int.toNat_of_nonneg (by omega)] at this
          · exact sampleAt_out x _ (Or.inr (by omega))
      intro j
      exact this x.length j (by omega)
  obtain ⟨v, hv, hv0⟩ := hx
  obtain ⟨j, hj, rfl⟩ := List.mem_iff_getElem.1 hv
  apply hv0
  have := hz j
  rw [sampleAt_nat] at this
  simpa [List.getD, hj] using this

theorem energy_pos (x : List ℝ) (hx : ∃ v ∈ x, v ≠ 0) : 0 < energy x := by
  obtain ⟨v, hv, hv0⟩ := hx
  obtain ⟨j, hj, rfl⟩ := List.mem_iff_getElem.1 hv
  unfold energy
  apply Finset.sum_pos'
  · intro i _; positivity
  · refine ⟨j, mem_range.2 hj, ?_⟩
    simp only [List.getD, hj, List.getElem?_eq_getElem, Option.getD_some]
    positivity

/-- the autocorrelation has its only largest value at lag zero -/
theorem auto_lt (x : List ℝ) (m : ℤ) (hm : m ≠ 0) (hx : ∃ v ∈ x, v ≠ 0) :
    ∑ j ∈ range x.length, x.getD j 0 * sampleAt x (j + m) < energy x := by
  obtain ⟨k, hk, hne⟩ := differs_shift x m hm hx
  have h1 : 0 < ∑ j ∈ range x.length, (x.getD j 0 - sampleAt x (j + m)) ^ 2 := by
    apply Finset.sum_pos'
    · intro i _; positivity
    · exact ⟨k, hk, by have := sub_ne_zero.2 hne; positivity⟩
  have h2 := energy_shift x m
  have h3 : ∑ j ∈ range x.length, (x.getD j 0 - sampleAt x (j + m)) ^ 2 =
      energy x + ∑ j ∈ range x.length, sampleAt x (j + m) ^ 2
        - 2 * ∑ j ∈ range x.length, x.getD j 0 * sampleAt x (j + m) := by
    unfold energy
    rw [Finset.mul_sum, ← Finset.sum_add_distrib, ← Finset.sum_sub_distrib]
    apply Finset.sum_congr rfl; intro j _; ring
  linarith

/-- correlation with a delayed copy: the autocorrelation around the delay -/
theorem corrAtLag_copy (sr t0 t1 D : Rat) (c : ℝ) (x y : List ℝ) (hsr : 0 < sr) (h : DelayedCopy sr t0 t1 D c x y)
    (m : ℤ) :
    corrAtLag t0 t1 sr x y (D + m / sr) = c * ∑ j ∈ range x.length, x.getD j 0 * sampleAt x (j + m) := by
  unfold corrAtLag
  rw [Finset.mul_sum]
  apply Finset.sum_congr rfl
  intro j _
  rw [h]
  have hq : (t0 + (j : Rat) / sr + (D + m / sr) - D - t0) * sr = (((j : ℤ) + m : ℤ) : Rat) := by
    have := hsr.ne'
    push_cast; field_simp; ring
  unfold valueAt
  rw [hq, Rat.den_intCast, if_pos rfl, Rat.num_intCast]
  ring

theorem corrRow_normalize (center : Bool) (sr lts : Rat) (N : ℕ) (t0 t1 : Rat) (B0 B1 : List ℂ) (row : List ℝ) (l : Rat)
    (h : corrRow center false sr lts N t0 t1 B0 B1 = .ok (row, l)) (normalize : Bool) :
    corrRow center normalize sr lts N t0 t1 B0 B1 = .ok (row.map (· / corrNorm normalize B0 B1), l) := by
  unfold corrRow at h ⊢
  simp only at h ⊢
  cases hi : irfft (crossSpectrum (rfftfreq N sr) (t0 - t1 - roffset center sr (t0 - t1)) B0 B1) with
  | error e => rw [hi] at h; cases h
  | ok tmp =>
    rw [hi] at h
    simp only [bind, Except.bind] at h ⊢
    split_ifs at h ⊢ with hl
    · simp only [pure, Except.pure] at h ⊢
      injection h with h
      injection h with h h'
      rw [← h, ← h']
      congr 2
      have : corrNorm false B0 B1 = 1 := by simp [corrNorm]
      simp [this]

theorem nonzero_of_copy (sr t0 t1 D : Rat) (c : ℝ) (x y : List ℝ) (hsr : 0 < sr) (h : DelayedCopy sr t0 t1 D c x y)
    (hc : c ≠ 0) (hx : ∃ v ∈ x, v ≠ 0) : ∃ v ∈ y, v ≠ 0 := by
  obtain ⟨v, hv, hv0⟩ := hx
  obtain ⟨j, hj, rfl⟩ := List.mem_iff_getElem.1 hv
  have h1 := h (t0 + (j : Rat) / sr + D)
  have hq : (t0 + (j : Rat) / sr + D - D - t0) * sr = ((j : ℤ) : Rat) := by
    have := hsr.ne'
    push_cast; field_simp; ring
  have h2 : valueAt t0 sr x (t0 + (j : Rat) / sr + D - D) = x[j] := by
    unfold valueAt
    rw [hq, Rat.den_intCast, if_pos rfl, Rat.num_intCast, sampleAt_nat]
    simp [List.getD, hj]
  rw [h2] at h1
  have h3 : valueAt t1 sr y (t0 + (j : Rat) / sr + D) ≠ 0 := by
    rw [h1]; exact mul_ne_zero hc hv0
  unfold valueAt at h3
  split_ifs at h3 with hd
  · unfold sampleAt at h3
    split_ifs at h3 with hp
    · refine ⟨_, ?_, h3⟩
      rw [List.getD] at h3 ⊢
      cases hg : y[((t0 + (j : Rat) / sr + D - t1) * sr).num.toNat]? with
      | none => rw [hg] at h3; simp at h3
      | some w => simpa using List.mem_of_getElem? hg
    · exact absurd rfl h3
  · exact absurd rfl h3

theorem energy_append_zeros (x : List ℝ) (n : ℕ) (hx : ∃ v ∈ x, v ≠ 0) : 0 < energy (x ++ List.replicate n 0) := by
  apply energy_pos
  obtain ⟨v, hv, h⟩ := hx
  exact ⟨v, List.mem_append_left _ hv, h⟩

theorem corrNorm_pos (normalize : Bool) (a b : List ℝ) (m : ℕ) (hm : 0 < m) (ha : a.length = 2 * m)
    (hab : a.length = b.length) (h0 : 0 < energy a) (h1 : 0 < energy b) :
    0 < corrNorm normalize (rfft a) (rfft b) := by
  unfold corrNorm
  cases normalize
  · simp
  · simp only [if_true]
    have e0 : 0 < normTerm (rfft a) := by
      rw [normTerm_rfft a m hm ha]
      have : (0 : ℝ) < a.length := by rw [ha]; exact_mod_cast (by omega : 0 < 2 * m)
      positivity
    have e1 : 0 < normTerm (rfft b) := by
      rw [normTerm_rfft b m hm (hab ▸ ha)]
      have : (0 : ℝ) < b.length := by rw [← hab, ha]; exact_mod_cast (by omega : 0 < 2 * m)
      positivity
    have : (0 : ℝ) < (((rfft a).length - 1) * 2 : ℕ) := by
      rw [rfft_length, ha]; exact_mod_cast (by omega)
    exact div_pos (mul_pos (Real.sqrt_pos.2 e0) (Real.sqrt_pos.2 e1)) this

/-- **C185** Let the second recording be the first one, `D` seconds later and
multiplied by `c`, with the whole signal inside both windows. Then the saved
correlation (normalised or not) has its only largest value at the lag `D` if `c`
is positive, and its only smallest value at the lag `D` if `c` is negative: a
signal that comes later to the second station is found at a positive lag.
Missing for the full property: odd padded lengths and fractions of samples, as
in C12, see below. -/
theorem c185_delay_partial (center normalize : Bool) (sr lts t0 t1 D : Rat) (c : ℝ) (x y : List ℝ) (s : ℕ) (d : ℤ)
    (hxy : x.length = y.length) (hsr : 0 < sr) (hlts : sr * lts = s) (hs : 1 ≤ s)
    (heven : Even (nextFastLen (x.length + s))) (hoff : (t0 - t1) * sr = d)
    (hshift : center = true → |d| + s ≤ nextFastLen (x.length + s) - x.length)
    (hnz : ∃ v ∈ x, v ≠ 0) (hcopy : DelayedCopy sr t0 t1 D c x y) (hc : c ≠ 0) :
    ∃ row startLag, correlate center normalize sr lts t0 t1 x y = .ok (row, startLag) ∧
      row.length = 2 * s + 1 ∧
      startLag = (if center then -(s : Rat) / sr else -(s : Rat) / sr - (t0 - t1)) ∧
      ∀ (k i : ℕ) (vk vi : ℝ), row[k]? = some vk → row[i]? = some vi → startLag + k / sr = D → i ≠ k →
        (0 < c → vi < vk) ∧ (c < 0 → vk < vi) := by
  have hx : x ≠ [] := by rintro rfl; obtain ⟨v, hv, _⟩ := hnz; cases hv
  obtain ⟨row, l, h1, hlen, hlag, hval⟩ :=
    c12_lag_and_no_wrap_partial center sr lts t0 t1 x y s d hxy hx hsr hlts hs heven hoff hshift
  have hfl : (⌊(x.length : Rat) + sr * lts⌋).toNat = x.length + s := by
    rw [hlts]
    have : ((x.length : Rat) + (s : Rat)) = ((x.length + s : ℕ) : Rat) := by push_cast; rfl
    rw [this, Int.floor_natCast]; exact Int.toNat_natCast _
  obtain ⟨m, hm⟩ := heven
  have hge := le_nextFastLen (x.length + s)
  rw [correlate_eq center false sr lts t0 t1 x y hxy] at h1
  rw [correlate_eq center normalize sr lts t0 t1 x y hxy]
  have hpos := corrNorm_pos normalize (x ++ List.replicate (nextFastLen (⌊(x.length : Rat) + sr * lts⌋).toNat - x.length) 0)
    (y ++ List.replicate (nextFastLen (⌊(x.length : Rat) + sr * lts⌋).toNat - x.length) 0) m (by omega)
    (by rw [hfl]; simp; omega) (by simp [hxy]) (energy_append_zeros _ _ hnz)
    (energy_append_zeros _ _ (nonzero_of_copy sr t0 t1 D c x y hsr hcopy hc hnz))
  refine ⟨_, _, corrRow_normalize _ _ _ _ _ _ _ _ _ _ h1 normalize, by simpa using hlen, hlag, ?_⟩
  intro k i vk vi hk hi hD hik
  rw [List.getElem?_map] at hk hi
  have lk : k ≤ 2 * s := by
    by_contra hn
    rw [List.getElem?_eq_none (by omega)] at hk; cases hk
  have li : i ≤ 2 * s := by
    by_contra hn
    rw [List.getElem?_eq_none (by omega)] at hi; cases hi
  rw [hval k lk] at hk
  rw [hval i li] at hi
  simp only [Option.map_some, Option.some.injEq] at hk hi
  have ek : corrAtLag t0 t1 sr x y (l + k / sr) = c * energy x := by
    have := corrAtLag_copy sr t0 t1 D c x y hsr hcopy 0
    rw [hD]
    simp only [Int.cast_zero, zero_div, add_zero] at this
    rw [this]
    congr 1
    unfold energy
    apply Finset.sum_congr rfl
    intro j _
    rw [sampleAt_nat]; ring
  have ei : corrAtLag t0 t1 sr x y (l + i / sr) =
      c * ∑ j ∈ range x.length, x.getD j 0 * sampleAt x (j + ((i : ℤ) - k)) := by
    have := corrAtLag_copy sr t0 t1 D c x y hsr hcopy ((i : ℤ) - k)
    rw [← this]
    congr 1
    rw [← hD]
    have := hsr.ne'
    push_cast; field_simp; ring
  have hlt := auto_lt x ((i : ℤ) - k) (by omega) hnz
  rw [ek] at hk
  rw [ei] at hi
  rw [← hk, ← hi]
  constructor
  · intro h
    exact div_lt_div_of_pos_right (mul_lt_mul_of_pos_left hlt h) hpos
  · intro h
    exact div_lt_div_of_pos_right (mul_lt_mul_of_neg_left hlt h) hpos

/-- a delayed copy, sample by sample -/
theorem delayedCopy_of (sr t0 t1 D : Rat) (c : ℝ) (x y : List ℝ) (e : ℤ) (he : (t1 - t0 - D) * sr = e)
    (h : ∀ n : ℤ, sampleAt y n = c * sampleAt x (n + e)) : DelayedCopy sr t0 t1 D c x y := by
  intro t
  unfold valueAt
  have : ((t - D - t0) * sr : Rat) = (t - t1) * sr + (e : Rat) := by rw [← he]; ring
  rw [this, Rat.add_intCast_den]
  split_ifs with hd
  · obtain ⟨n, hn⟩ : ∃ n : ℤ, (t - t1) * sr = n := ⟨_, ((Rat.den_eq_one_iff _).1 hd).symm⟩
    rw [hn, ← Int.cast_add, Rat.num_intCast, Rat.num_intCast]
    exact h n
  · simp

/-- a signal of two samples that comes one second later, doubled and with
opposite sign; the second of the two recordings starts one second before the
first one -/
theorem delayedCopy_example : DelayedCopy 1 10 9 1 (-2) [1, 2, 0, 0] [0, 0, -2, -4] := by
  refine delayedCopy_of 1 10 9 1 (-2) _ _ (-2) (by norm_num) fun n => ?_
  by_cases h : n < 0 ∨ 4 ≤ n
  · rw [sampleAt_out _ _ (by simpa using h)]
    by_cases h' : n + -2 < 0 ∨ 4 ≤ n + -2
    · rw [sampleAt_out _ _ (by simpa using h')]; simp
    · have : n = 4 ∨ n = 5 := by omega
      rcases this with rfl | rfl <;> simp [sampleAt]
  · have : n = 0 ∨ n = 1 ∨ n = 2 ∨ n = 3 := by omega
    rcases this with rfl | rfl | rfl | rfl <;> norm_num [sampleAt] <;> rfl

/-- its correlation (lags from -3 to 1 seconds) is smallest at the lag of one
second -/
example : ∃ row, correlate false true 1 2 10 9 [1, 2, 0, 0] [0, 0, -2, -4] = .ok (row, -3) ∧
    ∀ (i : ℕ) (v w : ℝ), i ≠ 4 → row[4]? = some v → row[i]? = some w → v < w := by
  have hN : nextFastLen (([1, 2, 0, 0] : List ℝ).length + 2) = 6 := nextFastLen_self 6 (by decide)
  obtain ⟨row, l, h1, _, h2, h3⟩ := c185_delay_partial false true 1 2 10 9 1 (-2) [1, 2, 0, 0] [0, 0, -2, -4] 2 1 rfl
    (by norm_num) (by norm_num) (by norm_num) (by rw [hN]; decide) (by norm_num) (by simp) ⟨1, by simp, by norm_num⟩
    delayedCopy_example (by norm_num)
  have hl : l = -3 := by rw [h2]; norm_num
  subst hl
  exact ⟨row, h1, fun i v w hi hv hw => (h3 4 i v w hv hw (by norm_num) hi).2 (by norm_num)⟩

/-- **C185** is violated if the padded length is odd: the recording `0, 1` is the
recording `1, 0` one sample later, and the value at the lag `-1` is as large as
the one at the lag `1`. -/
theorem c185_delay_violated :
    ∃ row, DelayedCopy 1 0 0 1 1 [1, 0] [0, 1] ∧
      correlate false false 1 1 0 0 [1, 0] [0, 1] = .ok (row, -1) ∧
      ∃ v : ℝ, row[0]? = some v ∧ row[2]? = some v := by
  refine ⟨_, ?_, c12_odd_length_violated.1, 3 / 4, by simp, by simp⟩
  refine delayedCopy_of 1 0 0 1 1 _ _ (-1) (by norm_num) fun n => ?_
  by_cases h : n < 0 ∨ 2 ≤ n
  · rw [sampleAt_out _ _ (by simpa using h)]
    by_cases h' : n + -1 < 0 ∨ 2 ≤ n + -1
    · rw [sampleAt_out _ _ (by simpa using h')]; simp
    · have : n = 2 := by omega
      subst this; simp [sampleAt]
  · have : n = 0 ∨ n = 1 := by omega
    rcases this with rfl | rfl <;> norm_num [sampleAt]

end Xcorr
end SeisMIC
