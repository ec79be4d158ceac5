import Verif.Model.Xcorr
import Verif.Spec.Xcorr
import Mathlib.Tactic.Linarith
import Mathlib.Tactic.Ring
import Mathlib.Tactic.FieldSimp
import Mathlib.Data.List.GetD
import Mathlib.Algebra.Order.BigOperators.Ring.Finset

namespace SeisMIC
namespace Xcorr

open Complex Finset

/-- the exponential `exp(2πi q)` -/
noncomputable def ex (q : ℂ) : ℂ := exp (2 * Real.pi * I * q)

theorem ex_add (p q : ℂ) : ex (p + q) = ex p * ex q := by
  unfold ex; rw [mul_add, exp_add]

theorem ex_int (n : ℤ) : ex n = 1 := by
  unfold ex
  rw [show 2 * (Real.pi : ℂ) * I * n = n * (2 * Real.pi * I) by ring]
  exact exp_int_mul_two_pi_mul_I n

theorem ex_natMul (n : ℕ) (q : ℂ) : ex (n * q) = ex q ^ n := by
  unfold ex
  rw [← exp_nat_mul]; congr 1; ring

theorem conj_ex (q : ℝ) : (starRingEnd ℂ) (ex q) = ex (-q) := by
  unfold ex
  rw [← exp_conj]
  congr 1
  simp [Complex.conj_ofReal]
  left; exact Complex.conj_ofNat 2

theorem ex_half_nat (j : ℕ) : ex (j / 2) = (-1) ^ j := by
  rw [show (j : ℂ) / 2 = j * (1 / 2) by ring, ex_natMul]
  congr 1
  unfold ex
  rw [show 2 * (Real.pi : ℂ) * I * (1 / 2) = Real.pi * I by ring]
  exact exp_pi_mul_I

theorem orth (N : ℕ) (hN : 0 < N) (d : ℤ) :
    ∑ k ∈ range N, ex (k * d / N) = if (N : ℤ) ∣ d then (N : ℂ) else 0 := by
  have hN0 : (N : ℂ) ≠ 0 := by exact_mod_cast hN.ne'
  split
  · rename_i h
    obtain ⟨c, rfl⟩ := h
    rw [Finset.sum_congr rfl (g := fun _ => (1 : ℂ))]
    · simp
    · intro k _
      have : (k : ℂ) * ((N * c : ℤ) : ℂ) / N = ((k * c : ℤ) : ℂ) := by
        push_cast; field_simp
      rw [this, ex_int]
  · rename_i h
    have hroot : ex (d / N) ^ N = 1 := by
      rw [← ex_natMul, show (N : ℂ) * (d / N) = d by field_simp, ex_int]
    have hne : ex (d / N) ≠ 1 := by
      intro h1
      unfold ex at h1
      rw [exp_eq_one_iff] at h1
      obtain ⟨n, hn⟩ := h1
      apply h
      refine ⟨n, ?_⟩
      have h2 : (2 * (Real.pi : ℂ) * I) ≠ 0 := by
        simp [Real.pi_ne_zero]
      have h3 : (d : ℂ) / N = n := by
        apply mul_left_cancel₀ h2
        rw [hn]; ring
      rw [div_eq_iff hN0] at h3
      exact_mod_cast (by rw [h3]; ring : (d : ℂ) = N * n)
    have : ∀ k ∈ range N, ex (k * d / N) = ex (d / N) ^ k := by
      intro k _
      rw [← ex_natMul]; congr 1; ring
    rw [Finset.sum_congr rfl this, geom_sum_eq hne, hroot, sub_self, zero_div]

theorem dft_eq (x : List ℝ) (k : ℕ) :
    dft x k = ∑ j ∈ range x.length, (x.getD j 0 : ℂ) * ex (-(j * k / x.length)) := by
  unfold dft ex
  apply Finset.sum_congr rfl
  intro j _
  congr 2; ring

theorem conj_dft (x : List ℝ) (k : ℕ) :
    (starRingEnd ℂ) (dft x k) = ∑ j ∈ range x.length, (x.getD j 0 : ℂ) * ex (j * k / x.length) := by
  rw [dft_eq, map_sum]
  apply Finset.sum_congr rfl
  intro j _
  rw [map_mul, Complex.conj_ofReal]
  have := conj_ex (-((j : ℝ) * k / x.length))
  push_cast at this
  rw [this, neg_neg]

theorem dft_reflect (x : List ℝ) (k : ℕ) (hk : k ≤ x.length) :
    dft x (x.length - k) = (starRingEnd ℂ) (dft x k) := by
  rw [conj_dft, dft_eq]
  apply Finset.sum_congr rfl
  intro j hj
  have hN0 : (x.length : ℂ) ≠ 0 := by
    have := List.length_pos_iff.1 (Nat.lt_of_le_of_lt (Nat.zero_le j) (mem_range.1 hj))
    exact_mod_cast (List.length_pos_iff.2 this).ne'
  congr 1
  rw [Nat.cast_sub hk]
  rw [show -((j : ℂ) * (x.length - k) / x.length) = ((-j : ℤ) : ℂ) + j * k / x.length by
    push_cast; field_simp; ring]
  rw [ex_add, ex_int, one_mul]

/-- terms of the inverse transform of the cross spectrum at lag `l` -/
noncomputable def term (a b : List ℝ) (l : ℤ) (k : ℕ) : ℂ :=
  (starRingEnd ℂ) (dft a k) * dft b k * ex (k * l / a.length)

theorem sum_term (a b : List ℝ) (hab : a.length = b.length) (hN : 0 < a.length) (l : ℤ) :
    ∑ k ∈ range a.length, term a b l k = a.length * (circCorr a b l : ℂ) := by
  have hN0 : (a.length : ℂ) ≠ 0 := by exact_mod_cast hN.ne'
  have h1 : ∀ k ∈ range a.length, term a b l k =
      ∑ j ∈ range a.length, ∑ m ∈ range a.length,
        ((a.getD j 0 : ℂ) * (b.getD m 0 : ℂ)) * ex (k * ((j - m + l : ℤ) : ℂ) / a.length) := by
    intro k _
    unfold term
    rw [conj_dft, dft_eq, ← hab, Finset.sum_mul_sum, Finset.sum_mul]
    apply Finset.sum_congr rfl; intro j _
    rw [Finset.sum_mul]
    apply Finset.sum_congr rfl; intro m _
    rw [show ((k : ℂ) * ((j - m + l : ℤ) : ℂ) / a.length) =
      j * k / a.length + (-(m * k / a.length)) + k * l / a.length by push_cast; ring]
    rw [ex_add, ex_add]; ring
  rw [Finset.sum_congr rfl h1, Finset.sum_comm]
  unfold circCorr
  rw [Complex.ofReal_sum, Finset.mul_sum]
  apply Finset.sum_congr rfl; intro j _
  rw [Finset.sum_comm, Complex.ofReal_mul]
  have h2 : ∀ m ∈ range a.length, ∑ k ∈ range a.length,
      ((a.getD j 0 : ℂ) * (b.getD m 0 : ℂ)) * ex (k * ((j - m + l : ℤ) : ℂ) / a.length) =
      if m = (((j : ℤ) + l) % b.length).toNat then
        a.length * ((a.getD j 0 : ℂ) * (b.getD (((j : ℤ) + l) % b.length).toNat 0 : ℂ)) else 0 := by
    intro m hm
    rw [← Finset.mul_sum, orth _ hN]
    have hm := mem_range.1 hm
    have hNz : (0 : ℤ) < a.length := by exact_mod_cast hN
    have key : ((a.length : ℤ) ∣ (j - m + l : ℤ)) ↔ m = (((j : ℤ) + l) % b.length).toNat := by
      rw [← hab]
      have hr := Int.emod_nonneg ((j : ℤ) + l) hNz.ne'
      have hr2 := Int.emod_lt_of_pos ((j : ℤ) + l) hNz
      constructor
      · intro h
        have : ((j : ℤ) + l) % a.length = m := by
          have h3 : ((j : ℤ) + l) % a.length = (m : ℤ) % a.length := by
            obtain ⟨c, hc⟩ := h
            rw [show (j : ℤ) + l = m + a.length * c by omega, Int.add_mul_emod_self_left]
          rw [h3]; exact Int.emod_eq_of_lt (by omega) (by omega)
        omega
      · intro h
        have h4 : (m : ℤ) = ((j : ℤ) + l) % a.length := by omega
        have h5 := Int.emod_add_mul_ediv ((j : ℤ) + l) a.length
        exact ⟨((j : ℤ) + l) / a.length, by omega⟩
    by_cases h : m = (((j : ℤ) + l) % b.length).toNat
    · rw [if_pos (key.2 h), if_pos h, h]; ring
    · rw [if_neg (mt key.1 h), if_neg h, mul_zero]
  rw [Finset.sum_congr rfl h2, Finset.sum_ite_eq' ]
  rw [if_pos]
  rw [mem_range, ← hab]
  have hNz : (0 : ℤ) < a.length := by exact_mod_cast hN
  have hr := Int.emod_nonneg ((j : ℤ) + l) hNz.ne'
  have hr2 := Int.emod_lt_of_pos ((j : ℤ) + l) hNz
  omega

theorem term_reflect (a b : List ℝ) (hab : a.length = b.length) (l : ℤ) (k : ℕ) (hk : k ≤ a.length)
    (hN : 0 < a.length) : term a b l (a.length - k) = (starRingEnd ℂ) (term a b l k) := by
  have hN0 : (a.length : ℂ) ≠ 0 := by exact_mod_cast hN.ne'
  unfold term
  rw [map_mul, map_mul, dft_reflect a k hk]
  have h := dft_reflect b k (by omega)
  rw [← hab] at h
  rw [h]
  congr 1
  have := conj_ex ((k : ℝ) * l / a.length)
  push_cast at this
  rw [this, Nat.cast_sub hk]
  rw [show (((a.length : ℂ) - k) * l / a.length) = (l : ℂ) + -(k * l / a.length) by field_simp; ring]
  rw [ex_add, ex_int, one_mul]

theorem sum_half (m : ℕ) (hm : 0 < m) (F : ℕ → ℝ) (hF : ∀ k, k ≤ 2 * m → F (2 * m - k) = F k) :
    ∑ k ∈ range (2 * m), F k = F 0 + ∑ k ∈ Ico 1 m, 2 * F k + F m := by
  have h1 : ∑ k ∈ range (2 * m), F k = F 0 + ∑ k ∈ Ico 1 m, F k + F m + ∑ k ∈ Ico (m + 1) (2 * m), F k := by
    rw [Finset.range_eq_Ico, ← Finset.sum_Ico_consecutive F (Nat.zero_le m) (by omega : m ≤ 2 * m),
      Finset.sum_eq_sum_Ico_succ_bot hm, Finset.sum_eq_sum_Ico_succ_bot (by omega : m < 2 * m)]
    ring
  have h2 : ∑ k ∈ Ico (m + 1) (2 * m), F k = ∑ k ∈ Ico 1 m, F k := by
    have h3 := Finset.sum_Ico_reflect F 1 (show m ≤ 2 * m + 1 by omega)
    rw [show 2 * m + 1 - m = m + 1 by omega, show 2 * m + 1 - 1 = 2 * m by omega] at h3
    rw [← h3]
    apply Finset.sum_congr rfl
    intro k hk
    have := mem_Ico.1 hk
    exact hF k (by omega)
  rw [h1, h2, ← Finset.mul_sum]; ring

theorem getD_crossSpectrum (sr offset : Rat) (a b : List ℝ) (hab : a.length = b.length) (k : ℕ)
    (hk : k ≤ a.length / 2) :
    (crossSpectrum (rfftfreq a.length sr) offset (rfft a) (rfft b)).getD k 0 =
      (starRingEnd ℂ) (dft a k) * dft b k *
        exp (I * ((k * sr / a.length : Rat) : ℝ) * (offset : ℝ) * 2 * Real.pi) := by
  unfold crossSpectrum rfftfreq rfft
  simp only [List.getD]
  have : ∀ (l : List ℕ) (f g : ℕ → ℂ) (h : ℕ → Rat) (F : ℂ → ℂ → Rat → ℂ),
      List.zipWith3 F (l.map f) (l.map g) (l.map h) = l.map fun i => F (f i) (g i) (h i) := by
    intro l f g h F
    induction l with
    | nil => rfl
    | cons x l ih => simp [List.zipWith3, ih]
  rw [← hab, this]
  rw [List.getElem?_map, List.getElem?_range (by omega)]
  rfl

theorem length_crossSpectrum (sr offset : Rat) (a b : List ℝ) (hab : a.length = b.length) :
    (crossSpectrum (rfftfreq a.length sr) offset (rfft a) (rfft b)).length = a.length / 2 + 1 := by
  unfold crossSpectrum rfftfreq rfft
  rw [← hab]
  have : ∀ (l : List ℕ) (f g : ℕ → ℂ) (h : ℕ → Rat) (F : ℂ → ℂ → Rat → ℂ),
      List.zipWith3 F (l.map f) (l.map g) (l.map h) = l.map fun i => F (f i) (g i) (h i) := by
    intro l f g h F
    induction l with
    | nil => rfl
    | cons x l ih => simp [List.zipWith3, ih]
  rw [this]; simp

theorem irfft_cross (sr offset : Rat) (a b : List ℝ) (hab : a.length = b.length) (m : ℕ)
    (hm : 0 < m) (ha : a.length = 2 * m) (d : ℤ) (hd : offset * sr = d) :
    irfft (crossSpectrum (rfftfreq a.length sr) offset (rfft a) (rfft b)) =
      .ok ((List.range a.length).map fun j : ℕ => circCorr a b (j + d)) := by
  have hlen := length_crossSpectrum sr offset a b hab
  unfold irfft
  simp only [hlen]
  rw [show a.length / 2 + 1 - 1 = m by omega, if_neg (by omega), ha]
  congr 1
  apply List.map_congr_left
  intro j _
  have hN : 0 < a.length := by omega
  have hNc : (a.length : ℂ) ≠ 0 := by exact_mod_cast hN.ne'
  have hphase : ∀ k : ℕ, exp (I * ((k * sr / a.length : Rat) : ℝ) * (offset : ℝ) * 2 * Real.pi) =
      ex (k * d / a.length) := by
    intro k
    unfold ex
    congr 1
    have : (offset : ℂ) * sr = d := by exact_mod_cast congrArg (fun q : Rat => (q : ℂ)) hd
    push_cast
    rw [← this]; ring
  have hF : ∀ k, k ≤ m → term a b (j + d) k =
      (crossSpectrum (rfftfreq a.length sr) offset (rfft a) (rfft b)).getD k 0 *
        ex (j * k / a.length) := by
    intro k hk
    rw [getD_crossSpectrum _ _ _ _ hab _ (by omega), hphase]
    unfold term
    rw [mul_assoc _ (ex _) (ex _), ← ex_add]
    congr 2
    push_cast; ring
  have hsum := sum_term a b hab hN (j + d)
  have hre := congrArg Complex.re hsum
  rw [Complex.re_sum, ha, sum_half m hm (fun k => (term a b (j + d) k).re)] at hre
  · rw [show ((2 * m : ℕ) : ℂ) * (circCorr a b (j + d) : ℂ) = (((2 * m : ℕ) : ℝ) * circCorr a b (j + d) : ℝ) by
      push_cast; ring, Complex.ofReal_re] at hre
    have hm0 : ((2 * m : ℕ) : ℝ) ≠ 0 := by
      have : 2 * m ≠ 0 := by omega
      exact_mod_cast this
    rw [div_eq_iff hm0, mul_comm (circCorr _ _ _), ← hre]
    congr 1
    · congr 1
      · rw [hF 0 (by omega)]
        have : ex ((j : ℂ) * (0 : ℕ) / a.length) = 1 := by simpa using ex_int 0
        rw [this, mul_one, ha]
      · apply Finset.sum_congr rfl
        intro k hk
        have := mem_Ico.1 hk
        rw [hF k (by omega)]
        unfold ex
        rw [ha]
    · rw [hF m le_rfl]
      have : ex ((j : ℂ) * m / a.length) = ((-1) ^ j : ℝ) := by
        rw [ha]
        rw [show (j : ℂ) * m / ((2 * m : ℕ) : ℂ) = j / 2 by
          have : (m : ℂ) ≠ 0 := by exact_mod_cast hm.ne'
          push_cast; field_simp]
        rw [ex_half_nat]; push_cast; rfl
      rw [this, ha, mul_comm _ ((((-1) ^ j : ℝ)) : ℂ), Complex.re_ofReal_mul]; ring
  · intro k hk
    have := term_reflect a b hab (j + d) k (by omega) hN
    rw [ha] at this
    simp only [this, Complex.conj_re]

/-! ### Norm -/

theorem dft_zero_im (x : List ℝ) : (dft x 0).im = 0 := by
  rw [dft_eq, Complex.im_sum]
  apply Finset.sum_eq_zero
  intro j _
  have : ex (-((j : ℂ) * (0 : ℕ) / x.length)) = 1 := by simpa using ex_int 0
  rw [this, mul_one, Complex.ofReal_im]

theorem circCorr_self (x : List ℝ) : circCorr x x 0 = energy x := by
  unfold circCorr energy
  apply Finset.sum_congr rfl
  intro j hj
  have hj := mem_range.1 hj
  rw [show (((j : ℤ) + 0) % x.length).toNat = j by
    rw [add_zero, Int.emod_eq_of_lt (by omega) (by omega)]; simp]
  ring

theorem parseval (x : List ℝ) (hN : 0 < x.length) :
    ∑ k ∈ range x.length, normSq (dft x k) = x.length * energy x := by
  have h := sum_term x x rfl hN 0
  have hre := congrArg Complex.re h
  rw [circCorr_self, Complex.re_sum] at hre
  rw [show ((x.length : ℂ) * (energy x : ℂ)).re = x.length * energy x by
    rw [show (x.length : ℂ) = ((x.length : ℝ) : ℂ) by push_cast; rfl, ← Complex.ofReal_mul, Complex.ofReal_re]] at hre
  rw [← hre]
  apply Finset.sum_congr rfl
  intro k _
  unfold term
  rw [show (k : ℂ) * ((0 : ℤ) : ℂ) / x.length = ((0 : ℤ) : ℂ) by push_cast; ring, ex_int, mul_one, mul_comm, mul_conj,
    Complex.ofReal_re]

/-- alternating sum of the samples: the Fourier coefficient at the Nyquist
frequency -/
theorem dft_nyquist (x : List ℝ) (m : ℕ) (hm : 0 < m) (hx : x.length = 2 * m) :
    dft x m = ((∑ j ∈ range x.length, (-1) ^ j * x.getD j 0 : ℝ) : ℂ) := by
  rw [dft_eq, Complex.ofReal_sum]
  apply Finset.sum_congr rfl
  intro j _
  have hm0 : (m : ℂ) ≠ 0 := by exact_mod_cast hm.ne'
  rw [hx, show -((j : ℂ) * m / ((2 * m : ℕ) : ℂ)) = ((-j : ℤ) : ℂ) + j / 2 by push_cast; field_simp; ring,
    ex_add, ex_int, ex_half_nat]
  push_cast; ring

theorem sum_map_range (f : ℕ → ℝ) (n : ℕ) : ((List.range n).map f).sum = ∑ k ∈ range n, f k := by
  induction n with
  | zero => simp
  | succ n ih => rw [List.range_succ, List.map_append, List.sum_append, ih, Finset.sum_range_succ]; simp

theorem sum_map_getD (f : ℂ → ℝ) (B : List ℂ) : (B.map f).sum = ∑ k ∈ range B.length, f (B.getD k 0) := by
  rw [← sum_map_range]
  congr 1
  apply List.ext_getElem
  · simp
  · intro i h1 h2
    simp only [List.length_map] at h1
    simp [List.getD, h1]

theorem normTerm_rfft (x : List ℝ) (m : ℕ) (hm : 0 < m) (hx : x.length = 2 * m) :
    normTerm (rfft x) = x.length * energy x + (∑ j ∈ range x.length, (-1) ^ j * x.getD j 0) ^ 2 := by
  have hsum : ((rfft x).map normSq).sum = ∑ k ∈ range (m + 1), normSq (dft x k) := by
    unfold rfft
    rw [hx, show 2 * m / 2 = m by omega, List.map_map, sum_map_range]
    rfl
  have h0 : ((rfft x).getD 0 0).re ^ 2 = normSq (dft x 0) := by
    have : (rfft x).getD 0 0 = dft x 0 := by
      unfold rfft
      simp [List.getD]
    rw [this, normSq_apply, dft_zero_im]; ring
  have hp := parseval x (by omega)
  have hny := dft_nyquist x m hm hx
  have hhalf := sum_half m hm (fun k => normSq (dft x k)) (by
    intro k hk
    have := dft_reflect x k (by omega)
    rw [hx] at this
    simp only [this, normSq_conj])
  rw [hx] at hp
  rw [hhalf] at hp
  unfold normTerm
  rw [hsum, h0]
  have hnn : normSq (dft x m) = (∑ j ∈ range x.length, (-1) ^ j * x.getD j 0) ^ 2 := by
    rw [hny, normSq_ofReal]; ring
  rw [Finset.sum_range_succ, Finset.range_eq_Ico, Finset.sum_eq_sum_Ico_succ_bot hm, hx, ← hp, ← hx, ← hnn,
    ← Finset.mul_sum]
  ring

/-! ### Bound for arbitrary spectra -/

theorem zipWith3_getD (F : ℂ → ℂ → Rat → ℂ) (A B : List ℂ) (f : List Rat) (k : ℕ)
    (h1 : k < A.length) (h2 : k < B.length) (h3 : k < f.length) :
    (List.zipWith3 F A B f).getD k 0 = F (A.getD k 0) (B.getD k 0) (f.getD k 0) := by
  induction A generalizing B f k with
  | nil => simp at h1
  | cons a A ih =>
    cases B with
    | nil => simp at h2
    | cons b B =>
      cases f with
      | nil => simp at h3
      | cons c f =>
        cases k with
        | zero => simp [List.zipWith3]
        | succ k =>
          simp only [List.length_cons, Nat.add_lt_add_iff_right] at h1 h2 h3
          simpa [List.zipWith3] using ih B f k h1 h2 h3

theorem zipWith3_length (F : ℂ → ℂ → Rat → ℂ) (A B : List ℂ) (f : List Rat)
    (h2 : A.length = B.length) (h3 : A.length = f.length) :
    (List.zipWith3 F A B f).length = A.length := by
  induction A generalizing B f with
  | nil => simp [List.zipWith3]
  | cons a A ih =>
    cases B with
    | nil => simp at h2
    | cons b B =>
      cases f with
      | nil => simp at h3
      | cons c f =>
        simp only [List.length_cons, Nat.add_right_cancel_iff] at h2 h3
        simp [List.zipWith3, ih B f h2 h3]

theorem norm_phase (f offset : Rat) : ‖exp (I * (f : ℝ) * (offset : ℝ) * 2 * Real.pi)‖ = 1 := by
  rw [show I * ((f : ℝ) : ℂ) * ((offset : ℝ) : ℂ) * 2 * Real.pi = ((f * offset * 2 * Real.pi : ℝ) : ℂ) * I by
    push_cast; ring]
  exact norm_exp_ofReal_mul_I _

theorem norm_ex_real (q : ℝ) : ‖ex (q : ℂ)‖ = 1 := by
  unfold ex
  rw [show 2 * (Real.pi : ℂ) * I * (q : ℂ) = ((2 * Real.pi * q : ℝ) : ℂ) * I by push_cast; ring]
  exact norm_exp_ofReal_mul_I _

/-- the weight of a coefficient in the inverse real transform -/
def wt (m k : ℕ) : ℝ := if k = 0 ∨ k = m then 1 else 2

theorem sum_wt (m : ℕ) (hm : 0 < m) (g : ℕ → ℝ) :
    ∑ k ∈ range (m + 1), wt m k * g k = g 0 + ∑ k ∈ Ico 1 m, 2 * g k + g m := by
  rw [Finset.sum_range_succ, Finset.range_eq_Ico, Finset.sum_eq_sum_Ico_succ_bot hm]
  have : ∑ k ∈ Ico (0 + 1) m, wt m k * g k = ∑ k ∈ Ico 1 m, 2 * g k := by
    apply Finset.sum_congr rfl
    intro k hk
    have := mem_Ico.1 hk
    unfold wt
    rw [if_neg (by omega)]
  rw [this]
  simp [wt]

theorem normTerm_ge (B : List ℂ) (m : ℕ) (hm : 0 < m) (hB : B.length = m + 1) :
    ∑ k ∈ range (m + 1), wt m k * ‖B.getD k 0‖ ^ 2 ≤ normTerm B := by
  unfold normTerm
  rw [sum_map_getD, hB, sum_wt m hm]
  simp only [← Complex.normSq_eq_norm_sq]
  rw [Finset.sum_range_succ, Finset.range_eq_Ico, Finset.sum_eq_sum_Ico_succ_bot hm, ← Finset.mul_sum]
  have h1 : (B.getD 0 0).re ^ 2 ≤ normSq (B.getD 0 0) := by
    rw [normSq_apply]; nlinarith [sq_nonneg (B.getD 0 0).im]
  have h2 := normSq_nonneg (B.getD m 0)
  simp only [zero_add]
  nlinarith

theorem normTerm_nonneg (B : List ℂ) (hB : 1 ≤ B.length) : 0 ≤ normTerm B := by
  unfold normTerm
  have h1 : (B.getD 0 0).re ^ 2 ≤ normSq (B.getD 0 0) := by
    rw [normSq_apply]; nlinarith [sq_nonneg (B.getD 0 0).im]
  have h2 : normSq (B.getD 0 0) ≤ (B.map normSq).sum := by
    rw [sum_map_getD]
    exact Finset.single_le_sum (f := fun k => normSq (B.getD k 0)) (fun k _ => normSq_nonneg _) (mem_range.2 hB)
  have := normSq_nonneg (B.getD 0 0)
  linarith

theorem irfft_bound (freqs : List Rat) (offset : Rat) (B0 B1 : List ℂ) (m : ℕ) (hm : 0 < m)
    (h0 : B0.length = m + 1) (h1 : B1.length = m + 1) (hf : freqs.length = m + 1)
    (tmp : List ℝ) (h : irfft (crossSpectrum freqs offset B0 B1) = .ok tmp) (v : ℝ) (hv : v ∈ tmp) :
    |v| ≤ Real.sqrt (normTerm B0) * Real.sqrt (normTerm B1) / (2 * m : ℕ) := by
  have hlen : (crossSpectrum freqs offset B0 B1).length = m + 1 := by
    unfold crossSpectrum
    rw [zipWith3_length _ _ _ _ (h0.trans h1.symm) (h0.trans hf.symm), h0]
  unfold irfft at h
  rw [hlen] at h
  simp only [Nat.add_sub_cancel] at h
  rw [if_neg (by omega)] at h
  injection h with h
  rw [← h] at hv
  obtain ⟨j, _, rfl⟩ := List.mem_map.1 hv
  set M := crossSpectrum freqs offset B0 B1 with hM
  have hMk : ∀ k, k < m + 1 → ‖M.getD k 0‖ = ‖B0.getD k 0‖ * ‖B1.getD k 0‖ := by
    intro k hk
    rw [hM]; unfold crossSpectrum
    rw [zipWith3_getD _ _ _ _ _ (by omega) (by omega) (by omega)]
    rw [norm_mul, norm_mul, norm_phase, mul_one, RCLike.norm_conj]
  have hmpos : (0 : ℝ) < (2 * m : ℕ) := by
    have : 0 < 2 * m := by omega
    exact_mod_cast this
  rw [abs_div, abs_of_pos hmpos]
  apply div_le_div_of_nonneg_right _ hmpos.le
  have hb1 : |(M.getD 0 0).re + (∑ k ∈ Ico 1 m, 2 * (M.getD k 0 * exp (2 * Real.pi * I * (j * k / (2 * m : ℕ)))).re)
      + (M.getD m 0).re * (-1) ^ j| ≤ ∑ k ∈ range (m + 1), wt m k * (‖B0.getD k 0‖ * ‖B1.getD k 0‖) := by
    rw [sum_wt m hm]
    have e0 : |(M.getD 0 0).re| ≤ ‖B0.getD 0 0‖ * ‖B1.getD 0 0‖ := by
      rw [← hMk 0 (by omega)]; exact abs_re_le_norm _
    have em : |(M.getD m 0).re * (-1) ^ j| ≤ ‖B0.getD m 0‖ * ‖B1.getD m 0‖ := by
      rw [abs_mul, abs_pow, abs_neg, abs_one, one_pow, mul_one, ← hMk m (by omega)]; exact abs_re_le_norm _
    have ek : |∑ k ∈ Ico 1 m, 2 * (M.getD k 0 * exp (2 * Real.pi * I * (j * k / (2 * m : ℕ)))).re| ≤
        ∑ k ∈ Ico 1 m, 2 * (‖B0.getD k 0‖ * ‖B1.getD k 0‖) := by
      refine (Finset.abs_sum_le_sum_abs _ _).trans (Finset.sum_le_sum ?_)
      intro k hk
      have hk := mem_Ico.1 hk
      rw [abs_mul, abs_two]
      apply mul_le_mul_of_nonneg_left _ (by norm_num)
      refine (abs_re_le_norm _).trans ?_
      rw [norm_mul, hMk k (by omega)]
      have : exp (2 * Real.pi * I * ((j : ℂ) * k / (2 * m : ℕ))) = ex (((j : ℝ) * k / (2 * m : ℕ) : ℝ) : ℂ) := by
        unfold ex; push_cast; rfl
      rw [this, norm_ex_real, mul_one]
    calc _ ≤ |(M.getD 0 0).re| + |∑ k ∈ Ico 1 m, 2 * (M.getD k 0 * exp (2 * Real.pi * I * (j * k / (2 * m : ℕ)))).re|
          + |(M.getD m 0).re * (-1) ^ j| := (abs_add_le _ _).trans (add_le_add_left (abs_add_le _ _) _)
      _ ≤ _ := by linarith
  refine hb1.trans ?_
  have hcs : ∑ k ∈ range (m + 1), wt m k * (‖B0.getD k 0‖ * ‖B1.getD k 0‖) ≤
      Real.sqrt (∑ k ∈ range (m + 1), wt m k * ‖B0.getD k 0‖ ^ 2) *
      Real.sqrt (∑ k ∈ range (m + 1), wt m k * ‖B1.getD k 0‖ ^ 2) := by
    have hw : ∀ k, 0 ≤ wt m k := by intro k; unfold wt; split <;> norm_num
    have := Real.sum_mul_le_sqrt_mul_sqrt (range (m + 1)) (fun k => Real.sqrt (wt m k) * ‖B0.getD k 0‖)
      (fun k => Real.sqrt (wt m k) * ‖B1.getD k 0‖)
    refine le_trans (le_of_eq ?_) (this.trans (le_of_eq ?_))
    · apply Finset.sum_congr rfl
      intro k _
      rw [show Real.sqrt (wt m k) * ‖B0.getD k 0‖ * (Real.sqrt (wt m k) * ‖B1.getD k 0‖) =
        (Real.sqrt (wt m k) * Real.sqrt (wt m k)) * (‖B0.getD k 0‖ * ‖B1.getD k 0‖) by ring, Real.mul_self_sqrt (hw k)]
    · congr 2 <;>
      · apply Finset.sum_congr rfl
        intro k _
        rw [mul_pow, Real.sq_sqrt (hw k)]
  refine hcs.trans ?_
  exact mul_le_mul (Real.sqrt_le_sqrt (normTerm_ge B0 m hm h0)) (Real.sqrt_le_sqrt (normTerm_ge B1 m hm h1))
    (Real.sqrt_nonneg _) (Real.sqrt_nonneg _)

/-! ### Exchange of the traces -/

theorem irfft_congr_conj (M M' : List ℂ) (m : ℕ) (hm : 0 < m) (hM : M.length = m + 1) (hM' : M'.length = m + 1)
    (hc : ∀ k, k < m + 1 → M'.getD k 0 = (starRingEnd ℂ) (M.getD k 0)) :
    ∃ g : ℕ → ℝ, irfft M = .ok ((List.range (2 * m)).map g) ∧
      irfft M' = .ok ((List.range (2 * m)).map fun j => g ((2 * m - j) % (2 * m))) := by
  refine ⟨fun j : ℕ => ((M.getD 0 0).re
      + (∑ k ∈ Ico 1 m, 2 * (M.getD k 0 * exp (2 * Real.pi * I * (j * k / (2 * m : ℕ)))).re)
      + (M.getD m 0).re * (-1) ^ j) / (2 * m : ℕ), ?_, ?_⟩
  · unfold irfft
    rw [hM]; simp only [Nat.add_sub_cancel]; rw [if_neg (by omega)]
  · unfold irfft
    rw [hM']; simp only [Nat.add_sub_cancel]; rw [if_neg (by omega)]
    congr 1
    apply List.map_congr_left
    intro j hj
    have hj := List.mem_range.1 hj
    have hm0 : ((2 * m : ℕ) : ℂ) ≠ 0 := by
      have : 2 * m ≠ 0 := by omega
      exact_mod_cast this
    have hpow : (-1 : ℝ) ^ ((2 * m - j) % (2 * m)) = (-1) ^ j := by
      by_cases h : j = 0
      · subst h; simp
      · rw [Nat.mod_eq_of_lt (by omega)]
        have : Even (2 * m - j) ↔ Even j := by
          rw [Nat.even_iff, Nat.even_iff]; omega
        rcases Nat.even_or_odd j with he | ho
        · rw [he.neg_one_pow, (this.2 he).neg_one_pow]
        · rw [ho.neg_one_pow]
          exact (Nat.not_even_iff_odd.1 (mt this.1 (Nat.not_even_iff_odd.2 ho))).neg_one_pow
    rw [hpow, hc 0 (by omega), hc m (by omega), conj_re, conj_re]
    congr 3
    apply Finset.sum_congr rfl
    intro k hk
    have hk := mem_Ico.1 hk
    rw [hc k (by omega)]
    congr 1
    have hexp : exp (2 * Real.pi * I * (((2 * m - j) % (2 * m) : ℕ) * k / (2 * m : ℕ))) =
        (starRingEnd ℂ) (exp (2 * Real.pi * I * ((j : ℂ) * k / (2 * m : ℕ)))) := by
      have h1 := conj_ex ((j : ℝ) * k / (2 * m : ℕ))
      show ex _ = (starRingEnd ℂ) (ex _)
      have e1 : (((j : ℝ) * k / (2 * m : ℕ) : ℝ) : ℂ) = (j : ℂ) * k / (2 * m : ℕ) := by push_cast; rfl
      rw [e1] at h1
      rw [h1]
      by_cases h : j = 0
      · subst h; simp
      · rw [Nat.mod_eq_of_lt (by omega), Nat.cast_sub (by omega)]
        rw [show (((2 * m : ℕ) : ℂ) - j) * k / (2 * m : ℕ) = ((k : ℤ) : ℂ) + -(j * k / (2 * m : ℕ)) by
          rw [Int.cast_natCast]; field_simp; ring]
        rw [ex_add, ex_int, one_mul]
    rw [hexp, mul_re, mul_re, conj_re, conj_im, conj_re, conj_im]; ring

theorem crossSpectrum_conj (freqs : List Rat) (offset : Rat) (B0 B1 : List ℂ) (m : ℕ)
    (h0 : B0.length = m + 1) (h1 : B1.length = m + 1) (hf : freqs.length = m + 1) (k : ℕ) (hk : k < m + 1) :
    (crossSpectrum freqs (-offset) B1 B0).getD k 0 =
      (starRingEnd ℂ) ((crossSpectrum freqs offset B0 B1).getD k 0) := by
  unfold crossSpectrum
  rw [zipWith3_getD _ _ _ _ _ (by omega) (by omega) (by omega),
    zipWith3_getD _ _ _ _ _ (by omega) (by omega) (by omega)]
  rw [map_mul, map_mul, conj_conj, ← exp_conj, mul_comm ((starRingEnd ℂ) (B1.getD k 0))]
  congr 2
  simp [Complex.conj_ofReal]
  left
  exact (Complex.conj_ofNat 2).symm

/-! ### Cutting the centre -/

theorem cutCentre_length {α : Type} (s : ℕ) (tmp : List α) (hs : 1 ≤ s) (hn : s < tmp.length) :
    (cutCentre s tmp).length = 2 * s + 1 := by
  unfold cutCentre
  rw [if_neg (by omega)]
  simp; omega

theorem cutCentre_get {α : Type} (s : ℕ) (tmp : List α) (hs : 1 ≤ s) (hn : s < tmp.length) (i : ℕ) (hi : i ≤ 2 * s) :
    (cutCentre s tmp)[i]? = tmp[((i : ℤ) - s) % tmp.length |>.toNat]? := by
  unfold cutCentre
  rw [if_neg (by omega)]
  by_cases h : i < s
  · rw [List.getElem?_append_left (by simp; omega), List.getElem?_drop]
    congr 1
    have : ((i : ℤ) - s) % tmp.length = (i : ℤ) - s + tmp.length := by
      rw [← Int.add_emod_right]
      exact Int.emod_eq_of_lt (by omega) (by omega)
    rw [this]; omega
  · rw [List.getElem?_append_right (by simp; omega), List.length_drop, List.getElem?_take_of_lt (by omega)]
    congr 1
    rw [Int.emod_eq_of_lt (by omega) (by omega)]; omega

theorem cutCentre_reflect (s n : ℕ) (g : ℕ → ℝ) (hs : 1 ≤ s) (hn : s < n) :
    cutCentre s ((List.range n).map fun j => g ((n - j) % n)) =
      (cutCentre s ((List.range n).map g)).reverse := by
  have hl : ∀ h : ℕ → ℝ, ((List.range n).map h).length = n := by simp
  apply List.ext_getElem?
  intro i
  by_cases hi : i ≤ 2 * s
  · rw [cutCentre_get s _ hs (by simpa using hn) i hi]
    rw [List.getElem?_reverse (by rw [cutCentre_length s _ hs (by simpa using hn)]; omega)]
    rw [cutCentre_length s _ hs (by simpa using hn), cutCentre_get s _ hs (by simpa using hn) _ (by omega)]
    simp only [hl]
    have hn0 : (0 : ℤ) < n := by omega
    have b1 := Int.emod_nonneg ((i : ℤ) - s) hn0.ne'
    have b2 := Int.emod_lt_of_pos ((i : ℤ) - s) hn0
    have b3 := Int.emod_nonneg (((2 * s + 1 - 1 - i : ℕ) : ℤ) - s) hn0.ne'
    have b4 := Int.emod_lt_of_pos (((2 * s + 1 - 1 - i : ℕ) : ℤ) - s) hn0
    rw [List.getElem?_map, List.getElem?_map, List.getElem?_range (by omega), List.getElem?_range (by omega)]
    simp only [Option.map_some]
    congr 2
    have hneg : (((2 * s + 1 - 1 - i : ℕ) : ℤ) - s) = -((i : ℤ) - s) := by omega
    rw [hneg] at b3 b4 ⊢
    by_cases h0 : (i : ℤ) - s = 0
    · rw [h0]; simp
    · by_cases hlt : (i : ℤ) < s
      · have e1 : ((i : ℤ) - s) % n = (i : ℤ) - s + n := by
          rw [← Int.add_emod_right]; exact Int.emod_eq_of_lt (by omega) (by omega)
        have e2 : (-((i : ℤ) - s)) % n = s - i := by
          rw [show -((i : ℤ) - s) = s - i by ring]; exact Int.emod_eq_of_lt (by omega) (by omega)
        rw [e1, e2, Nat.mod_eq_of_lt (by omega)]; omega
      · have e1 : ((i : ℤ) - s) % n = (i : ℤ) - s := Int.emod_eq_of_lt (by omega) (by omega)
        have e2 : (-((i : ℤ) - s)) % n = n + s - i := by
          rw [← Int.add_emod_right, show -((i : ℤ) - s) + n = n + s - i by ring]
          exact Int.emod_eq_of_lt (by omega) (by omega)
        rw [e1, e2, Nat.mod_eq_of_lt (by omega)]; omega
  · rw [List.getElem?_eq_none, List.getElem?_eq_none]
    · rw [List.length_reverse, cutCentre_length s _ hs (by simpa using hn)]; omega
    · rw [cutCentre_length s _ hs (by simpa using hn)]; omega

/-! ### No wrap-around -/

theorem circCorr_pad (x y : List ℝ) (hxy : x.length = y.length) (p : ℕ) (l : ℤ) (hl : |l| ≤ p) :
    circCorr (x ++ List.replicate p 0) (y ++ List.replicate p 0) l = linCorr x y l := by
  unfold circCorr linCorr
  rw [List.length_append, List.length_replicate]
  rw [← Finset.sum_subset (Finset.range_subset_range.2 (Nat.le_add_right x.length p))]
  · apply Finset.sum_congr rfl
    intro j hj
    have hj := mem_range.1 hj
    rw [List.getD_append _ _ _ _ hj]
    congr 1
    rw [List.length_append, List.length_replicate]
    unfold sampleAt
    have hpos : (0 : ℤ) < ((y.length + p : ℕ) : ℤ) := by omega
    have habs := abs_le.1 hl
    by_cases h : 0 ≤ (j : ℤ) + l
    · rw [if_pos h]
      by_cases h2 : (j : ℤ) + l < ((y.length + p : ℕ) : ℤ)
      · rw [Int.emod_eq_of_lt h h2]
        by_cases h3 : ((j : ℤ) + l).toNat < y.length
        · rw [List.getD_append _ _ _ _ h3]
        · rw [List.getD_append_right _ _ _ _ (by omega)]
          rw [List.getD_eq_default _ _ (by omega : y.length ≤ ((j : ℤ) + l).toNat)]
          simp [List.getD, List.getElem?_replicate]
          split <;> rfl
      · omega
    · rw [if_neg h]
      have e1 : ((j : ℤ) + l) % ((y.length + p : ℕ) : ℤ) = (j : ℤ) + l + ((y.length + p : ℕ) : ℤ) := by
        rw [← Int.add_emod_right]; exact Int.emod_eq_of_lt (by omega) (by omega)
      rw [e1, List.getD_append_right _ _ _ _ (by omega)]
      simp [List.getD, List.getElem?_replicate]
      split <;> rfl
  · intro j hj hj'
    have hj' : ¬ j < x.length := fun h => hj' (mem_range.2 h)
    rw [List.getD_append_right _ _ _ _ (by omega)]
    have : (List.replicate p (0 : ℝ)).getD (j - x.length) 0 = 0 := by
      simp [List.getD, List.getElem?_replicate]
      split <;> rfl
    rw [this, zero_mul]

theorem circCorr_period (a b : List ℝ) (l l' : ℤ) (h : l % b.length = l' % b.length) :
    circCorr a b l = circCorr a b l' := by
  unfold circCorr
  apply Finset.sum_congr rfl
  intro j _
  rw [Int.add_emod, h, ← Int.add_emod]

end Xcorr
end SeisMIC
