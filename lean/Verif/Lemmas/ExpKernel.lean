import Mathlib.Analysis.Matrix.Order
import Mathlib.Analysis.SpecialFunctions.Integrals.Basic
import Mathlib.MeasureTheory.Integral.IntervalIntegral.Periodic
import Mathlib.Analysis.SpecialFunctions.Complex.Arg
import Mathlib.Analysis.Normed.Algebra.Exponential
import Mathlib.Tactic.Linarith
import Mathlib.Algebra.Polynomial.Eval.Degree
import Mathlib.Algebra.Polynomial.BigOperators
import Verif.Model.Kernel

/-!
# The exponential of the distance is a covariance

For points of the plane the matrix `exp (-|x i - x j| / L)` is positive semidefinite.
-/

namespace SeisMIC

open Finset

/-- nonnegative quadratic form -/
def QForm {κ : Type} [Fintype κ] (A : κ → κ → ℝ) : Prop := ∀ c : κ → ℝ, 0 ≤ ∑ i, ∑ j, c i * c j * A i j

theorem min_form {κ : Type} [DecidableEq κ] : ∀ (n : Nat) (s : Finset κ), s.card = n → ∀ (a c : κ → ℝ), (∀ i ∈ s, 0 ≤ a i) →
    0 ≤ ∑ i ∈ s, ∑ j ∈ s, c i * c j * min (a i) (a j) := by
  intro n
  induction n with
  | zero => intro s hs a c _; rw [Finset.card_eq_zero.1 hs]; simp
  | succ n ih =>
    intro s hs a c ha
    have hne : s.Nonempty := by rw [← Finset.card_pos]; omega
    obtain ⟨i0, hi0, hmin⟩ := s.exists_min_image a hne
    have h1 : ∑ i ∈ s, ∑ j ∈ s, c i * c j * min (a i) (a j) =
        a i0 * (∑ i ∈ s, c i) ^ 2 + ∑ i ∈ s, ∑ j ∈ s, c i * c j * min (a i - a i0) (a j - a i0) := by
      rw [sq, Finset.sum_mul_sum, Finset.mul_sum, ← Finset.sum_add_distrib]
      refine Finset.sum_congr rfl fun i _ => ?_
      rw [Finset.mul_sum, ← Finset.sum_add_distrib]
      refine Finset.sum_congr rfl fun j _ => ?_
      rw [min_sub_sub_right]; ring
    have h2 : ∑ i ∈ s, ∑ j ∈ s, c i * c j * min (a i - a i0) (a j - a i0) =
        ∑ i ∈ s.erase i0, ∑ j ∈ s.erase i0, c i * c j * min (a i - a i0) (a j - a i0) := by
      rw [← Finset.add_sum_erase s _ hi0, Finset.sum_eq_zero, zero_add]
      · refine Finset.sum_congr rfl fun i hi => ?_
        rw [← Finset.add_sum_erase s _ hi0, sub_self, min_eq_right, mul_zero, zero_add]
        have := hmin i (Finset.mem_of_mem_erase hi); linarith
      · intro j hj
        rw [sub_self, min_eq_left, mul_zero]
        have := hmin j hj; linarith
    rw [h1, h2]
    have := ih (s.erase i0) (by rw [Finset.card_erase_of_mem hi0]; omega) (fun i => a i - a i0) c (fun i hi => by
      have := hmin i (Finset.mem_of_mem_erase hi)
      linarith)
    have h0 := ha i0 hi0
    positivity

theorem abs_combination (a b : ℝ) : |a| + |b| - |a - b| = 2 * min (max a 0) (max b 0) + 2 * min (max (-a) 0) (max (-b) 0) := by
  rcases le_total a 0 with ha | ha <;> rcases le_total b 0 with hb | hb <;> rcases le_total a b with hab | hab <;>
    simp [abs_of_nonneg, abs_of_nonpos, ha, hb] <;>
    first
    | (rw [abs_of_nonneg (by linarith)]; first | (rw [min_eq_left (by linarith)]; ring) | (rw [min_eq_right (by linarith)]; ring) | linarith)
    | (rw [abs_of_nonpos (by linarith)]; first | (rw [min_eq_left (by linarith)]; ring) | (rw [min_eq_right (by linarith)]; ring) | linarith)

theorem abs_form {κ : Type} [Fintype κ] (a : κ → ℝ) : QForm fun i j => |a i| + |a j| - |a i - a j| := by
  classical
  intro c
  have h1 := min_form _ (Finset.univ : Finset κ) rfl (fun i => max (a i) 0) c fun i _ => le_max_right _ _
  have h2 := min_form _ (Finset.univ : Finset κ) rfl (fun i => max (-a i) 0) c fun i _ => le_max_right _ _
  have : ∑ i, ∑ j, c i * c j * (|a i| + |a j| - |a i - a j|) =
      2 * (∑ i, ∑ j, c i * c j * min (max (a i) 0) (max (a j) 0)) + 2 * (∑ i, ∑ j, c i * c j * min (max (-a i) 0) (max (-a j) 0)) := by
    rw [Finset.mul_sum, Finset.mul_sum, ← Finset.sum_add_distrib]
    refine Finset.sum_congr rfl fun i _ => ?_
    rw [Finset.mul_sum, Finset.mul_sum, ← Finset.sum_add_distrib]
    refine Finset.sum_congr rfl fun j _ => ?_
    rw [abs_combination]; ring
  rw [this]; positivity

open Real intervalIntegral in
theorem integral_abs_cos (φ : ℝ) : ∫ θ in (0 : ℝ)..π, |cos (θ - φ)| = 2 := by
  have hper : Function.Periodic (fun θ => |cos θ|) π := by intro x; simp [cos_add_pi]
  have h1 : ∫ θ in (0 : ℝ)..π, |cos (θ - φ)| = ∫ θ in (0 - φ)..(π - φ), |cos θ| :=
    intervalIntegral.integral_comp_sub_right (fun θ => |cos θ|) φ
  have h2 := hper.intervalIntegral_add_eq (0 - φ) (-(π / 2))
  rw [h1, show π - φ = 0 - φ + π by ring, h2, show -(π / 2) + π = π / 2 by ring]
  have h3 : ∫ θ in (-(π / 2))..(π / 2), |cos θ| = ∫ θ in (-(π / 2))..(π / 2), cos θ := by
    refine intervalIntegral.integral_congr fun θ hθ => ?_
    rw [Set.uIcc_of_le (by linarith [pi_pos])] at hθ
    exact abs_of_nonneg (cos_nonneg_of_mem_Icc hθ)
  rw [h3, integral_cos]
  simp; norm_num

open Real in
theorem integral_direction (x y : ℝ) : ∫ θ in (0 : ℝ)..π, |x * cos θ + y * sin θ| = 2 * sqrt (x ^ 2 + y ^ 2) := by
  set z : ℂ := ⟨x, y⟩ with hz
  have hx : ‖z‖ * cos z.arg = x := Complex.norm_mul_cos_arg z
  have hy : ‖z‖ * sin z.arg = y := Complex.norm_mul_sin_arg z
  have hn : ‖z‖ = sqrt (x ^ 2 + y ^ 2) := by
    rw [Complex.norm_def, Complex.normSq_mk]; congr 1; ring
  have : ∀ θ, |x * cos θ + y * sin θ| = ‖z‖ * |cos (θ - z.arg)| := by
    intro θ
    have e : x * cos θ + y * sin θ = ‖z‖ * cos (θ - z.arg) := by
      rw [cos_sub]
      calc x * cos θ + y * sin θ = (‖z‖ * cos z.arg) * cos θ + (‖z‖ * sin z.arg) * sin θ := by rw [hx, hy]
        _ = _ := by ring
    rw [e, abs_mul, abs_of_nonneg (norm_nonneg z)]
  simp only [this]
  rw [intervalIntegral.integral_const_mul, integral_abs_cos, hn]; ring

/-- the Gram matrix of the distances from the origin -/
theorem dist_form {κ : Type} [Fintype κ] (pos : κ → ℝ × ℝ) :
    QForm fun i j => planeDist (pos i) 0 + planeDist (pos j) 0 - planeDist (pos i) (pos j) := by
  intro c
  let a : ℝ → κ → ℝ := fun θ i => (pos i).1 * Real.cos θ + (pos i).2 * Real.sin θ
  have hint : ∀ x y : ℝ, IntervalIntegrable (fun θ => |x * Real.cos θ + y * Real.sin θ|) MeasureTheory.volume 0 Real.pi := by
    intro x y
    apply Continuous.intervalIntegrable
    fun_prop
  have h1 : ∀ i, planeDist (pos i) 0 = 1 / 2 * ∫ θ in (0 : ℝ)..Real.pi, |a θ i| := by
    intro i
    rw [integral_direction]; simp [planeDist]
  have h2 : ∀ i j, planeDist (pos i) (pos j) = 1 / 2 * ∫ θ in (0 : ℝ)..Real.pi, |a θ i - a θ j| := by
    intro i j
    have : ∀ θ, a θ i - a θ j = ((pos i).1 - (pos j).1) * Real.cos θ + ((pos i).2 - (pos j).2) * Real.sin θ := by
      intro θ; simp only [a]; ring
    simp only [this]
    rw [integral_direction]; simp [planeDist]
  have ca : ∀ i, Continuous fun θ => a θ i := by intro i; simp only [a]; fun_prop
  have h3 : ∑ i, ∑ j, c i * c j * (planeDist (pos i) 0 + planeDist (pos j) 0 - planeDist (pos i) (pos j)) =
      1 / 2 * ∫ θ in (0 : ℝ)..Real.pi, ∑ i, ∑ j, c i * c j * (|a θ i| + |a θ j| - |a θ i - a θ j|) := by
    rw [intervalIntegral.integral_finsetSum, Finset.mul_sum]
    · refine Finset.sum_congr rfl fun i _ => ?_
      rw [intervalIntegral.integral_finsetSum, Finset.mul_sum]
      · refine Finset.sum_congr rfl fun j _ => ?_
        rw [intervalIntegral.integral_const_mul, intervalIntegral.integral_sub, intervalIntegral.integral_add, h1, h1, h2]
        · ring
        · exact (ca i).abs.intervalIntegrable _ _
        · exact (ca j).abs.intervalIntegrable _ _
        · exact ((ca i).abs.add (ca j).abs).intervalIntegrable _ _
        · exact ((ca i).sub (ca j)).abs.intervalIntegrable _ _
      · intro j _
        exact (((((ca i).abs.add (ca j).abs).sub ((ca i).sub (ca j)).abs)).const_smul (c i * c j)).intervalIntegrable _ _
    · intro i _
      refine Continuous.intervalIntegrable (continuous_finsetSum _ fun j _ => ?_) _ _
      exact (((ca i).abs.add (ca j).abs).sub ((ca i).sub (ca j)).abs).const_smul (c i * c j)
  rw [h3]
  refine mul_nonneg (by norm_num) (intervalIntegral.integral_nonneg Real.pi_pos.le fun θ _ => ?_)
  exact abs_form (a θ) c

theorem posSemidef_of_form {κ : Type} [Fintype κ] {A : Matrix κ κ ℝ} (hs : ∀ i j, A i j = A j i)
    (h : QForm fun i j => A i j) : A.PosSemidef := by
  refine Matrix.PosSemidef.of_dotProduct_mulVec_nonneg (by ext i j; simp [hs i j]) fun c => ?_
  have := h c
  simp only [dotProduct, Matrix.mulVec, Pi.star_apply, star_trivial, Finset.mul_sum]
  refine le_of_le_of_eq this (Finset.sum_congr rfl fun i _ => Finset.sum_congr rfl fun j _ => ?_)
  ring

theorem form_of_posSemidef {κ : Type} [Fintype κ] {A : Matrix κ κ ℝ} (h : A.PosSemidef) : QForm fun i j => A i j := by
  intro c
  have := h.dotProduct_mulVec_nonneg c
  simp only [dotProduct, Matrix.mulVec, Pi.star_apply, star_trivial, Finset.mul_sum] at this
  refine le_of_le_of_eq this (Finset.sum_congr rfl fun i _ => Finset.sum_congr rfl fun j _ => ?_)
  ring

theorem pow_form {κ : Type} [Fintype κ] {A : κ → κ → ℝ} (hs : ∀ i j, A i j = A j i) (h : QForm A) (n : Nat) :
    (Matrix.of fun i j => A i j ^ n : Matrix κ κ ℝ).PosSemidef := by
  induction n with
  | zero =>
    refine posSemidef_of_form (by simp) fun c => ?_
    simp only [pow_zero, Matrix.of_apply, mul_one]
    rw [← Finset.sum_mul_sum, ← sq]
    positivity
  | succ n ih =>
    have := ih.hadamard (posSemidef_of_form (A := Matrix.of A) (by simpa using hs) h)
    have e : (Matrix.of fun i j => A i j ^ (n + 1) : Matrix κ κ ℝ) =
        Matrix.hadamard (Matrix.of fun i j => A i j ^ n) (Matrix.of A) := by
      ext i j
      simp [Matrix.hadamard, pow_succ]
    rw [e]; exact this

theorem exp_form {κ : Type} [Fintype κ] {A : κ → κ → ℝ} (hs : ∀ i j, A i j = A j i) (h : QForm A) :
    QForm fun i j => Real.exp (A i j) := by
  intro c
  have h1 : HasSum (fun n : Nat => ∑ i, ∑ j, c i * c j * (A i j ^ n / n.factorial)) (∑ i, ∑ j, c i * c j * Real.exp (A i j)) := by
    refine hasSum_sum fun i _ => hasSum_sum fun j _ => ?_
    refine HasSum.mul_left _ ?_
    have := NormedSpace.expSeries_div_hasSum_exp (A i j)
    rwa [← Real.exp_eq_exp_ℝ] at this
  refine h1.nonneg fun n => ?_
  have h2 := form_of_posSemidef (pow_form hs h n) c
  simp only [Matrix.of_apply] at h2
  have : ∑ i, ∑ j, c i * c j * (A i j ^ n / n.factorial) = (∑ i, ∑ j, c i * c j * A i j ^ n) / n.factorial := by
    rw [Finset.sum_div]
    refine Finset.sum_congr rfl fun i _ => ?_
    rw [Finset.sum_div]
    refine Finset.sum_congr rfl fun j _ => by ring
  rw [this]; positivity

/-- `exp (-distance / length)` is positive semidefinite -/
theorem exp_dist_form {κ : Type} [Fintype κ] (pos : κ → ℝ × ℝ) (L : ℝ) (hL : 0 < L) :
    QForm fun i j => Real.exp (-planeDist (pos i) (pos j) / L) := by
  have hc : ∀ p q : ℝ × ℝ, planeDist p q = planeDist q p := by intro p q; unfold planeDist; congr 1; ring
  have h := exp_form (A := fun i j => (planeDist (pos i) 0 + planeDist (pos j) 0 - planeDist (pos i) (pos j)) / L)
    (by intro i j; rw [hc (pos i) (pos j)]; ring) (by
      intro c
      have := dist_form pos c
      have e : ∑ i, ∑ j, c i * c j * ((planeDist (pos i) 0 + planeDist (pos j) 0 - planeDist (pos i) (pos j)) / L) =
          (∑ i, ∑ j, c i * c j * (planeDist (pos i) 0 + planeDist (pos j) 0 - planeDist (pos i) (pos j))) / L := by
        rw [Finset.sum_div]
        refine Finset.sum_congr rfl fun i _ => ?_
        rw [Finset.sum_div]
        refine Finset.sum_congr rfl fun j _ => by ring
      rw [e]; positivity)
  intro c
  have := h fun i => c i * Real.exp (-planeDist (pos i) 0 / L)
  refine le_of_le_of_eq this (Finset.sum_congr rfl fun i _ => Finset.sum_congr rfl fun j _ => ?_)
  have e : Real.exp (-planeDist (pos i) (pos j) / L) = Real.exp (-planeDist (pos i) 0 / L) * Real.exp (-planeDist (pos j) 0 / L) *
      Real.exp ((planeDist (pos i) 0 + planeDist (pos j) 0 - planeDist (pos i) (pos j)) / L) := by
    rw [← Real.exp_add, ← Real.exp_add]; congr 1; ring
  simp only [e]; ring

/-! ### Strictly positive for distinct points -/

/-- if the form of the exponential vanishes at `c`, all powers of the matrix annihilate `c` -/
theorem exp_form_zero {κ : Type} [Fintype κ] {A : κ → κ → ℝ} (hs : ∀ i j, A i j = A j i) (h : QForm A) (c : κ → ℝ)
    (h0 : ∑ i, ∑ j, c i * c j * Real.exp (A i j) = 0) (n : Nat) (i : κ) : ∑ j, A i j ^ n * c j = 0 := by
  have h1 : HasSum (fun n : Nat => ∑ i, ∑ j, c i * c j * (A i j ^ n / n.factorial)) (∑ i, ∑ j, c i * c j * Real.exp (A i j)) := by
    refine hasSum_sum fun i _ => hasSum_sum fun j _ => ?_
    refine HasSum.mul_left _ ?_
    have := NormedSpace.expSeries_div_hasSum_exp (A i j)
    rwa [← Real.exp_eq_exp_ℝ] at this
  have hn : ∀ n, ∑ i, ∑ j, c i * c j * (A i j ^ n / n.factorial) = (∑ i, ∑ j, c i * c j * A i j ^ n) / n.factorial := by
    intro n
    rw [Finset.sum_div]
    refine Finset.sum_congr rfl fun i _ => ?_
    rw [Finset.sum_div]
    refine Finset.sum_congr rfl fun j _ => by ring
  have hp : ∀ n, 0 ≤ ∑ i, ∑ j, c i * c j * (A i j ^ n / n.factorial) := by
    intro n
    have h2 := form_of_posSemidef (pow_form hs h n) c
    simp only [Matrix.of_apply] at h2
    rw [hn]; positivity
  rw [h0] at h1
  have hz : (fun n : Nat => ∑ i, ∑ j, c i * c j * (A i j ^ n / n.factorial)) = 0 := (hasSum_zero_iff_of_nonneg hp).1 h1
  have hz' := congrFun hz n
  simp only [Pi.zero_apply] at hz'
  rw [hn] at hz'
  have hf : (n.factorial : ℝ) ≠ 0 := by exact_mod_cast n.factorial_ne_zero
  have h3 : ∑ i, ∑ j, c i * c j * A i j ^ n = 0 := by
    rcases div_eq_zero_iff.1 hz' with h | h
    · exact h
    · exact absurd h hf
  have h4 := (pow_form hs h n).dotProduct_mulVec_zero_iff c
  have h5 : star c ⬝ᵥ (Matrix.of fun i j => A i j ^ n : Matrix κ κ ℝ).mulVec c = 0 := by
    rw [← h3]
    simp only [dotProduct, Matrix.mulVec, Pi.star_apply, star_trivial, Finset.mul_sum, Matrix.of_apply]
    exact Finset.sum_congr rfl fun i _ => Finset.sum_congr rfl fun j _ => by ring
  exact congrFun (h4.1 h5) i

/-- numbers whose weighted power sums vanish: the weights of equal numbers cancel -/
theorem weights_zero {κ : Type} [Fintype κ] (a c : κ → ℝ) (h : ∀ n : Nat, ∑ j, a j ^ n * c j = 0) (i : κ)
    (hi : ∀ j, a j = a i → j ≠ i → c j = 0) : c i = 0 := by
  classical
  have hpoly : ∀ p : Polynomial ℝ, ∑ j, p.eval (a j) * c j = 0 := by
    intro p
    simp only [Polynomial.eval_eq_sum_range, Finset.sum_mul]
    rw [Finset.sum_comm]
    refine Finset.sum_eq_zero fun n _ => ?_
    have := h n
    calc ∑ j, p.coeff n * a j ^ n * c j = p.coeff n * ∑ j, a j ^ n * c j := by
          rw [Finset.mul_sum]; exact Finset.sum_congr rfl fun j _ => by ring
      _ = 0 := by rw [this, mul_zero]
  let s : Finset ℝ := (Finset.univ.image a).erase (a i)
  let p : Polynomial ℝ := ∏ v ∈ s, (Polynomial.X - Polynomial.C v)
  have hev : ∀ x, p.eval x = ∏ v ∈ s, (x - v) := by intro x; simp [p, Polynomial.eval_prod]
  have h1 := hpoly p
  rw [← Finset.add_sum_erase _ _ (Finset.mem_univ i), Finset.sum_eq_zero (s := Finset.univ.erase i), add_zero] at h1
  · rcases mul_eq_zero.1 h1 with h2 | h2
    · exfalso
      rw [hev, Finset.prod_eq_zero_iff] at h2
      obtain ⟨v, hv, hv0⟩ := h2
      exact (Finset.mem_erase.1 hv).1 (sub_eq_zero.1 hv0).symm
    · exact h2
  · intro j hj
    by_cases hji : a j = a i
    · rw [hi j hji (Finset.mem_erase.1 hj).1, mul_zero]
    · rw [hev, Finset.prod_eq_zero (i := a j), zero_mul]
      · exact Finset.mem_erase.2 ⟨hji, Finset.mem_image_of_mem _ (Finset.mem_univ _)⟩
      · ring

/-- `exp (-distance / length)` is positive definite for distinct points -/
theorem exp_dist_pos {κ : Type} [Fintype κ] (pos : κ → ℝ × ℝ) (hpos : Function.Injective pos) (L : ℝ) (hL : 0 < L) (c : κ → ℝ)
    (h0 : ∑ i, ∑ j, c i * c j * Real.exp (-planeDist (pos i) (pos j) / L) = 0) : c = 0 := by
  have hc : ∀ p q : ℝ × ℝ, planeDist p q = planeDist q p := by intro p q; unfold planeDist; congr 1; ring
  let A : κ → κ → ℝ := fun i j => (planeDist (pos i) 0 + planeDist (pos j) 0 - planeDist (pos i) (pos j)) / L
  have hs : ∀ i j, A i j = A j i := by intro i j; simp only [A]; rw [hc (pos i) (pos j)]; ring
  have hA : QForm A := by
    intro c
    have := dist_form pos c
    have e : ∑ i, ∑ j, c i * c j * A i j =
        (∑ i, ∑ j, c i * c j * (planeDist (pos i) 0 + planeDist (pos j) 0 - planeDist (pos i) (pos j))) / L := by
      rw [Finset.sum_div]
      refine Finset.sum_congr rfl fun i _ => ?_
      rw [Finset.sum_div]
      refine Finset.sum_congr rfl fun j _ => by simp only [A]; ring
    rw [e]; positivity
  let d : κ → ℝ := fun i => c i * Real.exp (-planeDist (pos i) 0 / L)
  have h1 : ∑ i, ∑ j, d i * d j * Real.exp (A i j) = 0 := by
    rw [← h0]
    refine Finset.sum_congr rfl fun i _ => Finset.sum_congr rfl fun j _ => ?_
    have e : Real.exp (-planeDist (pos i) (pos j) / L) = Real.exp (-planeDist (pos i) 0 / L) * Real.exp (-planeDist (pos j) 0 / L) *
        Real.exp (A i j) := by
      rw [← Real.exp_add, ← Real.exp_add]; congr 1; simp only [A]; ring
    simp only [e, d]; ring
  have hz := exp_form_zero hs hA d h1
  by_contra hne
  have hd : ∀ i, d i = 0 ↔ c i = 0 := by intro i; simp [d, Real.exp_ne_zero]
  have hex : ∃ i, c i ≠ 0 := by
    by_contra hall
    exact hne (funext fun i => by_contra fun hi => hall ⟨i, hi⟩)
  classical
  obtain ⟨i0, hi0⟩ := hex
  obtain ⟨i, hi, hmax⟩ := (Finset.univ.filter fun i => c i ≠ 0).exists_max_image (fun i => planeDist (pos i) 0)
    ⟨i0, by simp [hi0]⟩
  simp only [Finset.mem_filter, Finset.mem_univ, true_and] at hi hmax
  refine hi ((hd i).1 (weights_zero (A i) d (fun n => hz n i) i fun j hj hji => ?_))
  rw [hd]
  by_contra hcj
  have hle := hmax j hcj
  have hself : planeDist (pos i) (pos i) = 0 := by simp [planeDist]
  have hd0 : planeDist (pos i) (pos j) ≤ 0 := by
    have : (planeDist (pos i) 0 + planeDist (pos j) 0 - planeDist (pos i) (pos j)) =
        (planeDist (pos i) 0 + planeDist (pos i) 0 - planeDist (pos i) (pos i)) := by
      have := congrArg (· * L) hj
      simpa [A, div_mul_cancel₀ _ hL.ne'] using this
    rw [hself] at this
    linarith
  have hsq : ((pos i).1 - (pos j).1) ^ 2 + ((pos i).2 - (pos j).2) ^ 2 = 0 := by
    have h6 : planeDist (pos i) (pos j) = 0 := le_antisymm hd0 (Real.sqrt_nonneg _)
    have h7 := (Real.sqrt_eq_zero (by positivity)).1 h6
    linarith
  have hx : (pos i).1 = (pos j).1 := by nlinarith [sq_nonneg ((pos i).1 - (pos j).1), sq_nonneg ((pos i).2 - (pos j).2)]
  have hy : (pos i).2 = (pos j).2 := by nlinarith [sq_nonneg ((pos i).1 - (pos j).1), sq_nonneg ((pos i).2 - (pos j).2)]
  exact hji (hpos (Prod.ext hx.symm hy.symm))

end SeisMIC
