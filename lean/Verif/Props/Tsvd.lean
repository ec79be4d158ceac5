import Verif.Model.Tsvd
import Verif.Props.InversionRun
import Mathlib.LinearAlgebra.Lagrange
import Mathlib.Analysis.Matrix.PosDef

/-!
# C139: the truncated inversion
-/

namespace SeisMIC

noncomputable section

open Matrix

/-- sum of squares -/
def sqNorm {n : Nat} (v : Fin n → ℝ) : ℝ := ∑ i, v i ^ 2

open Classical in
/-- the kernels without the singular values up to `c` -/
def keptPart {n nc k : Nat} (U : Matrix (Fin n) (Fin k) ℝ) (s : Fin k → ℝ) (Vt : Matrix (Fin k) (Fin nc) ℝ) (c : ℝ) : Matrix (Fin n) (Fin nc) ℝ :=
  U * diagonal (fun i => if s i > c then s i else 0) * Vt

/-! ### Lemmas -/

theorem sqNorm_eq {n : Nat} (v : Fin n → ℝ) : sqNorm v = v ⬝ᵥ v := by
  unfold sqNorm dotProduct
  exact Finset.sum_congr rfl fun i _ => sq _

theorem sqNorm_nonneg {n : Nat} (v : Fin n → ℝ) : 0 ≤ sqNorm v := Finset.sum_nonneg fun _ _ => sq_nonneg _

theorem sqNorm_zero {n : Nat} (v : Fin n → ℝ) (h : sqNorm v = 0) : v = 0 := by
  funext i
  have := (Finset.sum_eq_zero_iff_of_nonneg fun j _ => sq_nonneg (v j)).1 h i (Finset.mem_univ i)
  exact pow_eq_zero_iff (by norm_num) |>.1 this

theorem sqNorm_add {n : Nat} (v w : Fin n → ℝ) : sqNorm (v + w) = sqNorm v + 2 * (v ⬝ᵥ w) + sqNorm w := by
  simp only [sqNorm_eq, add_dotProduct, dotProduct_add, dotProduct_comm w v]
  ring

theorem sqNorm_isometry {n k : Nat} (U : Matrix (Fin n) (Fin k) ℝ) (h : Uᵀ * U = 1) (x : Fin k → ℝ) : sqNorm (U *ᵥ x) = sqNorm x := by
  rw [sqNorm_eq, sqNorm_eq, Matrix.dotProduct_mulVec, Matrix.vecMul_mulVec, h, Matrix.vecMul_one]

theorem sqNorm_diagonal_le {k : Nat} (f : Fin k → ℝ) (c : ℝ) (hf : ∀ i, |f i| ≤ c) (x : Fin k → ℝ) : sqNorm (diagonal f *ᵥ x) ≤ c ^ 2 * sqNorm x := by
  unfold sqNorm
  rw [Finset.mul_sum]
  refine Finset.sum_le_sum fun i _ => ?_
  rw [Matrix.mulVec_diagonal, mul_pow]
  refine mul_le_mul_of_nonneg_right ?_ (sq_nonneg _)
  rw [← sq_abs]
  exact pow_le_pow_left₀ (abs_nonneg _) (hf i) 2

/-- the projection is not longer -/
theorem sqNorm_project {nc k : Nat} (Vt : Matrix (Fin k) (Fin nc) ℝ) (h : Vt * Vtᵀ = 1) (x : Fin nc → ℝ) : sqNorm (Vt *ᵥ x) ≤ sqNorm x := by
  have e : sqNorm (x - Vtᵀ *ᵥ (Vt *ᵥ x)) = sqNorm x - sqNorm (Vt *ᵥ x) := by
    have h1 : sqNorm (Vtᵀ *ᵥ (Vt *ᵥ x)) = sqNorm (Vt *ᵥ x) := sqNorm_isometry Vtᵀ (by rw [Matrix.transpose_transpose]; exact h) _
    have h2 : x ⬝ᵥ (Vtᵀ *ᵥ (Vt *ᵥ x)) = sqNorm (Vt *ᵥ x) := by
      rw [sqNorm_eq, Matrix.dotProduct_mulVec, Matrix.vecMul_transpose]
    have h3 := sqNorm_add x (-(Vtᵀ *ᵥ (Vt *ᵥ x)))
    rw [dotProduct_neg, h2] at h3
    have h4 : sqNorm (-(Vtᵀ *ᵥ (Vt *ᵥ x))) = sqNorm (Vt *ᵥ x) := by
      rw [← h1]
      unfold sqNorm
      exact Finset.sum_congr rfl fun i _ => by simp
    rw [sub_eq_add_neg, h3, h4]
    ring
  have := sqNorm_nonneg (x - Vtᵀ *ᵥ (Vt *ᵥ x))
  linarith

/-- **C139** (least squares). The result `m` fits the data, with the kernels without the neglected singular values, as well as any model, and of all models
that fit as well it is the smallest one. -/
theorem c139_least_squares {n nc k : Nat} (G : Matrix (Fin n) (Fin nc) ℝ) (U : Matrix (Fin n) (Fin k) ℝ) (s : Fin k → ℝ) (Vt : Matrix (Fin k) (Fin nc) ℝ)
    (h : IsSvd G U s Vt) (cutoff : ℝ) (hc : 0 ≤ cutoff) (d : Fin n → ℝ) (m' : Fin nc → ℝ) :
    let K := keptPart U s Vt (cutoff * ⨆ j, s j)
    let m := truncPinv U s Vt cutoff *ᵥ d
    sqNorm (K *ᵥ m - d) ≤ sqNorm (K *ᵥ m' - d) ∧
      (sqNorm (K *ᵥ m' - d) = sqNorm (K *ᵥ m - d) → sqNorm m ≤ sqNorm m' ∧ (sqNorm m' = sqNorm m → m' = m)) := by
  classical
  intro K m
  have hmax : 0 ≤ cutoff * ⨆ j, s j := mul_nonneg hc (Real.iSup_nonneg h.nonneg)
  set c := cutoff * ⨆ j, s j with hcdef
  -- m lies in the rows of the kept part
  set f : Fin k → ℝ := fun i => if s i > c then s i else 0 with hf
  set g : Fin k → ℝ := fun i => if s i > c then (s i)⁻¹ else 0 with hg
  have hK : K = U * diagonal f * Vt := rfl
  have hm : m = Vtᵀ *ᵥ (diagonal g *ᵥ (Uᵀ *ᵥ d)) := by
    simp only [m, truncPinv, Matrix.mulVec_mulVec, ← hcdef]
    rfl
  have hfg : ∀ i, f i * (g i * f i) = f i := by
    intro i
    simp only [hf, hg]
    split
    · rename_i hi
      have : s i ≠ 0 := ne_of_gt (lt_of_le_of_lt hmax hi)
      field_simp
    · simp
  have hgf : ∀ i, g i = f i * (g i * g i) := by
    intro i
    simp only [hf, hg]
    split
    · rename_i hi
      have : s i ≠ 0 := ne_of_gt (lt_of_le_of_lt hmax hi)
      field_simp
    · simp
  -- normal equations
  have hVm : Vt *ᵥ m = diagonal g *ᵥ (Uᵀ *ᵥ d) := by
    rw [hm, Matrix.mulVec_mulVec, h.right, Matrix.one_mulVec]
  have hKm : K *ᵥ m = U *ᵥ (diagonal f *ᵥ (diagonal g *ᵥ (Uᵀ *ᵥ d))) := by
    rw [hK, ← Matrix.mulVec_mulVec, hVm, ← Matrix.mulVec_mulVec]
  have horth : ∀ x : Fin nc → ℝ, (K *ᵥ x) ⬝ᵥ (K *ᵥ m - d) = 0 := by
    intro x
    have hKt : Kᵀ *ᵥ (K *ᵥ m - d) = 0 := by
      have hKt : Kᵀ = Vtᵀ * (diagonal f * Uᵀ) := by
        rw [hK, Matrix.transpose_mul, Matrix.transpose_mul, Matrix.diagonal_transpose]
      have hd : diagonal f *ᵥ (Uᵀ *ᵥ (K *ᵥ m)) = diagonal f *ᵥ (Uᵀ *ᵥ d) := by
        rw [hKm, Matrix.mulVec_mulVec _ Uᵀ, h.left, Matrix.one_mulVec]
        funext i
        simp only [Matrix.mulVec_diagonal]
        rw [← hfg i]
        simp only [hf, hg]
        split
        · rename_i hi
          have : s i ≠ 0 := ne_of_gt (lt_of_le_of_lt hmax hi)
          field_simp
        · simp
      rw [hKt, Matrix.mulVec_sub, ← Matrix.mulVec_mulVec, ← Matrix.mulVec_mulVec, ← Matrix.mulVec_mulVec, ← Matrix.mulVec_mulVec, hd, sub_self]
    rw [dotProduct_comm, Matrix.dotProduct_mulVec, ← Matrix.mulVec_transpose, hKt, zero_dotProduct]
  have hsplit : sqNorm (K *ᵥ m' - d) = sqNorm (K *ᵥ (m' - m)) + sqNorm (K *ᵥ m - d) := by
    have : K *ᵥ m' - d = K *ᵥ (m' - m) + (K *ᵥ m - d) := by
      rw [Matrix.mulVec_sub]; abel
    rw [this, sqNorm_add, horth]
    ring
  constructor
  · have := sqNorm_nonneg (K *ᵥ (m' - m))
    linarith
  · intro heq
    have hz : K *ᵥ (m' - m) = 0 := sqNorm_zero _ (by linarith)
    have hfz : diagonal f *ᵥ (Vt *ᵥ (m' - m)) = 0 := by
      have : sqNorm (U *ᵥ (diagonal f *ᵥ (Vt *ᵥ (m' - m)))) = 0 := by
        rw [Matrix.mulVec_mulVec, Matrix.mulVec_mulVec, ← hK, hz]
        simp [sqNorm]
      rw [sqNorm_isometry U h.left] at this
      exact sqNorm_zero _ this
    have horth2 : m ⬝ᵥ (m' - m) = 0 := by
      generalize m' - m = x at hfz
      have : m = Vtᵀ *ᵥ (diagonal f *ᵥ (diagonal (fun i => g i * g i) *ᵥ (Uᵀ *ᵥ d))) := by
        rw [hm]
        congr 1
        funext i
        simp only [Matrix.mulVec_diagonal]
        rw [← mul_assoc, ← hgf i]
      rw [this, dotProduct_comm, Matrix.dotProduct_mulVec, Matrix.vecMul_transpose, Matrix.dotProduct_mulVec, ← Matrix.mulVec_transpose, Matrix.diagonal_transpose,
        hfz, zero_dotProduct]
    have hnorm : sqNorm m' = sqNorm m + sqNorm (m' - m) := by
      have : m' = m + (m' - m) := by abel
      conv_lhs => rw [this]
      rw [sqNorm_add, horth2]
      ring
    constructor
    · have := sqNorm_nonneg (m' - m)
      linarith
    · intro he
      have : m' - m = 0 := sqNorm_zero _ (by linarith)
      exact sub_eq_zero.1 this

/-- **C139** (what is neglected). The neglected part of the kernels changes the predicted data of a model by at most the cutoff times the largest singular
value, relative to the model. If all singular values other than zero are above the cutoff, nothing is neglected. -/
theorem c139_neglected {n nc k : Nat} (G : Matrix (Fin n) (Fin nc) ℝ) (U : Matrix (Fin n) (Fin k) ℝ) (s : Fin k → ℝ) (Vt : Matrix (Fin k) (Fin nc) ℝ)
    (h : IsSvd G U s Vt) (c : ℝ) (hc : 0 ≤ c) :
    (∀ x, sqNorm (G *ᵥ x - keptPart U s Vt c *ᵥ x) ≤ c ^ 2 * sqNorm x) ∧ ((∀ i, s i = 0 ∨ c < s i) → keptPart U s Vt c = G) := by
  classical
  constructor
  · intro x
    have e : G *ᵥ x - keptPart U s Vt c *ᵥ x = U *ᵥ (diagonal (fun i => if s i > c then 0 else s i) *ᵥ (Vt *ᵥ x)) := by
      rw [← h.product]
      unfold keptPart
      simp only [← Matrix.mulVec_mulVec]
      rw [← Matrix.mulVec_sub]
      congr 1
      funext i
      simp only [Pi.sub_apply, Matrix.mulVec_diagonal]
      split <;> ring
    rw [e, sqNorm_isometry U h.left]
    refine le_trans (sqNorm_diagonal_le _ c (fun i => ?_) _) (mul_le_mul_of_nonneg_left (sqNorm_project Vt h.right x) (sq_nonneg _))
    split
    · simpa using hc
    · rename_i hi
      rw [abs_of_nonneg (h.nonneg i)]
      exact not_lt.1 hi
  · intro ha
    unfold keptPart
    rw [← h.product]
    congr 3
    funext i
    rcases ha i with hi | hi
    · rw [hi]; simp
    · rw [if_pos hi]

/-! ### The decomposition does not matter -/

theorem svd_max_le {n nc k k' : Nat} (G : Matrix (Fin n) (Fin nc) ℝ) (U : Matrix (Fin n) (Fin k) ℝ) (s : Fin k → ℝ) (Vt : Matrix (Fin k) (Fin nc) ℝ)
    (U' : Matrix (Fin n) (Fin k') ℝ) (s' : Fin k' → ℝ) (Vt' : Matrix (Fin k') (Fin nc) ℝ) (h : IsSvd G U s Vt) (h' : IsSvd G U' s' Vt') :
    ⨆ j, s j ≤ ⨆ j, s' j := by
  have hM : 0 ≤ ⨆ j, s' j := Real.iSup_nonneg h'.nonneg
  refine Real.iSup_le (fun j => ?_) hM
  have hle : ∀ x, sqNorm (G *ᵥ x) ≤ (⨆ j, s' j) ^ 2 * sqNorm x := by
    intro x
    rw [← h'.product, ← Matrix.mulVec_mulVec, ← Matrix.mulVec_mulVec, sqNorm_isometry U' h'.left]
    refine le_trans (sqNorm_diagonal_le s' _ (fun i => ?_) _) (mul_le_mul_of_nonneg_left (sqNorm_project Vt' h'.right x) (sq_nonneg _))
    rw [abs_of_nonneg (h'.nonneg i)]
    exact le_ciSup (Set.finite_range s').bddAbove i
  have h1 : sqNorm (Vtᵀ *ᵥ Pi.single j 1) = 1 := by
    rw [sqNorm_isometry Vtᵀ (by rw [Matrix.transpose_transpose]; exact h.right)]
    unfold sqNorm
    rw [Finset.sum_eq_single j (fun b _ hb => by simp [Pi.single_eq_of_ne hb]) (by simp)]
    simp
  have h2 : sqNorm (G *ᵥ (Vtᵀ *ᵥ Pi.single j 1)) = s j ^ 2 := by
    rw [← h.product, ← Matrix.mulVec_mulVec, ← Matrix.mulVec_mulVec, sqNorm_isometry U h.left, Matrix.mulVec_mulVec _ Vt, h.right, Matrix.one_mulVec]
    unfold sqNorm
    rw [Finset.sum_eq_single j (fun b _ hb => by simp [Matrix.mulVec_diagonal, Pi.single_eq_of_ne hb]) (by simp)]
    simp [Matrix.mulVec_diagonal]
  have h3 := hle (Vtᵀ *ᵥ Pi.single j 1)
  rw [h1, h2, mul_one] at h3
  exact le_of_sq_le_sq h3 hM

open Polynomial in
theorem aeval_svd {n nc k : Nat} (G : Matrix (Fin n) (Fin nc) ℝ) (U : Matrix (Fin n) (Fin k) ℝ) (s : Fin k → ℝ) (Vt : Matrix (Fin k) (Fin nc) ℝ)
    (h : IsSvd G U s Vt) (p : ℝ[X]) : aeval (Gᵀ * G) p * Vtᵀ = Vtᵀ * diagonal fun i => p.eval (s i ^ 2) := by
  have hG : Gᵀ * G * Vtᵀ = Vtᵀ * diagonal fun i => s i ^ 2 := by
    rw [← h.product]
    simp only [Matrix.transpose_mul, Matrix.diagonal_transpose, Matrix.mul_assoc, h.right, Matrix.mul_one]
    rw [← Matrix.mul_assoc Uᵀ, h.left, Matrix.one_mul, Matrix.diagonal_mul_diagonal]
    congr 2
    funext i
    ring
  induction p using Polynomial.induction_on' with
  | add p q hp hq =>
    rw [map_add, Matrix.add_mul, hp, hq, ← Matrix.mul_add, Matrix.diagonal_add]
    congr 2
    funext i
    rw [Polynomial.eval_add]
  | monomial j a =>
    rw [Polynomial.aeval_monomial]
    have hpow : ∀ j : Nat, (Gᵀ * G) ^ j * Vtᵀ = Vtᵀ * diagonal fun i => (s i ^ 2) ^ j := by
      intro j
      induction j with
      | zero => simp
      | succ j ih =>
        rw [pow_succ, Matrix.mul_assoc, hG, ← Matrix.mul_assoc, ih, Matrix.mul_assoc, Matrix.diagonal_mul_diagonal]
        congr 2
    rw [Matrix.mul_assoc, hpow, Matrix.algebraMap_eq_diagonal]
    ext x y
    simp [Matrix.diagonal_mul, Matrix.mul_diagonal, Polynomial.eval_monomial]
    ring

theorem truncPinv_poly {n nc k : Nat} (G : Matrix (Fin n) (Fin nc) ℝ) (U : Matrix (Fin n) (Fin k) ℝ) (s : Fin k → ℝ) (Vt : Matrix (Fin k) (Fin nc) ℝ)
    (h : IsSvd G U s Vt) (cutoff : ℝ) (hc : 0 ≤ cutoff) (p : Polynomial ℝ)
    (hp : ∀ i, p.eval (s i ^ 2) = open Classical in if s i > cutoff * ⨆ j, s j then (s i ^ 2)⁻¹ else 0) :
    truncPinv U s Vt cutoff = Polynomial.aeval (Gᵀ * G) p * Gᵀ := by
  classical
  have hmax : 0 ≤ cutoff * ⨆ j, s j := mul_nonneg hc (Real.iSup_nonneg h.nonneg)
  have hGt : Gᵀ = Vtᵀ * (diagonal s * Uᵀ) := by
    rw [← h.product, Matrix.transpose_mul, Matrix.transpose_mul, Matrix.diagonal_transpose]
  rw [show Polynomial.aeval (Gᵀ * G) p * Gᵀ = Polynomial.aeval (Gᵀ * G) p * (Vtᵀ * (diagonal s * Uᵀ)) from congrArg _ hGt, ← Matrix.mul_assoc, aeval_svd G U s Vt h p, Matrix.mul_assoc, ← Matrix.mul_assoc (diagonal _), Matrix.diagonal_mul_diagonal]
  unfold truncPinv
  congr 3
  funext i
  rw [hp i]
  split
  · rename_i hi
    have : s i ≠ 0 := ne_of_gt (lt_of_le_of_lt hmax hi)
    field_simp
  · simp

/-- **C139** (the decomposition). A matrix has several singular value decompositions. The result does not depend on which one is found. -/
theorem c139_unique {n nc k k' : Nat} (G : Matrix (Fin n) (Fin nc) ℝ) (U : Matrix (Fin n) (Fin k) ℝ) (s : Fin k → ℝ) (Vt : Matrix (Fin k) (Fin nc) ℝ)
    (U' : Matrix (Fin n) (Fin k') ℝ) (s' : Fin k' → ℝ) (Vt' : Matrix (Fin k') (Fin nc) ℝ) (h : IsSvd G U s Vt) (h' : IsSvd G U' s' Vt') (cutoff : ℝ)
    (hc : 0 ≤ cutoff) : truncPinv U s Vt cutoff = truncPinv U' s' Vt' cutoff := by
  classical
  have hmax : ⨆ j, s j = ⨆ j, s' j := le_antisymm (svd_max_le G U s Vt U' s' Vt' h h') (svd_max_le G U' s' Vt' U s Vt h' h)
  let S : Finset ℝ := Finset.univ.image (fun i => s i ^ 2) ∪ Finset.univ.image (fun i => s' i ^ 2)
  let φ : ℝ → ℝ := fun x => if Real.sqrt x > cutoff * ⨆ j, s j then x⁻¹ else 0
  let p := Lagrange.interpolate S id φ
  have hev : ∀ x ∈ S, p.eval x = φ x := fun x hx => Lagrange.eval_interpolate_at_node (v := id) φ (Set.injOn_id _) hx
  rw [truncPinv_poly G U s Vt h cutoff hc p, truncPinv_poly G U' s' Vt' h' cutoff hc p]
  · intro i
    rw [hev _ (Finset.mem_union_right _ (Finset.mem_image_of_mem _ (Finset.mem_univ i)))]
    simp only [φ, Real.sqrt_sq (h'.nonneg i), hmax]
  · intro i
    rw [hev _ (Finset.mem_union_left _ (Finset.mem_image_of_mem _ (Finset.mem_univ i)))]
    simp only [φ, Real.sqrt_sq (h.nonneg i)]

/-! ### The method -/

/-- the pseudo-inverse of the grid is computed by some decomposition -/
def UsesSvd (env : GridEnv) : Prop := ∀ (n : Nat) (G : Matrix (Fin n) (Fin env.cells.length) ℝ) (cutoff : Rat),
  ∃ (k : Nat) (U : Matrix (Fin n) (Fin k) ℝ) (s : Fin k → ℝ) (Vt : Matrix (Fin k) (Fin env.cells.length) ℝ), IsSvd G U s Vt ∧ env.pinv G cutoff = truncPinv U s Vt cutoff

/-- **C139** (the method). Whatever was computed with the grid before, the truncated inversion takes one row for each curve with a value at the time: its
kernel and the value. With the kernels without the neglected singular values no model fits these values better, and no other model that fits as well is as
small. -/
theorem c139_method (env : GridEnv) (hsvd : UsesSvd env) (calls : List GridCall) (cutoff : Rat) (hc : 0 ≤ cutoff) (args : InvArgs) (utc : Int) (curves : List Curve)
    (m : Fin env.cells.length → ℝ) (h : (tsvdCall env (afterCalls env calls) cutoff args utc curves).1 = .ok m) :
    ∃ (rows : List (List Rat × Datum)) (t : Rat) (k : Nat) (U : Matrix (Fin rows.length) (Fin k) ℝ) (s : Fin k → ℝ) (Vt : Matrix (Fin k) (Fin env.cells.length) ℝ),
      (∃ sel : List (Option Datum), List.Forall₂ (fun c o => ∀ d, o = some d ↔ Contributes utc c d) curves sel ∧ rows.map (·.2) = sel.filterMap id) ∧
      (∀ r ∈ rows, env.kern ((env.geo.east r.2.stat0.2, env.geo.north r.2.stat0.1), (env.geo.east r.2.stat1.2, env.geo.north r.2.stat1.1), t) = .ok r.1) ∧
      IsSvd (kernelMatrix env.cells.length rows) U s Vt ∧
      ∀ m', let K := keptPart U s Vt (cutoff * ⨆ j, s j)
        sqNorm (K *ᵥ m - datumVals rows) ≤ sqNorm (K *ᵥ m' - datumVals rows) ∧
        (sqNorm (K *ᵥ m' - datumVals rows) = sqNorm (K *ᵥ m - datumVals rows) → sqNorm m ≤ sqNorm m' ∧ (sqNorm m' = sqNorm m → m' = m)) := by
  have e1 := (prepare_eq env _ (afterCalls_cache env calls) args utc curves).1
  unfold tsvdCall at h
  revert e1 h
  generalize prepare env (afterCalls env calls) args utc curves = o1
  obtain ⟨r1, s1⟩ := o1
  intro h e1
  simp only at e1
  subst e1
  cases hp : preparedOf env args utc curves with
  | error e => rw [hp] at h; cases h
  | ok p =>
    rw [hp] at h
    simp only [Except.ok.injEq] at h
    unfold preparedOf at hp
    cases hu : usedData env.geo utc curves with
    | error e => rw [hu] at hp; cases hp
    | ok dp =>
      obtain ⟨data, proc⟩ := dp
      rw [hu] at hp
      simp only at hp
      cases hi : invSettings args proc with
      | error e => rw [hi] at hp; cases hp
      | ok t =>
        obtain ⟨tw, f0, f1⟩ := t
        rw [hi] at hp
        simp only at hp
        obtain ⟨sel, g1, g2, -, g3, g4⟩ := (usedData_ok _ _ _ _ _).1 hu
        rw [kernelsOf_eq env data _ g3 g4] at hp
        cases hm : data.mapM (kernelOf env ((tw.1 + tw.2) / 2)) with
        | error e => rw [hm] at hp; cases hp
        | ok ks =>
          rw [hm] at hp
          cases hp
          have hf := mapM_forall2 _ _ _ hm
          have hlen : data.length = ks.length := hf.length_eq
          obtain ⟨k, U, s, Vt, hS, hpinv⟩ := hsvd _ (kernelMatrix env.cells.length (ks.zip data)) cutoff
          have hf1 := mapM_forall2 _ _ _ g1
          refine ⟨ks.zip data, (tw.1 + tw.2) / 2, k, U, s, Vt, ⟨sel, ?_, ?_⟩, ?_, hS, ?_⟩
          · refine hf1.imp fun c o hco d => ?_
            rw [← extractOne_some, hco, Except.ok.injEq]
          · rw [List.map_snd_zip (by omega), g2]
          · intro r hr
            obtain ⟨i, hi, rfl⟩ := List.mem_iff_getElem.1 hr
            rw [List.getElem_zip]
            have hi' : i < data.length := by rw [List.length_zip] at hi; omega
            exact hf.get hi' (by omega)
          · intro m'
            have := c139_least_squares _ U s Vt hS cutoff (by exact_mod_cast hc) (datumVals (ks.zip data)) m'
            rw [← hpinv] at this
            rw [← h]
            exact this

/-- **C139** (order). If the curves have the same processing, or window and frequencies are given, the result does not depend on the order of the curves. -/
theorem c139_order (env : GridEnv) (hsvd : UsesSvd env) (cutoff : Rat) (hc : 0 ≤ cutoff) (args : InvArgs) (utc : Int) {curves curves' : List Curve}
    (hp : curves.Perm curves') (hs : SameSettings args curves) (m : Fin env.cells.length → ℝ)
    (h : (tsvdCall env (newGrid _) cutoff args utc curves).1 = .ok m) : (tsvdCall env (newGrid _) cutoff args utc curves').1 = .ok m := by
  have h0 : CacheOk env.kern (newGrid env.cells.length).cache := fun _ _ h => absurd h List.not_mem_nil
  have e1 := (prepare_eq env (newGrid env.cells.length) h0 args utc curves).1
  have e2 := (prepare_eq env (newGrid env.cells.length) h0 args utc curves').1
  unfold tsvdCall at h ⊢
  revert e1 e2 h
  generalize prepare env (newGrid env.cells.length) args utc curves = o1
  generalize prepare env (newGrid env.cells.length) args utc curves' = o2
  obtain ⟨r1, s1⟩ := o1
  obtain ⟨r2, s2⟩ := o2
  intro h e1 e2
  simp only at e1 e2
  subst e1
  subst e2
  cases hpr : preparedOf env args utc curves with
  | error err => rw [hpr] at h; cases h
  | ok p =>
    rw [hpr] at h
    obtain ⟨hne, rows', hperm, hpr'⟩ := preparedOf_perm env args utc hp hs p hpr
    obtain ⟨e, he⟩ := perm_equiv hperm
    have he' : ∀ i, rows'.get i = p.rows.get (e.symm i) := fun i => by rw [← he (e.symm i), Equiv.apply_symm_apply]
    rw [hpr']
    simp only at h ⊢
    rw [← h]
    congr 1
    have hG : kernelMatrix env.cells.length rows' = (kernelMatrix env.cells.length p.rows).submatrix e.symm id := by
      ext i k
      simp only [kernelMatrix, Matrix.of_apply, Matrix.submatrix_apply, he', id]
    have hv : datumVals rows' = datumVals p.rows ∘ e.symm := by
      funext i
      simp only [datumVals, Function.comp, he']
    obtain ⟨k, U, s, Vt, g1, g2⟩ := hsvd _ (kernelMatrix env.cells.length p.rows) cutoff
    obtain ⟨k', U', s', Vt', g3, g4⟩ := hsvd _ (kernelMatrix env.cells.length rows') cutoff
    have g5 : IsSvd (kernelMatrix env.cells.length rows') (U.submatrix e.symm id) s Vt := by
      refine ⟨?_, g1.right, g1.nonneg, ?_⟩
      · rw [← g1.left]
        ext i j
        simp only [Matrix.mul_apply, Matrix.transpose_apply, Matrix.submatrix_apply, id]
        exact Fintype.sum_equiv e.symm _ _ fun k => rfl
      · rw [hG, ← g1.product]
        ext i j
        simp only [Matrix.mul_apply, Matrix.submatrix_apply, id]
    rw [g2, g4, c139_unique _ _ _ _ _ _ _ g3 g5 (cutoff : ℝ) (by exact_mod_cast hc), hv]
    unfold truncPinv
    simp only [← Matrix.mulVec_mulVec]
    congr 2
    funext i
    simp only [Matrix.mulVec, dotProduct, Matrix.transpose_apply, Matrix.submatrix_apply, Function.comp, id]
    exact Fintype.sum_equiv e.symm _ _ fun k => rfl

/-- **C139** (exact data). If all singular values other than zero are above the cutoff, the data of a model are reproduced by the result. -/
theorem c139_exact {n nc k : Nat} (G : Matrix (Fin n) (Fin nc) ℝ) (U : Matrix (Fin n) (Fin k) ℝ) (s : Fin k → ℝ) (Vt : Matrix (Fin k) (Fin nc) ℝ)
    (h : IsSvd G U s Vt) (cutoff : ℝ) (hc : 0 ≤ cutoff) (hk : ∀ i, s i = 0 ∨ cutoff * (⨆ j, s j) < s i) (m₀ : Fin nc → ℝ) :
    G *ᵥ (truncPinv U s Vt cutoff *ᵥ (G *ᵥ m₀)) = G *ᵥ m₀ := by
  have hmax : 0 ≤ cutoff * ⨆ j, s j := mul_nonneg hc (Real.iSup_nonneg h.nonneg)
  have h1 := (c139_least_squares G U s Vt h cutoff hc (G *ᵥ m₀) m₀).1
  simp only [(c139_neglected G U s Vt h _ hmax).2 hk, sub_self] at h1
  have h2 : sqNorm (G *ᵥ (truncPinv U s Vt cutoff *ᵥ (G *ᵥ m₀)) - G *ᵥ m₀) = 0 :=
    le_antisymm (le_trans h1 (by simp [sqNorm])) (sqNorm_nonneg _)
  exact sub_eq_zero.1 (sqNorm_zero _ h2)

theorem svd_exists {n nc : Nat} (G : Matrix (Fin n) (Fin nc) ℝ) :
    ∃ (k : Nat) (U : Matrix (Fin n) (Fin k) ℝ) (s : Fin k → ℝ) (Vt : Matrix (Fin k) (Fin nc) ℝ), IsSvd G U s Vt := by
  classical
  have hA : (Gᵀ * G).PosSemidef := by
    have := Matrix.posSemidef_conjTranspose_mul_self G
    rwa [Matrix.conjTranspose_eq_transpose_of_trivial] at this
  set lam := hA.isHermitian.eigenvalues with hlam
  set W : Matrix (Fin nc) (Fin nc) ℝ := (hA.isHermitian.eigenvectorUnitary : Matrix (Fin nc) (Fin nc) ℝ) with hW
  have hnn : ∀ i, 0 ≤ lam i := hA.eigenvalues_nonneg
  have hWW : Wᵀ * W = 1 := by
    have := Matrix.mem_unitaryGroup_iff'.1 hA.isHermitian.eigenvectorUnitary.2
    rwa [Matrix.star_eq_conjTranspose, Matrix.conjTranspose_eq_transpose_of_trivial] at this
  have hWW' : W * Wᵀ = 1 := by
    have := Matrix.mem_unitaryGroup_iff.1 hA.isHermitian.eigenvectorUnitary.2
    rwa [Matrix.star_eq_conjTranspose, Matrix.conjTranspose_eq_transpose_of_trivial] at this
  have hspec : Wᵀ * (Gᵀ * G) * W = diagonal lam := by
    have := hA.isHermitian.conjStarAlgAut_star_eigenvectorUnitary
    rw [Unitary.conjStarAlgAut_star_apply] at this
    simpa [Matrix.star_eq_conjTranspose, Matrix.conjTranspose_eq_transpose_of_trivial] using this
  have hgw : (G * W)ᵀ * (G * W) = diagonal lam := by
    rw [← hspec, Matrix.transpose_mul, Matrix.mul_assoc, Matrix.mul_assoc, Matrix.mul_assoc]
  have hsum : ∀ x y, ∑ i, (G * W) i x * (G * W) i y = if x = y then lam x else 0 := by
    intro x y
    have := congrFun (congrFun hgw x) y
    rw [Matrix.mul_apply, Matrix.diagonal_apply] at this
    exact this
  have hzero : ∀ x, lam x = 0 → ∀ i, (G * W) i x = 0 := by
    intro x hx i
    have h1 := hsum x x
    rw [if_pos rfl, hx] at h1
    have h2 := (Finset.sum_eq_zero_iff_of_nonneg fun j _ => mul_self_nonneg ((G * W) j x)).1 h1 i (Finset.mem_univ i)
    exact mul_self_eq_zero.1 h2
  let sel := {i : Fin nc // lam i ≠ 0}
  let e : Fin (Fintype.card sel) ≃ sel := (Fintype.equivFin sel).symm
  have hpos : ∀ a, 0 < lam (e a).1 := fun a => lt_of_le_of_ne (hnn _) (Ne.symm (e a).2)
  refine ⟨Fintype.card sel, Matrix.of fun i a => (G * W) i (e a).1 / Real.sqrt (lam (e a).1), fun a => Real.sqrt (lam (e a).1),
    Matrix.of fun a j => W j (e a).1, ?_, ?_, fun a => Real.sqrt_nonneg _, ?_⟩
  · ext a b
    rw [Matrix.mul_apply]
    simp only [Matrix.transpose_apply, Matrix.of_apply]
    have : ∀ i, (G * W) i (e a).1 / Real.sqrt (lam (e a).1) * ((G * W) i (e b).1 / Real.sqrt (lam (e b).1)) =
        (G * W) i (e a).1 * (G * W) i (e b).1 * ((Real.sqrt (lam (e a).1))⁻¹ * (Real.sqrt (lam (e b).1))⁻¹) := fun i => by
      rw [div_eq_mul_inv, div_eq_mul_inv]; ring
    simp only [this]
    rw [← Finset.sum_mul, hsum, Matrix.one_apply]
    by_cases hab : a = b
    · subst hab
      rw [if_pos rfl, if_pos rfl, ← mul_inv, Real.mul_self_sqrt (hnn _)]
      exact mul_inv_cancel₀ (e a).2
    · rw [if_neg hab, if_neg (fun h => hab (e.injective (Subtype.ext h))), zero_mul]
  · ext a b
    rw [Matrix.mul_apply]
    simp only [Matrix.transpose_apply, Matrix.of_apply]
    have := congrFun (congrFun hWW (e a).1) (e b).1
    rw [Matrix.mul_apply, Matrix.one_apply] at this
    simp only [Matrix.transpose_apply] at this
    rw [this, Matrix.one_apply]
    by_cases hab : a = b
    · subst hab
      rw [if_pos rfl, if_pos rfl]
    · rw [if_neg hab, if_neg (fun h => hab (e.injective (Subtype.ext h)))]
  · ext i j
    rw [Matrix.mul_apply]
    simp only [Matrix.mul_diagonal, Matrix.of_apply]
    have h1 : ∀ a, (G * W) i (e a).1 / Real.sqrt (lam (e a).1) * Real.sqrt (lam (e a).1) * W j (e a).1 = (G * W) i (e a).1 * W j (e a).1 := fun a => by
      rw [div_mul_cancel₀ _ (Real.sqrt_ne_zero'.2 (hpos a))]
    simp only [h1]
    rw [Fintype.sum_equiv e (fun a => (G * W) i (e a).1 * W j (e a).1) (fun x : sel => (G * W) i x.1 * W j x.1) fun a => rfl]
    have h2 : ∑ x : sel, (G * W) i x.1 * W j x.1 = ∑ x, (G * W) i x * W j x := by
      rw [← Finset.sum_subtype (Finset.univ.filter fun x => lam x ≠ 0) (by simp) (fun x => (G * W) i x * W j x)]
      refine Finset.sum_subset (Finset.subset_univ _) fun x _ hx => ?_
      have hx0 : lam x = 0 := by simpa using hx
      rw [hzero x hx0, zero_mul]
    rw [h2]
    have h3 := congrFun (congrFun (show G * W * Wᵀ = G by rw [Matrix.mul_assoc, hWW', Matrix.mul_one]) i) j
    rw [Matrix.mul_apply] at h3
    exact h3

/-- each grid can use a decomposition -/
example (geo : Geo) (kern : KKey → Except PyErr (List Rat)) (cells : List Pt) : ∃ env : GridEnv, env.geo = geo ∧ env.kern = kern ∧ env.cells = cells ∧ UsesSvd env := by
  refine ⟨⟨geo, List.eraseDups, kern, cells, fun {n} G cutoff => truncPinv (svd_exists G).choose_spec.choose (svd_exists G).choose_spec.choose_spec.choose
    (svd_exists G).choose_spec.choose_spec.choose_spec.choose cutoff⟩, rfl, rfl, rfl, fun n G cutoff => ?_⟩
  exact ⟨_, _, _, _, (svd_exists G).choose_spec.choose_spec.choose_spec.choose_spec, rfl⟩

/-- two kernels, two cells; with the cutoff 0.2 the smaller singular value is kept, with 0.5 not -/
example : IsSvd (!![3, 0; 0, 1] : Matrix (Fin 2) (Fin 2) ℝ) 1 ![3, 1] 1 ∧ (∀ i, ![(3 : ℝ), 1] i = 0 ∨ (1 / 5 : ℝ) * (⨆ j, ![(3 : ℝ), 1] j) < ![3, 1] i) := by
  have hs : ⨆ j, ![(3 : ℝ), 1] j = 3 := by
    refine le_antisymm (Real.iSup_le (fun j => ?_) (by norm_num)) (le_ciSup (f := ![(3 : ℝ), 1]) (Set.finite_range _).bddAbove 0)
    fin_cases j <;> norm_num
  refine ⟨⟨by simp, by simp, ?_, ?_⟩, ?_⟩
  · intro i
    fin_cases i <;> norm_num
  · ext i j
    fin_cases i <;> fin_cases j <;> simp
  · intro i
    rw [hs]
    fin_cases i <;> norm_num

end

end SeisMIC
