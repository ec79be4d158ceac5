import Mathlib.Tactic.Linarith
import Mathlib.Tactic.FieldSimp
import Mathlib.Tactic.Ring
import Mathlib.Tactic.NormNum
import Mathlib.LinearAlgebra.Matrix.ToLinearEquiv
import Mathlib.Algebra.BigOperators.Fin
import Mathlib.Algebra.BigOperators.Field
import Mathlib.Algebra.BigOperators.Intervals
import Mathlib.Data.List.GetD
import Mathlib.Analysis.Real.Sqrt
import Verif.Model.Detrend

/-!
# C123: removing the trend of traces
-/

namespace SeisMIC

noncomputable section

open Matrix

/-! ### Specification -/

/-- `r` is what remains of `d` without its linear trend: `d` minus a line, with mean zero and without correlation with the time -/
structure WithoutTrend {n : Nat} (d r : Fin n → ℝ) : Prop where
  line : ∃ a b : ℝ, ∀ k, r k = d k - (a + b * (k : ℝ))
  mean : ∑ k, r k = 0
  time : ∑ k : Fin n, (k : ℝ) * r k = 0

/-- a trace without NaN -/
def valid {n : Nat} (d : Fin n → ℝ) : Fin n → Option ℝ := fun k => some (d k)

/-! ### Lemmas -/

theorem WithoutTrend.line_orth {n : Nat} {d r : Fin n → ℝ} (h : WithoutTrend d r) (a b : ℝ) :
    ∑ k : Fin n, (a + b * (k : ℝ)) * r k = 0 := by
  have : ∀ k : Fin n, (a + b * (k : ℝ)) * r k = a * r k + b * ((k : ℝ) * r k) := fun k => by ring
  simp_rw [this]
  rw [Finset.sum_add_distrib, ← Finset.mul_sum, ← Finset.mul_sum, h.mean, h.time]
  ring

theorem WithoutTrend.unique {n : Nat} {d r r' : Fin n → ℝ} (h : WithoutTrend d r) (h' : WithoutTrend d r') : r = r' := by
  obtain ⟨a, b, hl⟩ := h.line
  obtain ⟨a', b', hl'⟩ := h'.line
  have hd : ∀ k, r k - r' k = (a' - a) + (b' - b) * (k : ℝ) := fun k => by rw [hl, hl']; ring
  have : ∑ k, (r k - r' k) ^ 2 = 0 := by
    have e : ∀ k, (r k - r' k) ^ 2 = ((a' - a) + (b' - b) * (k : ℝ)) * r k - ((a' - a) + (b' - b) * (k : ℝ)) * r' k := fun k => by
      rw [← hd]; ring
    simp_rw [e]
    rw [Finset.sum_sub_distrib, h.line_orth, h'.line_orth, sub_zero]
  rw [Finset.sum_eq_zero_iff_of_nonneg fun k _ => sq_nonneg _] at this
  funext k
  have := this k (Finset.mem_univ k)
  nlinarith [pow_eq_zero_iff (two_ne_zero) |>.mp this]

theorem WithoutTrend.add_line {n : Nat} {d r : Fin n → ℝ} (h : WithoutTrend d r) (a b : ℝ) :
    WithoutTrend (fun k => d k + (a + b * (k : ℝ))) r := by
  obtain ⟨a', b', hl⟩ := h.line
  exact ⟨⟨a + a', b + b', fun k => by rw [hl]; ring⟩, h.mean, h.time⟩

theorem WithoutTrend.self {n : Nat} {d r : Fin n → ℝ} (h : WithoutTrend d r) : WithoutTrend r r :=
  ⟨⟨0, 0, fun k => by ring⟩, h.mean, h.time⟩

theorem WithoutTrend.best {n : Nat} {d r : Fin n → ℝ} (h : WithoutTrend d r) (a b : ℝ) :
    ∑ k, r k ^ 2 ≤ ∑ k : Fin n, (d k - (a + b * (k : ℝ))) ^ 2 := by
  obtain ⟨a', b', hl⟩ := h.line
  have e : ∀ k : Fin n, (d k - (a + b * (k : ℝ))) ^ 2 = r k ^ 2 + 2 * (((a' - a) + (b' - b) * (k : ℝ)) * r k) + ((a' - a) + (b' - b) * (k : ℝ)) ^ 2 :=
    fun k => by rw [hl]; ring
  simp_rw [e]
  rw [Finset.sum_add_distrib, Finset.sum_add_distrib, ← Finset.mul_sum, h.line_orth]
  have : 0 ≤ ∑ k : Fin n, ((a' - a) + (b' - b) * (k : ℝ)) ^ 2 := Finset.sum_nonneg fun k _ => sq_nonneg _
  linarith

theorem trendMatrix_mulVec {n : Nat} (v : Fin 2 → ℝ) (k : Fin n) : (trendMatrix n *ᵥ v) k = v 1 + v 0 / n * (k : ℝ) := by
  simp only [mulVec, dotProduct, trendMatrix, Fin.sum_univ_two, of_apply]
  simp
  ring

theorem qr_det {n : Nat} (h2 : 2 ≤ n) (qr : QR (trendMatrix n)) : IsUnit qr.R.det := by
  rw [isUnit_iff_ne_zero]
  intro h0
  obtain ⟨v, hv, hz⟩ := Matrix.exists_mulVec_eq_zero_iff.mpr h0
  apply hv
  have hX : trendMatrix n *ᵥ v = 0 := by rw [← qr.prod, ← mulVec_mulVec, hz, mulVec_zero]
  have e0 := congrFun hX ⟨0, by omega⟩
  have e1 := congrFun hX ⟨1, by omega⟩
  rw [trendMatrix_mulVec] at e0 e1
  simp at e0 e1
  have hn : (n : ℝ) ≠ 0 := by positivity
  rw [e0, zero_add] at e1
  have : v 0 = 0 := by rcases div_eq_zero_iff.mp e1 with h | h; exacts [h, absurd h hn]
  funext j
  fin_cases j <;> simpa

theorem normal_aux {n : Nat} (X Q : Matrix (Fin n) (Fin 2) ℝ) (R : Matrix (Fin 2) (Fin 2) ℝ) (hp : Q * R = X) (ho : Qᵀ * Q = 1)
    (hd : IsUnit R.det) (d : Fin n → ℝ) : Xᵀ *ᵥ (d - X *ᵥ ((R⁻¹ * Qᵀ) *ᵥ d)) = 0 := by
  have e : Xᵀ * (X * (R⁻¹ * Qᵀ)) = Xᵀ := by
    rw [← hp, transpose_mul]
    calc Rᵀ * Qᵀ * (Q * R * (R⁻¹ * Qᵀ)) = Rᵀ * ((Qᵀ * Q) * ((R * R⁻¹) * Qᵀ)) := by
          simp only [Matrix.mul_assoc]
      _ = _ := by rw [ho, Matrix.mul_nonsing_inv _ hd, Matrix.one_mul, Matrix.one_mul]
  rw [mulVec_sub, mulVec_mulVec, mulVec_mulVec, Matrix.mul_assoc, e, sub_self]

theorem detrendRow_withoutTrend {n : Nat} (h2 : 2 ≤ n) (qr : QR (trendMatrix n)) (d : Fin n → ℝ) :
    ∃ r, detrendRow qr (valid d) = valid r ∧ WithoutTrend d r := by
  refine ⟨d - trendMatrix n *ᵥ ((qr.R⁻¹ * qr.Qᵀ) *ᵥ d), ?_, ?_⟩
  · unfold detrendRow
    rw [if_pos (by simp [valid])]
    rfl
  · have hz := normal_aux _ _ _ qr.prod qr.orth (qr_det h2 qr) d
    set r := d - trendMatrix n *ᵥ ((qr.R⁻¹ * qr.Qᵀ) *ᵥ d) with hr
    have hn : (n : ℝ) ≠ 0 := by positivity
    refine ⟨⟨_, _, fun k => by rw [hr, Pi.sub_apply, trendMatrix_mulVec]⟩, ?_, ?_⟩
    · have := congrFun hz 1
      simpa [mulVec, dotProduct, trendMatrix] using this
    · have := congrFun hz 0
      simp only [mulVec, dotProduct, transpose_apply, trendMatrix, of_apply, if_pos, Pi.zero_apply] at this
      have e : ∑ k : Fin n, (k : ℝ) * r k = n * ∑ k : Fin n, (k : ℝ) / n * r k := by
        rw [Finset.mul_sum]
        exact Finset.sum_congr rfl fun k _ => by field_simp
      rw [e, this, mul_zero]

/-- there is a QR decomposition -/
theorem qr_exists {n : Nat} (h2 : 2 ≤ n) : Nonempty (QR (trendMatrix n)) := by
  have hn : (n : ℝ) ≠ 0 := by positivity
  set x : Fin n → ℝ := fun k => (k : ℝ) / n with hx
  set s := Real.sqrt (∑ k, x k ^ 2) with hs
  have hs2 : s ^ 2 = ∑ k, x k ^ 2 := Real.sq_sqrt (Finset.sum_nonneg fun k _ => sq_nonneg _)
  have hs0 : s ≠ 0 := by
    intro h0
    rw [h0] at hs2
    have : ∑ k, x k ^ 2 = 0 := by rw [← hs2]; norm_num
    rw [Finset.sum_eq_zero_iff_of_nonneg fun k _ => sq_nonneg _] at this
    have := this ⟨1, by omega⟩ (Finset.mem_univ _)
    simp [hx] at this
    omega
  set q : Fin n → ℝ := fun k => x k / s with hq
  set c := ∑ k, q k with hc
  set w : Fin n → ℝ := fun k => 1 - c * q k with hw
  set t := Real.sqrt (∑ k, w k ^ 2) with ht
  have ht2 : t ^ 2 = ∑ k, w k ^ 2 := Real.sq_sqrt (Finset.sum_nonneg fun k _ => sq_nonneg _)
  have ht0 : t ≠ 0 := by
    intro h0
    rw [h0] at ht2
    have : ∑ k, w k ^ 2 = 0 := by rw [← ht2]; norm_num
    rw [Finset.sum_eq_zero_iff_of_nonneg fun k _ => sq_nonneg _] at this
    have := this ⟨0, by omega⟩ (Finset.mem_univ _)
    simp [hw, hq, hx] at this
  have hqq : ∑ k, q k * q k = 1 := by
    have : ∀ k, q k * q k = x k ^ 2 / s ^ 2 := fun k => by simp only [hq]; field_simp
    simp_rw [this]
    rw [← Finset.sum_div, ← hs2, div_self (pow_ne_zero 2 hs0)]
  have hqw : ∑ k, q k * w k = 0 := by
    have : ∀ k, q k * w k = q k - c * (q k * q k) := fun k => by simp only [hw]; ring
    simp_rw [this]
    rw [Finset.sum_sub_distrib, ← Finset.mul_sum, hqq, ← hc]
    ring
  refine ⟨⟨Matrix.of fun k j => if j = 0 then q k else w k / t, !![s, c; 0, t], ?_, ?_, by simp⟩⟩
  · ext k j
    fin_cases j
    · simp [Matrix.mul_apply, Fin.sum_univ_two, trendMatrix, hq, hx]
      field_simp
    · simp [Matrix.mul_apply, Fin.sum_univ_two, trendMatrix, hw]
      field_simp
      ring
  · ext i j
    fin_cases i <;> fin_cases j <;> simp [Matrix.mul_apply]
    · exact hqq
    · have : ∀ k, q k * (w k / t) = q k * w k / t := fun k => by ring
      simp_rw [this]
      rw [← Finset.sum_div, hqw, zero_div]
    · have : ∀ k, w k / t * q k = q k * w k / t := fun k => by ring
      simp_rw [this]
      rw [← Finset.sum_div, hqw, zero_div]
    · have : ∀ k, w k / t * (w k / t) = w k ^ 2 / t ^ 2 := fun k => by field_simp
      simp_rw [this]
      rw [← Finset.sum_div, ← ht2, div_self (pow_ne_zero 2 ht0)]

theorem map_range_eq_ofFn {n : Nat} (g : Nat → ℝ) : (List.range n).map g = List.ofFn fun k : Fin n => g k := by
  apply List.ext_getElem <;> simp

theorem trend_sum_map_range {n : Nat} (g : Nat → ℝ) : ((List.range n).map g).sum = ∑ k : Fin n, g k := by
  rw [map_range_eq_ofFn, List.sum_ofFn]

theorem sum_fin_sub_mid (n : Nat) : ∑ k : Fin n, ((k : ℝ) - ((n : ℝ) - 1) / 2) = 0 := by
  rw [Fin.sum_univ_eq_sum_range (fun k : Nat => (k : ℝ) - ((n : ℝ) - 1) / 2), Finset.sum_sub_distrib, Finset.sum_const, Finset.card_range]
  have := Finset.sum_range_id_mul_two n
  have h2 : (∑ k ∈ Finset.range n, (k : ℝ)) * 2 = n * ((n : ℝ) - 1) := by
    rcases Nat.eq_zero_or_pos n with rfl | hp
    · simp
    · have h : ((∑ k ∈ Finset.range n, k : ℕ) : ℝ) * 2 = ((n * (n - 1) : ℕ) : ℝ) := by exact_mod_cast this
      rw [Nat.cast_mul, Nat.cast_sub hp] at h
      simpa using h
  rw [nsmul_eq_mul]
  linarith

theorem lineResiduals_withoutTrend {n : Nat} (d : Fin n → ℝ) : ∃ r, lineResiduals (List.ofFn d) = List.ofFn r ∧ WithoutTrend d r := by
  set tm : ℝ := ((n : ℝ) - 1) / 2 with htm
  set ym := (∑ k, d k) / n with hym
  set S := ∑ k : Fin n, ((k : ℝ) - tm) ^ 2 with hS
  set P := ∑ k : Fin n, ((k : ℝ) - tm) * (d k - ym) with hP
  refine ⟨fun k => d k - ym - P / S * ((k : ℝ) - tm), ?_, ?_⟩
  · unfold lineResiduals
    simp only [List.length_ofFn]
    rw [map_range_eq_ofFn, trend_sum_map_range, trend_sum_map_range, List.sum_ofFn]
    congr 1
    funext k
    have : ∀ k : Fin n, (List.ofFn d).getD (k : Nat) 0 = d k := fun k => by
      rw [List.getD_eq_getElem _ _ (by simp)]; simp
    simp only [this]
    rfl
  · have h0 : ∑ k : Fin n, ((k : ℝ) - tm) = 0 := sum_fin_sub_mid n
    have hm : ∑ k : Fin n, (d k - ym - P / S * ((k : ℝ) - tm)) = 0 := by
      rw [Finset.sum_sub_distrib, ← Finset.mul_sum, h0, Finset.sum_sub_distrib, Finset.sum_const, Finset.card_univ, Fintype.card_fin,
        nsmul_eq_mul, hym]
      rcases Nat.eq_zero_or_pos n with rfl | hp
      · simp
      · have : (n : ℝ) ≠ 0 := by positivity
        field_simp
        ring
    refine ⟨⟨ym - P / S * tm, P / S, fun k => by ring⟩, hm, ?_⟩
    have e : ∑ k : Fin n, (k : ℝ) * (d k - ym - P / S * ((k : ℝ) - tm)) =
        (P - P / S * S) + tm * ∑ k : Fin n, (d k - ym - P / S * ((k : ℝ) - tm)) := by
      rw [hP, Finset.mul_sum, Finset.mul_sum, hS, ← hP, ← hS]
      rw [hP, ← Finset.sum_sub_distrib, ← Finset.sum_add_distrib, ← hP]
      exact Finset.sum_congr rfl fun k _ => by ring
    rw [e, hm, mul_zero, add_zero]
    by_cases hS0 : S = 0
    · have : P = 0 := by
        rw [hS, Finset.sum_eq_zero_iff_of_nonneg fun k _ => sq_nonneg _] at hS0
        rw [hP]
        refine Finset.sum_eq_zero fun k hk => ?_
        rw [pow_eq_zero_iff two_ne_zero |>.mp (hS0 k hk), zero_mul]
      simp [this]
    · rw [div_mul_cancel₀ _ hS0, sub_self]

theorem filterMap_valid {n : Nat} (d : Fin n → ℝ) : (List.ofFn (valid d)).filterMap id = List.ofFn d := by
  have : List.ofFn (valid d) = (List.ofFn d).map some := by
    rw [List.map_ofFn]; rfl
  rw [this, List.filterMap_map]
  simp

theorem setValid_all (l v : List ℝ) (h : l.length = v.length) : setValid (l.map some) v = v.map some := by
  induction l generalizing v with
  | nil => cases v with
    | nil => rfl
    | cons => simp at h
  | cons x l ih => cases v with
    | nil => simp at h
    | cons y v => simp [setValid, ih v (by simpa using h)]

theorem getD_ofFn {n : Nat} (f : Fin n → Option ℝ) (k : Fin n) : (List.ofFn f).getD (k : Nat) none = f k := by
  rw [List.getD_eq_getElem _ _ (by simp)]; simp

theorem detrend_linear {n : Nat} (h2 : 2 ≤ n) (qr : 2 ≤ n → QR (trendMatrix n)) (a : DetrendArgs)
    (hm : a.method = none ∨ a.method = some c!"qr") (ht : a.type = none ∨ a.type = some c!"linear") (A : List (Fin n → Option ℝ)) :
    detrend qr a A = (.ok (A.map (detrendRow (qr h2))), A.map (detrendRow (qr h2))) := by
  have e : a.type.getD c!"linear" = c!"linear" := by rcases ht with h | h <;> rw [h] <;> rfl
  have e' : a.method.getD c!"qr" = c!"qr" := by rcases hm with h | h <;> rw [h] <;> rfl
  simp only [detrend, e, e']
  rw [if_neg (by decide), if_pos trivial, if_pos trivial, dif_pos h2]

theorem demeanRow_filterMap {n : Nat} (d : Fin n → Option ℝ) (m : ℝ) (hm : nanmeanR (List.ofFn d) = some m) :
    (List.ofFn (demeanRow d)).filterMap id = ((List.ofFn d).filterMap id).map (· - m) := by
  have : List.ofFn (demeanRow d) = (List.ofFn d).map fun x => x.map (· - m) := by
    rw [List.map_ofFn]
    congr 1
    funext k
    simp only [demeanRow, hm, Function.comp]
    cases d k <;> rfl
  rw [this, List.filterMap_map, List.map_filterMap]
  congr 1

theorem sum_sub_mean (l : List ℝ) (h : l ≠ []) : (l.map (· - l.sum / l.length)).sum = 0 := by
  have : ∀ (l : List ℝ) (m : ℝ), (l.map (· - m)).sum = l.sum - l.length * m := fun l m => by
    induction l with
    | nil => simp
    | cons x l ih => simp [ih]; ring
  rw [this]
  have : (l.length : ℝ) ≠ 0 := by simpa using h
  field_simp
  ring

/-! ### Theorems -/

/-- C123: with the default arguments every trace loses its linear trend: what remains is the trace minus a line, has mean zero, is not
correlated with the time and has the smallest energy of all that can be had by subtracting a line. This never fails for traces
with at least two samples.
Missing: traces with missing samples (`c123_nan_violated`). -/
theorem c123_linear_partial {n : Nat} (h2 : 2 ≤ n) (qr : 2 ≤ n → QR (trendMatrix n)) (a : DetrendArgs)
    (hm : a.method = none ∨ a.method = some c!"qr") (ht : a.type = none ∨ a.type = some c!"linear") (A : List (Fin n → ℝ)) :
    ∃ B : List (Fin n → ℝ), (detrend qr a (A.map valid)).1 = .ok (B.map valid) ∧
      List.Forall₂ (fun d r => WithoutTrend d r ∧ ∀ a b : ℝ, ∑ k, r k ^ 2 ≤ ∑ k : Fin n, (d k - (a + b * (k : ℝ))) ^ 2) A B := by
  choose r hr hw using detrendRow_withoutTrend h2 (qr h2)
  refine ⟨A.map r, ?_, ?_⟩
  · rw [detrend_linear h2 qr a hm ht]
    simp only [List.map_map]
    congr 2
    funext d
    exact hr d
  · rw [List.forall₂_map_right_iff, List.forall₂_same]
    exact fun d _ => ⟨hw d, (hw d).best⟩

/-- C123: lines that are added to the traces have no effect on the result, and the result has no trend that could be removed once more.
Missing for the full property: `c123_nan_violated`, `c123_method_violated`, `c123_gap_violated` and others. -/
theorem c123_trend_partial {n : Nat} (h2 : 2 ≤ n) (qr : 2 ≤ n → QR (trendMatrix n)) (a : DetrendArgs)
    (hm : a.method = none ∨ a.method = some c!"qr") (ht : a.type = none ∨ a.type = some c!"linear") (A : List (Fin n → ℝ))
    (offset slope : (Fin n → ℝ) → ℝ) :
    (detrend qr a (A.map fun d => valid fun k => d k + (offset d + slope d * (k : ℝ)))).1 = (detrend qr a (A.map valid)).1 ∧
    ∀ B, (detrend qr a (A.map valid)).1 = .ok B → (detrend qr a B).1 = .ok B := by
  choose r hr hw using detrendRow_withoutTrend h2 (qr h2)
  constructor
  · rw [detrend_linear h2 qr a hm ht, detrend_linear h2 qr a hm ht]
    simp only [List.map_map]
    congr 2
    funext d
    simp only [Function.comp]
    rw [hr, hr, (hw _).unique ((hw d).add_line (offset d) (slope d))]
  · intro B hB
    rw [detrend_linear h2 qr a hm ht] at hB ⊢
    simp only [List.map_map] at hB
    obtain rfl := Except.ok.inj hB
    simp only [List.map_map]
    congr 2
    funext d
    simp only [Function.comp]
    rw [hr, hr, (hw _).unique (hw d).self]

/-- C123: with the type `constant` the mean of the valid samples becomes zero and missing samples stay missing; the argument is not changed -/
theorem c123_constant {n : Nat} (qr : 2 ≤ n → QR (trendMatrix n)) (m : Option Str) (hm : m = none ∨ m = some c!"qr")
    (A : List (Fin n → Option ℝ)) :
    ∃ B, detrend qr ⟨m, some c!"constant"⟩ A = (.ok B, A) ∧
      List.Forall₂ (fun d r => (∃ c : ℝ, ∀ k, r k = (d k).map (· - c)) ∧ ((List.ofFn r).filterMap id).sum = 0) A B := by
  refine ⟨A.map demeanRow, ?_, ?_⟩
  · have e' : m.getD c!"qr" = c!"qr" := by rcases hm with h | h <;> rw [h] <;> rfl
    simp only [detrend, e', Option.getD_some]
    rw [if_neg (by decide), if_pos trivial, if_neg (by decide), if_pos trivial]
  · rw [List.forall₂_map_right_iff, List.forall₂_same]
    intro d _
    cases hn : nanmeanR (List.ofFn d) with
    | some c =>
      refine ⟨⟨c, fun k => by simp only [demeanRow, hn]; cases d k <;> rfl⟩, ?_⟩
      rw [demeanRow_filterMap d c hn]
      unfold nanmeanR at hn
      split at hn
      · cases hn
      · next v hv =>
        obtain rfl := Option.some.inj hn
        exact sum_sub_mean _ hv
    | none =>
      have he : (List.ofFn d).filterMap id = [] := by
        unfold nanmeanR at hn
        split at hn
        · assumption
        · cases hn
      have hnone : ∀ k, d k = none := fun k => by
        cases hk : d k with
        | none => rfl
        | some x =>
          have : x ∈ (List.ofFn d).filterMap id := List.mem_filterMap.mpr ⟨some x, by rw [List.mem_ofFn]; exact ⟨k, hk⟩, rfl⟩
          rw [he] at this
          cases this
      have : demeanRow d = d := by funext k; simp [demeanRow, hnone k]
      refine ⟨⟨0, fun k => by rw [this, hnone k]; rfl⟩, ?_⟩
      rw [this, he]; rfl

/-- C123: unknown methods and types are refused, and nothing is changed -/
theorem c123_unknown {n : Nat} (qr : 2 ≤ n → QR (trendMatrix n)) (a : DetrendArgs) (A : List (Fin n → Option ℝ))
    (h : (∃ m, a.method = some m ∧ m ≠ c!"scipy" ∧ m ≠ c!"qr") ∨
      ((a.method = none ∨ a.method = some c!"qr") ∧ ∃ t, a.type = some t ∧ t ≠ c!"linear" ∧ t ≠ c!"constant")) :
    detrend qr a A = (.error .valueError, A) := by
  rcases h with ⟨m, hm, h1, h2⟩ | ⟨hm, t, ht, h1, h2⟩
  · simp only [detrend, hm, Option.getD_some]
    rw [if_neg h1, if_neg h2]
  · have e' : a.method.getD c!"qr" = c!"qr" := by rcases hm with h | h <;> rw [h] <;> rfl
    simp only [detrend, e', ht, Option.getD_some]
    rw [if_neg (by decide), if_pos trivial, if_neg h1, if_neg h2]

/-- C123 is violated: with the default arguments a trace with a missing sample is lost completely, whatever its other samples are -/
theorem c123_nan_violated {n : Nat} (h2 : 2 ≤ n) (qr : 2 ≤ n → QR (trendMatrix n)) (d : Fin n → Option ℝ) (k : Fin n) (h : d k = none) :
    (detrend qr ⟨none, none⟩ [d]).1 = .ok [fun _ => none] := by
  rw [detrend_linear h2 qr _ (.inl rfl) (.inl rfl)]
  simp only [List.map_cons, List.map_nil, detrendRow]
  rw [if_neg fun hall => hall k h]

/-- C123 is violated: the method `scipy` never works. The argument `method` is passed on to a function that does not know it, so that any
matrix with a valid sample gives a `TypeError`. -/
theorem c123_method_violated {n : Nat} (qr : 2 ≤ n → QR (trendMatrix n)) (type : Option Str) (A : List (Fin n → Option ℝ))
    (h : ∃ d ∈ A, ∃ k, d k ≠ none) : (detrend qr ⟨some c!"scipy", type⟩ A).1 = .error .typeError := by
  obtain ⟨d, hd, k, hk⟩ := h
  simp only [detrend, Option.getD_some]
  rw [if_pos trivial]
  unfold detrendScipy
  rw [if_neg fun hall => hk (hall d hd k)]
  cases A with
  | nil => cases hd
  | cons d' A => simp [detrendScipy.go, detrendScipyRow]

theorem detrendScipy_go {n : Nat} (a : DetrendArgs) (f : (Fin n → ℝ) → Fin n → Option ℝ) (A : List (Fin n → ℝ))
    (h : ∀ d, detrendScipyRow a (valid d) = .ok (f d)) : detrendScipy.go a (A.map valid) = (A.map f, none) := by
  induction A with
  | nil => rfl
  | cons d A ih => simp [detrendScipy.go, h, ih]

/-- C123: called directly, the other method (`detrend_scipy`) gives the same result for traces without missing samples.
Missing: see `c123_method_violated` and `c123_gap_violated`. -/
theorem c123_scipy_partial {n : Nat} (h2 : 2 ≤ n) (qr : 2 ≤ n → QR (trendMatrix n)) (type : Option Str)
    (ht : type = none ∨ type = some c!"linear") (A : List (Fin n → ℝ)) :
    (detrendScipy ⟨none, type⟩ (A.map valid)).2 = none ∧
      (detrend qr ⟨none, type⟩ (A.map valid)).1 = .ok (detrendScipy ⟨none, type⟩ (A.map valid)).1 := by
  choose r hr hw using detrendRow_withoutTrend h2 (qr h2)
  choose r' hr' hw' using @lineResiduals_withoutTrend n
  have hrow : ∀ d, detrendScipyRow ⟨none, type⟩ (valid d) = .ok (valid (r d)) := fun d => by
    have e : type.getD c!"linear" = c!"linear" := by rcases ht with h | h <;> rw [h] <;> rfl
    simp only [detrendScipyRow, e, Option.isSome_none]
    rw [if_neg (by decide), filterMap_valid]
    simp only [spDetrend, true_or, if_true]
    rw [hr' d]
    simp only [bind, Except.bind]
    congr 1
    funext k
    have : List.ofFn (valid d) = (List.ofFn d).map some := by rw [List.map_ofFn]; rfl
    rw [this, setValid_all _ _ (by simp), List.map_ofFn, getD_ofFn, (hw d).unique (hw' d)]
    rfl
  have hall : detrendScipy ⟨none, type⟩ (A.map valid) = (A.map fun d => valid (r d), none) := by
    unfold detrendScipy
    split
    · next h =>
      cases A with
      | nil => rfl
      | cons d A => have := h (valid d) (by simp) ⟨0, by omega⟩; simp [valid] at this
    · exact detrendScipy_go _ _ A hrow
  rw [hall, detrend_linear h2 qr _ (.inl rfl) ht]
  refine ⟨rfl, ?_⟩
  simp only [List.map_map]
  congr 2
  funext d
  exact hr d

theorem setValid_spec (row : List (Option ℝ)) (v : List ℝ) (h : v.length = (row.filterMap id).length) :
    (setValid row v).length = row.length ∧ (setValid row v).filterMap id = v ∧ ∀ k : Nat, (setValid row v).getD k none = none ↔ row.getD k none = none := by
  induction row generalizing v with
  | nil =>
    have : v = [] := List.length_eq_zero_iff.1 (by simpa using h)
    subst this
    simp [setValid]
  | cons x row ih =>
    cases x with
    | none =>
      obtain ⟨h1, h2, h3⟩ := ih v (by simpa using h)
      refine ⟨by simp [setValid, h1], by rw [setValid, List.filterMap_cons]; exact h2, fun k => ?_⟩
      cases k with
      | zero => simp [setValid]
      | succ k => simpa [setValid] using h3 k
    | some x =>
      cases v with
      | nil => simp at h
      | cons y v =>
        obtain ⟨h1, h2, h3⟩ := ih v (by simpa using h)
        refine ⟨by simp [setValid, h1], by rw [setValid, List.filterMap_cons]; exact congrArg (y :: ·) h2, fun k => ?_⟩
        cases k with
        | zero => simp [setValid]
        | succ k => simpa [setValid] using h3 k

/-- C123: for traces with missing samples `detrend_scipy` never fails. Missing samples stay missing, and the trend of the other samples, put together without the
gaps, is removed. (So gaps change the result, see `c123_gap_violated`.) -/
theorem c123_scipy_gaps {n : Nat} (type : Option Str) (ht : type = none ∨ type = some c!"linear") (A : List (Fin n → Option ℝ)) :
    (detrendScipy ⟨none, type⟩ A).2 = none ∧
      List.Forall₂ (fun d r => (∀ k, r k = none ↔ d k = none) ∧
        ∃ (m : Nat) (x y : Fin m → ℝ), (List.ofFn d).filterMap id = List.ofFn x ∧ (List.ofFn r).filterMap id = List.ofFn y ∧ WithoutTrend x y)
        A (detrendScipy ⟨none, type⟩ A).1 := by
  have hrow : ∀ d : Fin n → Option ℝ, ∃ r, detrendScipyRow ⟨none, type⟩ d = .ok r ∧ (∀ k, r k = none ↔ d k = none) ∧
      ∃ (m : Nat) (x y : Fin m → ℝ), (List.ofFn d).filterMap id = List.ofFn x ∧ (List.ofFn r).filterMap id = List.ofFn y ∧ WithoutTrend x y := by
    intro d
    have e : type.getD c!"linear" = c!"linear" := by rcases ht with h | h <;> rw [h] <;> rfl
    set l := (List.ofFn d).filterMap id with hl
    obtain ⟨y, hy, hw⟩ := lineResiduals_withoutTrend (n := l.length) fun k => l[k]
    have hx : List.ofFn (fun k : Fin l.length => l[k]) = l := List.ofFn_getElem
    rw [hx] at hy
    obtain ⟨h1, h2, h3⟩ := setValid_spec (List.ofFn d) (List.ofFn y) (by rw [List.length_ofFn])
    refine ⟨fun k => (setValid (List.ofFn d) (List.ofFn y)).getD k none, ?_, fun k => ?_, l.length, _, y, hx.symm, ?_, hw⟩
    · simp only [detrendScipyRow, e, Option.isSome_none]
      rw [if_neg (by decide)]
      simp only [spDetrend, true_or, if_true, ← hl, hy, bind, Except.bind]
    · rw [h3, getD_ofFn]
    · rw [show List.ofFn (fun k : Fin n => (setValid (List.ofFn d) (List.ofFn y)).getD k none) = setValid (List.ofFn d) (List.ofFn y) from ?_, h2]
      apply List.ext_getElem
      · rw [List.length_ofFn, h1, List.length_ofFn]
      · intro k hk hk'
        rw [List.getElem_ofFn, List.getD_eq_getElem _ _ hk']
  unfold detrendScipy
  split
  · next h =>
    refine ⟨rfl, List.forall₂_same.2 fun d hd => ⟨fun k => Iff.rfl, ?_⟩⟩
    have he : (List.ofFn d).filterMap id = [] := by
      rw [List.filterMap_eq_nil_iff]
      intro a ha
      obtain ⟨k, rfl⟩ := (List.mem_ofFn' d a).1 ha
      exact h d hd k
    obtain ⟨y, hy, hw⟩ := lineResiduals_withoutTrend (n := 0) fun k => k.elim0
    exact ⟨0, _, y, by rw [he]; simp, by rw [he]; simp, hw⟩
  · clear * - hrow
    induction A with
    | nil => exact ⟨rfl, .nil⟩
    | cons d A ih =>
      obtain ⟨r, h1, h2⟩ := hrow d
      simp only [detrendScipy.go, h1]
      exact ⟨ih.1, .cons h2 ih.2⟩

/-- C123 is violated: `detrend_scipy` closes gaps before it fits the line, so that it does not remove the trend of a trace with missing
samples: of the line 0, 1, 2, 3 with the second sample missing something remains -/
theorem c123_gap_violated :
    ∃ d : Fin 4 → Option ℝ, (∀ k x, d k = some x → x = (k : ℝ)) ∧ d 1 = none ∧
      (detrendScipy ⟨none, none⟩ [d]).2 = none ∧ ∃ r, (detrendScipy ⟨none, none⟩ [d]).1 = [r] ∧ r 0 = some (-1 / 6) := by
  refine ⟨fun k => if k = 1 then none else some (k : ℝ), ?_, rfl, ?_⟩
  · intro k x hx
    dsimp only at hx
    split at hx
    · cases hx
    · exact (Option.some.inj hx).symm
  · have hl : List.ofFn (fun k : Fin 4 => if k = 1 then none else some (k : ℝ)) = [some 0, none, some 2, some 3] := by
      simp [List.ofFn_succ]
      norm_num
    have hr : detrendScipyRow ⟨none, none⟩ (fun k : Fin 4 => if k = 1 then none else some (k : ℝ)) =
        .ok fun k => (setValid [some 0, none, some 2, some 3] (lineResiduals [0, 2, 3])).getD k none := by
      simp only [detrendScipyRow, hl]
      simp [spDetrend, bind, Except.bind]
    have hs : detrendScipy ⟨none, none⟩ [fun k : Fin 4 => if k = 1 then none else some (k : ℝ)] =
        ([fun k : Fin 4 => (setValid [some 0, none, some 2, some 3] (lineResiduals [0, 2, 3])).getD k none], none) := by
      unfold detrendScipy
      rw [if_neg (fun h => by have := h _ (List.mem_singleton.mpr rfl) 0; simp at this)]
      simp [detrendScipy.go, hr]
    rw [hs]
    refine ⟨rfl, _, rfl, ?_⟩
    simp [lineResiduals, List.range_succ, setValid]
    norm_num

/-- C123 is violated: for linear trends the traces that are given as argument are changed, for constant ones (`c123_constant`) they are not -/
theorem c123_argument_violated :
    ∃ A : List (Fin 2 → Option ℝ), ∀ qr, (detrend qr ⟨none, none⟩ A).2 ≠ A := by
  refine ⟨[valid fun _ => 1], fun qr => ?_⟩
  rw [detrend_linear le_rfl qr _ (.inl rfl) (.inl rfl)]
  obtain ⟨r, hr, hw⟩ := detrendRow_withoutTrend le_rfl (qr le_rfl) fun _ => (1 : ℝ)
  simp only [List.map_cons, List.map_nil, hr]
  intro h
  have h0 := congrFun (List.cons.inj h).1 0
  have h1 := congrFun (List.cons.inj h).1 1
  simp only [valid, Option.some.injEq] at h0 h1
  have := hw.mean
  rw [Fin.sum_univ_two, h0, h1] at this
  norm_num at this

/-- the hypotheses can be met: there is a decomposition for each number of samples, and a trace whose result is not zero -/
example : (∀ n, 2 ≤ n → Nonempty (QR (trendMatrix n))) ∧
    WithoutTrend (n := 3) ![0, 3, 0] ![-1, 2, -1] :=
  ⟨fun _ h => qr_exists h, ⟨⟨1, 0, fun k => by fin_cases k <;> norm_num⟩, by simp [Fin.sum_univ_succ]; norm_num,
    by simp [Fin.sum_univ_succ]; norm_num⟩⟩

end

end SeisMIC
