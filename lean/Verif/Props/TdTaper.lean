import Verif.Model.TdTaper
import Verif.Props.Decay

/-!
# C229: tapering of traces before they are correlated
-/

namespace SeisMIC

/-- **C229** (weights). A cosine taper of the fraction `p` of at least three samples multiplies all traces with the same weights: those within `p/2` of the length from an
end rise from 0 to 1 and the others are 1. Without `p` it is a tenth.
Missing: traces of two samples (`c229_two_samples_violated`). -/
theorem c229_weights_partial (lib : Str → Option (Nat → Except PyErr (List ℝ))) (n : Nat) (hn : 3 ≤ n) (A : List (List ℝ)) (p : Option Rat)
    (h0 : 0 < p.getD (1 / 10)) (h1 : p.getD (1 / 10) ≤ 1) :
    ∃ w, EndTaper n (n * p.getD (1 / 10) / 2) w ∧
      tdTaper lib n A (some c!"cosine_taper") p = .ok (A.map fun row => List.zipWith (fun x w => x * w) row w) := by
  have hnq : (0 : Rat) < n := by exact_mod_cast (by omega : 0 < n)
  obtain ⟨w, hw, he⟩ := cosineTaper_endTaper n hn (n * p.getD (1 / 10) / 2) (by positivity) (by nlinarith)
  rw [show 2 * (n * p.getD (1 / 10) / 2) / (n : Rat) = p.getD (1 / 10) by field_simp] at hw
  refine ⟨w, he, ?_⟩
  unfold tdTaper taperWeights
  simp only [if_pos, hw]

/-- **C229** (shape and amplitude). Whatever window is used, a trace keeps its place, and no trace influences another one; with the cosine taper its samples keep their number,
and no amplitude grows. -/
theorem c229_each_partial (lib : Str → Option (Nat → Except PyErr (List ℝ))) (n : Nat) (A out : List (List ℝ)) (type : Option Str) (p : Option Rat)
    (h : tdTaper lib n A type p = .ok out) :
    out.length = A.length ∧
    (∀ (i : Nat) (x : List ℝ), A[i]? = some x → ∃ y, out[i]? = some y ∧ tdTaper lib n [x] type p = .ok [y]) ∧
    (3 ≤ n → 0 < p.getD (1 / 10) → type = some c!"cosine_taper" → ∀ (i : Nat) (x y : List ℝ), A[i]? = some x → x.length = n → out[i]? = some y →
      y.length = n ∧ ∀ k (hx : k < x.length) (hy : k < y.length), |y[k]| ≤ |x[k]|) := by
  have hh := h
  unfold tdTaper at h
  cases type with
  | none => cases h
  | some t =>
    have hw : ∃ w : List ℝ, ∀ B, tdTaper lib n B (some t) p = .ok (B.map fun row => List.zipWith (fun x w => x * w) row w) := by
      simp only at h
      split at h
      · cases h
      · rename_i w hw
        refine ⟨w, fun B => ?_⟩
        unfold tdTaper
        simp only [hw]
    obtain ⟨w, hw⟩ := hw
    have ho : out = A.map fun row => List.zipWith (fun x w => x * w) row w := by
      rw [hw A] at hh
      cases hh
      rfl
    subst ho
    refine ⟨by simp, fun i x hx => ⟨_, by rw [List.getElem?_map, hx]; rfl, by rw [hw]; rfl⟩, ?_⟩
    intro hn hp ht i x y hx hxn hy
    cases ht
    have hp1 : p.getD (1 / 10) ≤ 1 := by
      by_contra hlt
      have : tdTaper lib n A (some c!"cosine_taper") p = .error .valueError := by
        unfold tdTaper taperWeights cosineTaper
        simp only [if_pos, if_pos (Or.inr (not_le.1 hlt) : p.getD (1 / 10) < 0 ∨ 1 < p.getD (1 / 10))]
      rw [this] at hh
      cases hh
    obtain ⟨w', he, hw'⟩ := c229_weights_partial lib n hn [x] p hp hp1
    rw [hw [x]] at hw'
    rw [List.getElem?_map, hx] at hy
    cases hy
    simp only [List.map_cons, List.map_nil, Except.ok.injEq, List.cons.injEq, and_true] at hw'
    refine ⟨by simp only [hw']; simp [hxn, he.length], fun k hk hk' => ?_⟩
    simp only [hw', List.getElem_zipWith]
    have hkw : k < w'.length := by rw [he.length, ← hxn]; exact hk
    have hr := he.range k hkw
    rw [abs_mul, abs_of_nonneg hr.1]
    exact mul_le_of_le_one_right (abs_nonneg _) hr.2

/-- **C229** (refused). Fractions outside of zero to one, unknown tapers and a missing type are refused. -/
theorem c229_refused (lib : Str → Option (Nat → Except PyErr (List ℝ))) (n : Nat) (A : List (List ℝ)) (p : Option Rat) :
    (p.getD (1 / 10) < 0 ∨ 1 < p.getD (1 / 10) → tdTaper lib n A (some c!"cosine_taper") p = .error .valueError) ∧
    (∀ t, t ≠ c!"cosine_taper" → lib t = none → tdTaper lib n A (some t) p = .error .attributeError) ∧
    tdTaper lib n A none p = .error .keyError := by
  refine ⟨fun h => ?_, fun t ht hl => ?_, rfl⟩
  · unfold tdTaper taperWeights cosineTaper
    simp only [if_pos, if_pos h]
  · unfold tdTaper taperWeights
    simp only [if_neg ht, hl]

/-- **C229** (no taper). The fraction zero changes nothing. -/
theorem c229_zero (lib : Str → Option (Nat → Except PyErr (List ℝ))) (n : Nat) (A : List (List ℝ)) (hA : ∀ row ∈ A, row.length = n) :
    tdTaper lib n A (some c!"cosine_taper") (some 0) = .ok A := by
  have hw : cosineTaper n 0 = .ok (List.replicate n 1) := by
    unfold cosineTaper
    rw [if_neg (by norm_num)]
    have hf : (if (0 : Rat) = 0 ∨ (0 : Rat) = 1 then ((n : Rat) * 0 / 2).floor else ((n : Rat) * 0 / 2 + 1 / 2).floor) = 0 := by
      rw [if_pos (Or.inl rfl), mul_zero, zero_div]
      rfl
    rw [hf]
    simp only []
    congr 1
    refine List.ext_getElem (by simp) fun k h1 h2 => ?_
    simp only [List.length_map, List.length_range] at h1
    rw [List.getElem_map, List.getElem_range, List.getElem_replicate]
    rw [if_neg (by split <;> omega), if_pos (by split <;> omega)]
  unfold tdTaper taperWeights
  simp only [if_pos, Option.getD_some, hw]
  congr 1
  refine (List.map_congr_left fun row hrow => ?_).trans (List.map_id A)
  refine List.ext_getElem (by simp [hA row hrow]) fun k h1 h2 => ?_
  simp

/-- two traces of ten samples, of which a fifth is tapered -/
example : ∃ w, EndTaper 10 1 w ∧ tdTaper (fun _ => none) 10 [List.replicate 10 1, List.replicate 10 2] (some c!"cosine_taper") (some (1 / 5)) =
    .ok [List.zipWith (fun x w => x * w) (List.replicate 10 1) w, List.zipWith (fun x w => x * w) (List.replicate 10 2) w] := by
  have := c229_weights_partial (fun _ => none) 10 (by norm_num) [List.replicate 10 1, List.replicate 10 2] (some (1 / 5)) (by norm_num) (by norm_num)
  norm_num at this
  exact this

/-- **C229** (violated). Of two samples only the second one is tapered. -/
theorem c229_two_samples_violated (lib : Str → Option (Nat → Except PyErr (List ℝ))) (a b : ℝ) :
    tdTaper lib 2 [[a, b]] (some c!"cosine_taper") (some 1) = .ok [[a, 0]] := by
  have h1 : Rat.floor 1 = 1 := rfl
  unfold tdTaper taperWeights cosineTaper
  simp only [if_pos, Option.getD_some]
  rw [if_neg (by norm_num)]
  norm_num [List.range_succ, h1]

end SeisMIC
