import Verif.Model.StretchApply
import Verif.Props.StretchMeasure
import Verif.Props.Decay

/-!
# C133: applying a stretch
-/

namespace SeisMIC

/-! ### Specification -/

/-- lag (in samples) of sample `k` of a trace with `n` samples -/
noncomputable def sampleLag (single : Bool) (n k : Nat) : ℝ := if single then (k : ℝ) else k - ((n : ℝ) - 1) / 2

/-! ### Lemmas -/

theorem applyIdx_eq (single : Bool) (n : Nat) : applyIdx single n = (List.range n).map (sampleLag single n) := rfl

theorem sampleLag_mono (single : Bool) (n : Nat) {i j : Nat} (h : i < j) : sampleLag single n i < sampleLag single n j := by
  have : (i : ℝ) < j := by exact_mod_cast h
  unfold sampleLag
  split <;> linarith

theorem applyIdx_pairwise (single : Bool) (n : Nat) : (applyIdx single n).Pairwise (· < ·) := by
  rw [applyIdx_eq, List.pairwise_map]
  exact List.pairwise_lt_range.imp fun h => sampleLag_mono single n h

/-! ### C133 -/

/-- **C133** (what is evaluated). The traces are multiplied with a taper that is one at all samples that are farther than 2.5 percent of the trace from
its ends; then each trace is the tapered one at its lags times the exponential of its stretch. -/
theorem c133_values (spline : List ℝ → List ℝ → ℝ → ℝ) (n : Nat) (hn : 3 ≤ n) (data : List (List ℝ)) (stretch more : List ℝ) (hl : stretch.length = data.length)
    (single : Bool) :
    ∃ w, EndTaper n (n / 40) w ∧ (timeStretchApply spline n data (stretch ++ more) single).1 =
      .ok (List.zipWith (fun row s => (List.range n).map fun k => spline ((List.range n).map (sampleLag single n)) (List.zipWith (· * ·) row w)
        (sampleLag single n k * Real.exp s)) data stretch) := by
  have hnq : (0 : Rat) < n := by exact_mod_cast (by omega : 0 < n)
  obtain ⟨w, hw, he⟩ := cosineTaper_endTaper n hn (n / 40) (by positivity) (by linarith)
  rw [show 2 * ((n : Rat) / 40) / n = 1 / 20 by field_simp; norm_num] at hw
  refine ⟨w, he, ?_⟩
  unfold timeStretchApply
  rw [hw]
  simp only
  rw [if_neg (by simp; omega), applyIdx_eq]
  congr 1
  refine List.ext_getElem (by simp; omega) fun i h1 h2 => ?_
  simp only [List.length_zipWith, List.length_map] at h1 h2
  simp only [List.getElem_zipWith, List.getElem_map, List.map_map]
  rw [List.getElem_append_left (by omega)]
  rfl

/-- **C133** (a stretch is removed). If the tapered traces are the samples of functions that the spline reproduces, each of them is evaluated at the
stretched lags, as far as these are inside of the trace. Applying the stretch by which a trace was measured to be stretched (C116: the trace at lag `l` is the
reference at lag `l * exp (-v)`) gives the reference back. Missing: traces that are not zero at their ends (they are changed by the taper), and the documented
sign (`c133_sign_violated`). -/
theorem c133_restored_partial (spline : List ℝ → List ℝ → ℝ → ℝ) (P : (ℝ → ℝ) → Prop) (hsp : Reproduces spline P) (n : Nat) (hn : 4 ≤ n) (data : List (List ℝ))
    (single : Bool) (w : List ℝ) (hw : cosineTaper n (1 / 20) = .ok w) (stretch : List ℝ) (hl : stretch.length = data.length)
    (f : ℝ → ℝ) (hf : ∀ v ∈ stretch, P fun t => f (t * Real.exp (-v)))
    (hdata : ∀ (i : Nat) (row : List ℝ) (v : ℝ), data[i]? = some row → stretch[i]? = some v →
      List.zipWith (· * ·) row w = (List.range n).map fun k => f (sampleLag single n k * Real.exp (-v))) :
    ∃ out, (timeStretchApply spline n data stretch single).1 = .ok out ∧ out.length = data.length ∧
      ∀ (i : Nat) (new : List ℝ) (v : ℝ), out[i]? = some new → stretch[i]? = some v → ∀ k, k < n →
        sampleLag single n 0 ≤ sampleLag single n k * Real.exp v → sampleLag single n k * Real.exp v ≤ sampleLag single n (n - 1) →
        new[k]? = some (f (sampleLag single n k)) := by
  refine ⟨List.zipWith (fun row s => (applyIdx single n).map fun t => spline (applyIdx single n) row (t * Real.exp s))
    (data.map fun row => List.zipWith (· * ·) row w) stretch, ?_, by simp [hl], fun i new v hi hv k hk h0 h1 => ?_⟩
  · unfold timeStretchApply
    rw [hw]
    simp only
    rw [if_neg (by omega)]
  have hlt := (List.getElem?_eq_some_iff.1 hv).1
  have hvs : stretch[i] = v := (List.getElem?_eq_some_iff.1 hv).2
  rw [List.getElem?_eq_getElem (by simp; omega), List.getElem_zipWith, List.getElem_map, hvs,
    hdata i data[i] v (List.getElem?_eq_getElem (by omega)) hv, Option.some.injEq] at hi
  rw [← hi, List.getElem?_map, applyIdx_eq, List.getElem?_map, List.getElem?_range hk]
  simp only [Option.map_some, Option.some.injEq]
  have hh : ((List.range n).map (sampleLag single n)).headD 0 = sampleLag single n 0 := by
    rw [headD_eq_getElem _ _ (by simp; omega), List.getElem_map, List.getElem_range]
  have hla : ((List.range n).map (sampleLag single n)).getLastD 0 = sampleLag single n (n - 1) := by
    rw [getLastD_eq_getElem _ _ (by simp; omega), List.getElem_map, List.getElem_range, List.length_map, List.length_range]
  have := hsp ((List.range n).map (sampleLag single n)) (fun t => f (t * Real.exp (-v))) (sampleLag single n k * Real.exp v) (by simpa using hn)
    (applyIdx_pairwise single n) (hf v (List.mem_of_getElem? hv)) (by rw [hh]; exact h0) (by rw [hla]; exact h1)
  rw [List.map_map] at this
  refine Eq.trans this ?_
  rw [mul_assoc, ← Real.exp_add, add_neg_cancel, Real.exp_zero, mul_one]

/-- **C133** (violated). The documentation says that the negative of the measured stretch has to be applied. It doubles the stretch: a trace that is the
reference at `l * exp (-v)` becomes the reference at `l * exp (-2 v)`. -/
theorem c133_sign_violated (spline : List ℝ → List ℝ → ℝ → ℝ) (P : (ℝ → ℝ) → Prop) (hsp : Reproduces spline P) (n : Nat) (hn : 4 ≤ n) (row : List ℝ)
    (single : Bool) (w : List ℝ) (hw : cosineTaper n (1 / 20) = .ok w) (v : ℝ) (f : ℝ → ℝ) (hf : P fun t => f (t * Real.exp (-v)))
    (hdata : List.zipWith (· * ·) row w = (List.range n).map fun k => f (sampleLag single n k * Real.exp (-v))) :
    ∃ new, (timeStretchApply spline n [row] [-v] single).1 = .ok [new] ∧ ∀ k, k < n →
      sampleLag single n 0 ≤ sampleLag single n k * Real.exp (-v) → sampleLag single n k * Real.exp (-v) ≤ sampleLag single n (n - 1) →
      new[k]? = some (f (sampleLag single n k * Real.exp (-(2 * v)))) := by
  have e : (fun t => (fun x => f (x * Real.exp (-(2 * v)))) (t * Real.exp (- -v))) = fun t => f (t * Real.exp (-v)) := by
    funext t
    simp only
    rw [mul_assoc, ← Real.exp_add]
    congr 3
    ring
  obtain ⟨out, h1, h2, h3⟩ := c133_restored_partial spline P hsp n hn [row] single w hw [-v] rfl (fun x => f (x * Real.exp (-(2 * v)))) (by
    intro u hu
    rw [List.mem_singleton.1 hu, e]
    exact hf) (by
    intro i r u hi hu
    cases i with
    | zero =>
      simp only [List.getElem?_cons_zero, Option.some.injEq] at hi hu
      rw [← hi, ← hu, hdata]
      exact List.map_congr_left fun k _ => (congrFun e (sampleLag single n k)).symm
    | succ i => simp at hi)
  obtain ⟨new, rfl⟩ : ∃ new, out = [new] := List.length_eq_one_iff.1 h2
  exact ⟨new, h1, fun k hk g1 g2 => h3 0 new (-v) rfl rfl k hk g1 g2⟩

/-- **C133** (violated). The traces of the caller are tapered: their first and last samples become zero. -/
theorem c133_argument_violated (spline : List ℝ → List ℝ → ℝ → ℝ) (n : Nat) (hn : 20 ≤ n) (data : List (List ℝ)) (hd : ∀ row ∈ data, row.length = n)
    (stretch : List ℝ) (single : Bool) :
    ∀ row ∈ (timeStretchApply spline n data stretch single).2, row.length = n ∧ row[0]? = some 0 ∧ row[n - 1]? = some 0 := by
  have hnq : (0 : Rat) < n := by exact_mod_cast (by omega : 0 < n)
  have hnq2 : (20 : Rat) ≤ n := by exact_mod_cast hn
  obtain ⟨w, hw, he⟩ := cosineTaper_endTaper n (by omega) (n / 40) (by positivity) (by linarith)
  rw [show 2 * ((n : Rat) / 40) / n = 1 / 20 by field_simp; norm_num] at hw
  intro row hrow
  unfold timeStretchApply at hrow
  rw [hw] at hrow
  obtain ⟨r, hr, rfl⟩ := List.mem_map.1 hrow
  have hrl := hd r hr
  have hwl := he.length
  have h0 := he.ends (by linarith) (by omega)
  have h1 := he.sym 0 (by omega)
  refine ⟨by simp; omega, ?_, ?_⟩
  · rw [List.getElem?_eq_getElem (by simp; omega), List.getElem_zipWith, h0, mul_zero]
  · rw [List.getElem?_eq_getElem (by simp; omega), List.getElem_zipWith]
    simp only [Nat.sub_zero] at h1
    rw [← h1, h0, mul_zero]

/-- **C133**: too few stretches are an `IndexError`; a matrix of stretches with another number of rows is refused before anything is changed; of its columns
only the first one is used. -/
theorem c133_refused (spline : List ℝ → List ℝ → ℝ → ℝ) (n : Nat) (hn : 3 ≤ n) (data : List (List ℝ)) (single : Bool) :
    (∀ stretch : List ℝ, stretch.length < data.length → (timeStretchApply spline n data stretch single).1 = .error .indexError) ∧
    (∀ stretch : List (List ℝ), stretch.length ≠ data.length → timeStretchApply2 spline n data stretch single = (.error .valueError, data)) ∧
    ∀ (stretch : List ℝ) (more : List (List ℝ)), stretch.length = data.length → more.length = data.length →
      timeStretchApply2 spline n data (List.zipWith (· :: ·) stretch more) single = timeStretchApply spline n data stretch single := by
  have hnq : (0 : Rat) < n := by exact_mod_cast (by omega : 0 < n)
  obtain ⟨w, hw, -⟩ := cosineTaper_endTaper n hn (n / 40) (by positivity) (by linarith)
  rw [show 2 * ((n : Rat) / 40) / n = 1 / 20 by field_simp; norm_num] at hw
  refine ⟨fun stretch h => ?_, fun stretch h => ?_, fun stretch more h1 h2 => ?_⟩
  · unfold timeStretchApply
    rw [hw]
    simp only
    rw [if_pos h]
  · unfold timeStretchApply2
    rw [if_pos h]
  · unfold timeStretchApply2
    rw [if_neg (by simp; omega)]
    congr 1
    refine List.ext_getElem (by simp; omega) fun i g1 g2 => ?_
    simp

/-- the hypotheses of `c133_restored_partial` and `c133_sign_violated` are met: 40 samples of a parabola that is zero at the ends of the trace -/
example : ∃ (spline : List ℝ → List ℝ → ℝ → ℝ) (w : List ℝ), Reproduces spline Cubics ∧ cosineTaper 40 (1 / 20) = .ok w ∧
    Cubics (fun t => (fun t : ℝ => 1521 / 4 - (t * Real.exp 1) ^ 2) (t * Real.exp (-1))) ∧ ∃ row : List ℝ, row.length = 40 ∧ row[1]? = some 38 ∧
      List.zipWith (· * ·) row w = (List.range 40).map fun k => (fun t : ℝ => 1521 / 4 - (t * Real.exp 1) ^ 2) (sampleLag false 40 k * Real.exp (-1)) := by
  obtain ⟨spline, hs⟩ := exists_reproduces_cubics
  obtain ⟨w, hw, he⟩ := cosineTaper_endTaper 40 (by norm_num) 1 (by norm_num) (by norm_num)
  rw [show 2 * (1 : Rat) / (40 : Nat) = 1 / 20 by norm_num] at hw
  have hwl := he.length
  refine ⟨spline, w, hs, hw, ⟨1521 / 4, 0, -1, 0, fun x => ?_⟩, (List.range 40).map fun k => 1521 / 4 - (sampleLag false 40 k) ^ 2, by simp, ?_, ?_⟩
  · simp only
    rw [mul_assoc, ← Real.exp_add, neg_add_cancel, Real.exp_zero]
    ring
  · rw [List.getElem?_map, List.getElem?_range (by norm_num)]
    simp only [Option.map_some, Option.some.injEq]
    unfold sampleLag
    norm_num
  refine List.ext_getElem (by simp [hwl]) fun k h1 h2 => ?_
  simp only [List.length_map, List.length_range] at h2
  rw [List.getElem_zipWith, List.getElem_map, List.getElem_range, List.getElem_map, List.getElem_range]
  simp only
  rw [mul_assoc, ← Real.exp_add, neg_add_cancel, Real.exp_zero, mul_one]
  rcases Nat.eq_zero_or_pos k with rfl | hk
  · unfold sampleLag
    norm_num
  by_cases hk2 : k = 39
  · subst hk2
    unfold sampleLag
    norm_num
  rw [he.inner k (by omega) (by exact_mod_cast hk) (by
    have : (k : Rat) ≤ 38 := by exact_mod_cast (by omega : k ≤ 38)
    push_cast
    linarith), mul_one]

end SeisMIC
