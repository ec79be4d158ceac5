import Verif.Props.Smooth

/-!
# C109: the shapes of the smoothing windows

The weights of `c109_interior` are pinned down at the ends, at the quarters and in the middle of windows with an odd number of samples.
-/

namespace SeisMIC

theorem window_value (h j : Nat) (hh : 1 ≤ h) (k : ℝ) :
    k * Real.pi * (j : ℝ) / (((2 * h + 1 : Nat) : ℝ) - 1) = k * Real.pi * ((j : ℝ) / (2 * h)) := by
  have : (h : ℝ) ≠ 0 := by positivity
  push_cast
  field_simp
  ring

theorem cos_four_pi : Real.cos (4 * Real.pi) = 1 := by
  rw [show 4 * Real.pi = ((2 : Nat) : ℝ) * (2 * Real.pi) by push_cast; ring]
  exact Real.cos_nat_mul_two_pi 2

/-- C109: the weights of the windows with `2 h + 1` samples. At both ends they are 1 (flat), 0 (hanning, bartlett, blackman) and 0.08 (hamming), and all of
them are 1 in the middle. -/
theorem c109_shapes (h : Nat) (hh : 1 ≤ h) (window : Str) (e : ℝ)
    (he : (window, e) ∈ [(c!"flat", 1), (c!"hanning", 0), (c!"hamming", 8 / 100), (c!"bartlett", 0), (c!"blackman", 0)]) :
    ∃ w, smoothWindow window (2 * h + 1) = .ok w ∧ w.length = 2 * h + 1 ∧ w[0]? = some e ∧ w[2 * h]? = some e ∧ w[h]? = some 1 := by
  have hp : (0 : ℝ) < h := by exact_mod_cast hh
  have h1 : ((h : Nat) : ℝ) / (2 * h) = 1 / 2 := by field_simp
  have h2 : ((2 * h : Nat) : ℝ) / (2 * h) = 1 := by push_cast; field_simp
  have c4 := cos_four_pi
  have a1 : 2 * Real.pi * (1 / 2) = Real.pi := by ring
  have a2 : 4 * Real.pi * (1 / 2) = 2 * Real.pi := by ring
  simp only [List.mem_cons, Prod.mk.injEq, List.not_mem_nil, or_false] at he
  rcases he with ⟨rfl, rfl⟩ | ⟨rfl, rfl⟩ | ⟨rfl, rfl⟩ | ⟨rfl, rfl⟩ | ⟨rfl, rfl⟩
  all_goals
    refine ⟨_, by simp only [smoothWindow]; rfl, by simp, ?_, ?_, ?_⟩
    all_goals
      rw [List.getElem?_map, List.getElem?_range (by omega)]
      simp only [Option.map_some, window_value _ _ hh, h1, h2, a1, a2, mul_one, c4, Real.cos_two_pi, Real.cos_pi, Option.some.injEq]
      try norm_num
      try (push_cast; rw [mul_div_assoc]; norm_num)
  · rw [show 2 * (h : ℝ) / (2 * h) = 1 by field_simp]; norm_num
  · rw [h1]; norm_num

/-- a window of 5 samples meets the hypotheses -/
example : ∃ w, smoothWindow c!"hamming" 5 = .ok w ∧ w.length = 5 ∧ w[0]? = some (8 / 100) ∧ w[4]? = some (8 / 100) ∧ w[2]? = some 1 :=
  c109_shapes 2 (by norm_num) _ _ (by simp)

end SeisMIC
