import Verif.Spec.Amplitude
import Verif.Lemmas.PostCorr
import Mathlib.Algebra.BigOperators.Group.List.Lemmas
import Mathlib.Algebra.Order.BigOperators.Group.List

/-! # Lemmas about amplitudes -/

namespace SeisMIC

theorem maxR_spec (l : List ℝ) (m : ℝ) (h : maxR l = some m) : m ∈ l ∧ ∀ x ∈ l, x ≤ m := by
  cases l with
  | nil => cases h
  | cons x l =>
    simp only [maxR, Option.some.injEq] at h
    subst h
    induction l generalizing x with
    | nil => simp
    | cons y l ih =>
      have hi := ih (max x y)
      simp only [List.foldl_cons]
      obtain ⟨h1, h2⟩ := hi
      constructor
      · rcases List.mem_cons.1 h1 with h | h
        · rw [h]
          rcases max_choice x y with h | h <;> simp [h]
        · simp [h]
      · intro z hz
        have h3 := h2 (max x y) (by simp)
        rcases List.mem_cons.1 hz with rfl | hz
        · exact le_trans (le_max_left _ _) h3
        · rcases List.mem_cons.1 hz with rfl | hz
          · exact le_trans (le_max_right _ _) h3
          · exact h2 z (by simp [hz])

theorem maxR_isSome (l : List ℝ) (h : l ≠ []) : ∃ m, maxR l = some m := by
  cases l with
  | nil => exact absurd rfl h
  | cons x l => exact ⟨_, rfl⟩

theorem sum_map_div (l : List ℝ) (f : ℝ → ℝ) (c : ℝ) : (l.map fun x => f x / c).sum = (l.map f).sum / c := by
  induction l with
  | nil => simp
  | cons x l ih => simp [ih, add_div]

theorem sum_nonneg_eq_zero (l : List ℝ) (f : ℝ → ℝ) (hf : ∀ x, 0 ≤ f x) (h : (l.map f).sum = 0) : ∀ x ∈ l, f x = 0 := by
  induction l with
  | nil => simp
  | cons x l ih =>
    have h1 : 0 ≤ (l.map f).sum := by
      apply List.sum_nonneg
      intro y hy
      obtain ⟨z, -, rfl⟩ := List.mem_map.1 hy
      exact hf z
    have h2 := hf x
    simp only [List.map_cons, List.sum_cons] at h
    intro y hy
    rcases List.mem_cons.1 hy with rfl | hy
    · linarith
    · exact ih (by linarith) y hy

end SeisMIC
