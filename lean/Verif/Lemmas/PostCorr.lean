import Verif.Spec.PostCorr
import Verif.Lemmas.Partition
import Verif.Lemmas.ListAux
import Mathlib.Algebra.Order.Floor.Ring
import Mathlib.Data.Rat.Floor
import Mathlib.Tactic.Linarith
import Mathlib.Tactic.FieldSimp
import Mathlib.Tactic.Positivity
import Mathlib.Tactic.Ring

/-! # Lemmas about correlation matrices -/

namespace SeisMIC

theorem ratFloor_le (x : Rat) : (x.floor : Rat) ≤ x := Int.floor_le x

theorem ratFloor_lt (x : Rat) : x < x.floor + 1 := Int.lt_floor_add_one x

theorem ratFloor_lt_iff (x : Rat) (n : Int) : x.floor < n ↔ x < n := Int.floor_lt (a := x)

theorem le_ratFloor_iff (x : Rat) (n : Int) : n ≤ x.floor ↔ (n : Rat) ≤ x := Int.le_floor (a := x)

theorem length_filterMap_all {α β : Type} (l : List α) (f : α → Option β) (h : ∀ x ∈ l, (f x).isSome) :
    (l.filterMap f).length = l.length := by
  induction l with
  | nil => rfl
  | cons x l ih =>
    obtain ⟨y, hy⟩ := Option.isSome_iff_exists.1 (h x (by simp))
    rw [List.filterMap_cons, hy]
    simp [ih (fun z hz => h z (by simp [hz]))]

theorem slice_eq_samples {α : Type} (row : List α) (a e : Nat) (hae : a ≤ e + 1) (he : e + 1 ≤ row.length) :
    (row.drop a).take (e + 1 - a) = samplesWhere row (fun i => decide (a ≤ i) && decide (i ≤ e)) := by
  unfold samplesWhere
  have h1 : (List.range row.length).filter (fun i => decide (a ≤ i) && decide (i ≤ e)) =
      (List.range row.length).filter (fun i => decide (a ≤ i ∧ i < e + 1)) := by
    apply List.filter_congr
    intro i _
    rw [← Bool.decide_and]
    exact decide_eq_decide.2 (by omega)
  rw [h1, filter_range_interval _ _ _ hae he]
  have : ∀ (k a : Nat), a + k ≤ row.length → (List.range' a k).filterMap (fun i => row[i]?) = (row.drop a).take k := by
    intro k
    induction k with
    | zero => intro a _; simp
    | succ k ih =>
      intro a h
      have ha : a < row.length := by omega
      rw [List.range'_succ, List.filterMap_cons, List.getElem?_eq_getElem ha]
      simp only
      rw [ih (a + 1) (by omega), List.drop_eq_getElem_cons ha, List.take_succ_cons]
  rw [this _ _ (by omega)]

theorem samplesWhere_map {α β : Type} (row : List α) (P : Nat → Bool) (g : α → β) :
    samplesWhere (row.map g) P = (samplesWhere row P).map g := by
  unfold samplesWhere
  rw [List.length_map, List.map_filterMap]
  apply List.filterMap_congr
  intro i _
  simp

theorem samplesWhere_congr {α : Type} (row : List α) (P Q : Nat → Bool) (h : ∀ i, i < row.length → P i = Q i) :
    samplesWhere row P = samplesWhere row Q := by
  unfold samplesWhere
  rw [List.filter_congr (fun i hi => h i (List.mem_range.1 hi))]

theorem samplesWhere_slice {α : Type} (row : List α) (a e : Nat) (he : e ≤ row.length) :
    (row.drop a).take (e - a) = samplesWhere row (fun i => decide (a ≤ i) && decide (i < e)) := by
  by_cases h : a < e
  · obtain ⟨k, rfl⟩ : ∃ k, e = k + 1 := ⟨e - 1, by omega⟩
    rw [slice_eq_samples row a k (by omega) he]
    apply samplesWhere_congr
    intro i _
    have : decide (i ≤ k) = decide (i < k + 1) := decide_eq_decide.2 (by omega)
    rw [this]
  · rw [show e - a = 0 by omega]
    unfold samplesWhere
    have : (List.range row.length).filter (fun i => decide (a ≤ i) && decide (i < e)) = [] := by
      rw [List.filter_eq_nil_iff]
      intro i _
      simp only [Bool.and_eq_true, decide_eq_true_eq]
      omega
    rw [this]
    rfl

theorem mem_samplesWhere {α : Type} (row : List α) (P : Nat → Bool) (x : α) :
    x ∈ samplesWhere row P ↔ ∃ i, P i = true ∧ row[i]? = some x := by
  unfold samplesWhere
  rw [List.mem_filterMap]
  constructor
  · rintro ⟨i, hi, hx⟩
    exact ⟨i, (List.mem_filter.1 hi).2, hx⟩
  · rintro ⟨i, hi, hx⟩
    obtain ⟨hl, -⟩ := List.getElem?_eq_some_iff.1 hx
    exact ⟨i, List.mem_filter.2 ⟨List.mem_range.2 hl, hi⟩, hx⟩

end SeisMIC
