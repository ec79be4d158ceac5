import Verif.Spec.Stream
import Verif.Lemmas.Sort
import Verif.Lemmas.ListAux
import Verif.Lemmas.Strings
import Mathlib.Data.List.Basic
import Mathlib.Data.List.Nodup
import Mathlib.Tactic.Linarith

namespace SeisMIC

variable {V : Type}

theorem insertSorted_filter {α : Type} (le : α → α → Bool) (p : α → Bool)
    (h : ∀ a b, p a = true → p b = true → le a b = true) (a : α) (l : List α) :
    (insertSorted le a l).filter p = (a :: l).filter p := by
  induction l with
  | nil => rfl
  | cons b l ih =>
    unfold insertSorted
    split
    · rfl
    · rename_i hab
      rw [List.filter_cons, ih]
      by_cases ha : p a = true
      · have hb : p b = false := by
          by_contra hb
          exact hab (h a b ha (by simpa using hb))
        simp [ha, hb]
      · simp [List.filter_cons, ha]

/-- a stable sort keeps the order of elements that are equal for the order -/
theorem isort_filter {α : Type} (le : α → α → Bool) (p : α → Bool)
    (h : ∀ a b, p a = true → p b = true → le a b = true) (l : List α) :
    (isort le l).filter p = l.filter p := by
  induction l with
  | nil => rfl
  | cons a l ih =>
    rw [isort, insertSorted_filter le p h, List.filter_cons, List.filter_cons, ih]

theorem startLe_total (a b : CTr V) (h : startLe a b = false) : startLe b a = true := by
  simp only [startLe, decide_eq_false_iff_not, decide_eq_true_eq] at *; omega

theorem startLe_trans (a b c : CTr V) (h : startLe a b = true) (h' : startLe b c = true) :
    startLe a c = true := by
  simp only [startLe, decide_eq_true_eq] at *; omega

theorem isort_startLe_sorted (st : List (CTr V)) :
    (isort startLe st).Pairwise fun x y => x.stats.corrStart ≤ y.stats.corrStart := by
  refine (isort_sorted startLe startLe_total startLe_trans st).imp ?_
  intro a b h
  simpa [startLe] using h

theorem selectCorrTime_eq (st : List (CTr V)) (a b : Int) (partly : Bool) (h : partly = true → a < b) :
    selectCorrTime st a b partly = (isort startLe st).filter fun tr => decide (InWindow a b partly tr) := by
  unfold selectCorrTime InWindow
  cases partly
  · simp only [Bool.false_eq_true, ↓reduceIte]
    apply List.filter_congr
    intro x _
    simp [Bool.decide_and]
  · simp only [↓reduceIte]
    apply List.filter_congr
    intro x _
    rw [Bool.eq_iff_iff]
    simp only [Bool.or_eq_true, Bool.and_eq_true, decide_eq_true_eq]
    have := h rfl
    omega

theorem arrayEqual_iff (a b : List F) (ha : ∀ x ∈ a, x ≠ none) : arrayEqual a b = true ↔ a = b := by
  induction a generalizing b with
  | nil => cases b <;> simp [arrayEqual]
  | cons x a ih =>
    cases x with
    | none => exact absurd rfl (ha none (by simp))
    | some x =>
      cases b with
      | nil => simp [arrayEqual]
      | cons y b =>
        cases y with
        | none => simp [arrayEqual]
        | some y =>
          simp [arrayEqual, ih b (fun z hz => ha z (by simp [hz]))]

theorem pyEq_iff [DecidableEq V] (a b : CTr V) (ha : NoNan a) : a.pyEq b = true ↔ a = b := by
  cases a; cases b
  simp [CTr.pyEq, arrayEqual_iff _ _ ha]

theorem removeDuplicates_inv [DecidableEq V] (st acc : List (CTr V)) :
    ∃ l : List (CTr V), st.foldl (fun acc ctr => if acc.any fun x => x.pyEq ctr then acc else acc ++ [ctr]) acc
        = acc ++ l ∧ l.Sublist st ∧
      (∀ tr ∈ st, ∃ x ∈ acc ++ l, x = tr ∨ x.pyEq tr = true) ∧
      (∀ x ∈ acc, ∀ y ∈ l, x.pyEq y = false) ∧ l.Pairwise (fun x y => x.pyEq y = false) := by
  induction st generalizing acc with
  | nil => exact ⟨[], by simp⟩
  | cons a st ih =>
    rw [List.foldl_cons]
    split
    · rename_i hany
      obtain ⟨l, h1, h2, h3, h4, h5⟩ := ih acc
      refine ⟨l, h1, h2.cons a, ?_, h4, h5⟩
      intro tr htr
      rcases List.mem_cons.1 htr with rfl | htr
      · obtain ⟨x, hx, hxe⟩ := List.any_eq_true.1 hany
        exact ⟨x, by simp [hx], Or.inr hxe⟩
      · exact h3 tr htr
    · rename_i hany
      obtain ⟨l, h1, h2, h3, h4, h5⟩ := ih (acc ++ [a])
      refine ⟨a :: l, by simpa using h1, h2.cons_cons a, ?_, ?_, ?_⟩
      · intro tr htr
        rcases List.mem_cons.1 htr with rfl | htr
        · exact ⟨tr, by simp, Or.inl rfl⟩
        · simpa using h3 tr htr
      · intro x hx y hy
        rcases List.mem_cons.1 hy with rfl | hy
        · by_contra hxy
          exact hany (List.any_eq_true.2 ⟨x, hx, by simpa using hxy⟩)
        · exact h4 x (by simp [hx]) y hy
      · exact List.pairwise_cons.2 ⟨fun y hy => h4 a (by simp) y hy, h5⟩

end SeisMIC
