import Verif.Py.Sort

namespace SeisMIC

variable {α : Type}

theorem insertSorted_perm (le : α → α → Bool) (a : α) (l : List α) :
    (insertSorted le a l).Perm (a :: l) := by
  induction l with
  | nil => exact .refl _
  | cons b l ih =>
    unfold insertSorted
    split
    · exact .refl _
    · exact ((ih.cons b).trans (List.Perm.swap a b l))

theorem isort_perm (le : α → α → Bool) (l : List α) : (isort le l).Perm l := by
  induction l with
  | nil => exact .refl _
  | cons a l ih => exact (insertSorted_perm le a _).trans (ih.cons a)

theorem mem_isort {le : α → α → Bool} {l : List α} {a : α} : a ∈ isort le l ↔ a ∈ l :=
  (isort_perm le l).mem_iff

theorem length_isort (le : α → α → Bool) (l : List α) : (isort le l).length = l.length :=
  (isort_perm le l).length_eq

theorem insertSorted_sorted (le : α → α → Bool)
    (total : ∀ a b, le a b = false → le b a = true)
    (trans : ∀ a b c, le a b = true → le b c = true → le a c = true)
    (a : α) (l : List α) (h : l.Pairwise fun x y => le x y = true) :
    (insertSorted le a l).Pairwise fun x y => le x y = true := by
  induction l with
  | nil => simp [insertSorted]
  | cons b l ih =>
    have ⟨hb, hl⟩ := List.pairwise_cons.1 h
    unfold insertSorted
    split
    · rename_i hab
      refine List.pairwise_cons.2 ⟨?_, h⟩
      intro c hc
      rcases List.mem_cons.1 hc with rfl | hc
      · exact hab
      · exact trans _ _ _ hab (hb c hc)
    · rename_i hab
      refine List.pairwise_cons.2 ⟨?_, ih hl⟩
      intro c hc
      rcases List.mem_cons.1 ((insertSorted_perm le a l).mem_iff.1 hc) with rfl | hc
      · exact total _ _ (by simpa using hab)
      · exact hb c hc

theorem isort_sorted (le : α → α → Bool)
    (total : ∀ a b, le a b = false → le b a = true)
    (trans : ∀ a b c, le a b = true → le b c = true → le a c = true) (l : List α) :
    (isort le l).Pairwise fun x y => le x y = true := by
  induction l with
  | nil => simp [isort]
  | cons a l ih => exact insertSorted_sorted le total trans a _ ih

theorem insertSorted_of_le (le : α → α → Bool) (a : α) (l : List α)
    (h : ∀ b ∈ l, le a b = true) : insertSorted le a l = a :: l := by
  cases l with
  | nil => rfl
  | cons b l => simp [insertSorted, h b (by simp)]

theorem isort_eq_self (le : α → α → Bool) (l : List α)
    (h : l.Pairwise fun x y => le x y = true) : isort le l = l := by
  induction l with
  | nil => rfl
  | cons a l ih =>
    have ⟨ha, hl⟩ := List.pairwise_cons.1 h
    rw [isort, ih hl, insertSorted_of_le le a l ha]

theorem isort_pair (le : α → α → Bool) (a b : α) :
    isort le [a, b] = if le a b then [a, b] else [b, a] := by
  simp [isort, insertSorted]

end SeisMIC
