import Verif.Py.Strings
import Verif.Lemmas.Sort
import Verif.Lemmas.Glob

namespace SeisMIC

theorem strLe_iff {a b : Str} : strLe a b = true ↔ a ≤ b := by simp [strLe]

theorem strLe_total (a b : Str) (h : strLe a b = false) : strLe b a = true := by
  simp only [strLe, decide_eq_false_iff_not] at h
  simp only [strLe, decide_eq_true_eq]
  exact (List.le_total a b).resolve_left h

theorem strLe_trans (a b c : Str) (h1 : strLe a b = true) (h2 : strLe b c = true) :
    strLe a c = true := by
  simp only [strLe, decide_eq_true_eq] at *
  exact List.le_trans h1 h2

theorem strLe_antisymm (a b : Str) (h1 : strLe a b = true) (h2 : strLe b a = true) : a = b := by
  simp only [strLe, decide_eq_true_eq] at *
  exact List.le_antisymm h1 h2

theorem strLe_refl (a : Str) : strLe a a = true := by
  simp only [strLe, decide_eq_true_eq]; exact List.le_refl a

theorem splitOn_ne_nil (c : Char) (s : Str) : splitOn c s ≠ [] := by
  cases s with
  | nil => simp [splitOn]
  | cons d s =>
    simp only [splitOn]
    split
    · simp
    · split <;> simp

theorem splitOn_eq_single (c : Char) (s : Str) (h : c ∉ s) : splitOn c s = [s] := by
  induction s with
  | nil => rfl
  | cons d s ih =>
    have hd : d ≠ c := fun e => h (by simp [e])
    have hs : c ∉ s := fun e => h (by simp [e])
    simp [splitOn, hd, ih hs]

theorem splitOn_append (c : Char) (a s : Str) (h : c ∉ a) :
    splitOn c (a ++ c :: s) = a :: splitOn c s := by
  induction a with
  | nil => simp [splitOn]
  | cons d a ih =>
    have hd : d ≠ c := fun e => h (by simp [e])
    have hs : c ∉ a := fun e => h (by simp [e])
    simp [splitOn, hd, ih hs]

theorem splitOn_pair (c : Char) (a b : Str) (ha : c ∉ a) (hb : c ∉ b) :
    splitOn c (a ++ [c] ++ b) = [a, b] := by
  simp [splitOn_append c a b ha, splitOn_eq_single c b hb]

theorem isSub_iff (a b : Str) : isSub a b = true ↔ ∃ u v, b = u ++ a ++ v := by
  simp only [isSub, List.any_eq_true, mem_suffixes, List.isPrefixOf_iff_prefix]
  constructor
  · rintro ⟨t, ⟨u, rfl⟩, ⟨v, rfl⟩⟩; exact ⟨u, v, by simp⟩
  · rintro ⟨u, v, rfl⟩; exact ⟨a ++ v, ⟨u, by simp⟩, ⟨v, rfl⟩⟩

end SeisMIC
