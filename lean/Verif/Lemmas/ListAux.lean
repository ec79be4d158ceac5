import Verif.Py.Basic

namespace SeisMIC

theorem nodup_filter {α : Type} (p : α → Bool) {l : List α} (h : l.Nodup) : (l.filter p).Nodup :=
  List.Pairwise.filter p h

theorem filterMap_getElem?_range {α : Type} (l : List α) :
    (List.range l.length).filterMap (fun i => l[i]?) = l := by
  suffices h : ∀ k ≤ l.length, (List.range k).filterMap (fun i => l[i]?) = l.take k by
    simpa using h l.length (Nat.le_refl _)
  intro k hk
  induction k with
  | zero => simp
  | succ k ih =>
    rw [List.range_succ, List.filterMap_append, ih (by omega)]
    have : k < l.length := by omega
    simp [this]

theorem mapM_ok {ε α β : Type} (l : List α) (f : α → Except ε β) (g : α → β)
    (h : ∀ x ∈ l, f x = .ok (g x)) : l.mapM f = .ok (l.map g) := by
  induction l with
  | nil => rfl
  | cons a l ih =>
    rw [List.mapM_cons, h a (by simp), ih (fun x hx => h x (by simp [hx]))]
    rfl

end SeisMIC
