import Verif.Py.Nan

/-! # Specification: averages of velocity change results -/

namespace SeisMIC.Spec

/-- `m` is the mean of the defined entries of `l`, undefined if there is none -/
def NanMean (l : List F) (m : F) : Prop :=
  (m = none ↔ ∀ x ∈ l, x = none) ∧
  ∀ y, m = some y → y * ((l.filterMap id).length : Rat) = (l.filterMap id).sum

/-- `m` is the largest of the defined entries of `l`, undefined if there is none -/
def NanMax (l : List F) (m : F) : Prop :=
  (m = none ↔ ∀ x ∈ l, x = none) ∧ ∀ y, m = some y → some y ∈ l ∧ ∀ x, some x ∈ l → x ≤ y

end SeisMIC.Spec
