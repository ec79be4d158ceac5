import Verif.Model.TraceUtils
import Verif.Spec.PostCorr

/-! # Specification vocabulary for traces -/

namespace SeisMIC

/-- sample `i` lies in a gap between the valid samples `p` (value `a`) and `q`
(value `b`) -/
def InGap (A : List F) (p i q : Nat) (a b : Rat) : Prop :=
  p < i ∧ i < q ∧ A[p]? = some (some a) ∧ A[q]? = some (some b) ∧ ∀ k, p < k → k < q → A[k]? = some none

/-- `Leaves x l`: `l` are the leaves of `x` from left to right -/
inductive Leaves {α : Type} : List (Nested α) → List α → Prop where
  | nil : Leaves [] []
  | leaf (a : α) {rest l} : Leaves rest l → Leaves (.leaf a :: rest) (a :: l)
  | node {sub rest l l'} : Leaves sub l → Leaves rest l' → Leaves (.node sub :: rest) (l ++ l')

end SeisMIC
