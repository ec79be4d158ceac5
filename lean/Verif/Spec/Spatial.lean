import Verif.Py.Nan
import Mathlib.Algebra.Order.Group.Unbundled.Abs
import Mathlib.Algebra.Order.Group.Unbundled.Int
import Mathlib.Algebra.Order.Group.Int

/-! # Specification: curves and grids of velocity changes -/

namespace SeisMIC.Spec

/-- `k` is the position of the start time closest to `utc`, the first one of several -/
def Closest (starts : List Int) (utc : Int) (k : Nat) : Prop :=
  ∃ s, starts[k]? = some s ∧ ∀ (j : Nat) (s' : Int), starts[j]? = some s' →
    |s - utc| ≤ |s' - utc| ∧ (j < k → |s - utc| < |s' - utc|)

/-- the points of a curve at most `steps` positions from `ii` at which value and coherence
are defined -/
def around (value corr : List F) (ii steps : Nat) : List (Rat × Rat) :=
  ((value.zip corr).zipIdx.filter fun x => decide (x.2 ≤ ii + steps ∧ ii ≤ x.2 + steps)).filterMap fun x =>
    match x.1 with
    | (some v, some c) => some (v, c)
    | _ => none

/-- the coherence-weighted mean of the values at most `steps` positions from `ii` is `m` -/
def LocalMean (value corr : List F) (ii steps : Nat) (m : Rat) : Prop :=
  ((around value corr ii steps).map fun x => x.2).sum ≠ 0 ∧
  ((around value corr ii steps).map fun x => x.1 * x.2).sum = m * ((around value corr ii steps).map fun x => x.2).sum

end SeisMIC.Spec
