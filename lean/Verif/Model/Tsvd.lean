import Verif.Model.InversionRun

/-!
# Model: the pseudo-inverse with a cutoff for singular values
-/

namespace SeisMIC

noncomputable section

open Matrix

/-- What `np.linalg.svd(G, full_matrices=False)` returns: orthonormal columns `U`, orthonormal rows `Vt`, singular values that are not negative. -/
structure IsSvd {n nc k : Nat} (G : Matrix (Fin n) (Fin nc) ℝ) (U : Matrix (Fin n) (Fin k) ℝ) (s : Fin k → ℝ) (Vt : Matrix (Fin k) (Fin nc) ℝ) : Prop where
  left : Uᵀ * U = 1
  right : Vt * Vtᵀ = 1
  nonneg : ∀ i, 0 ≤ s i
  product : U * diagonal s * Vt = G

open Classical in
/-- `np.linalg.pinv(G, rcond=cutoff)` (used in spatial.py:563-564) for a decomposition of `G`: the inverse of the singular values above the fraction
`cutoff` of the largest one, and zero for the others -/
def truncPinv {n nc k : Nat} (U : Matrix (Fin n) (Fin k) ℝ) (s : Fin k → ℝ) (Vt : Matrix (Fin k) (Fin nc) ℝ) (cutoff : ℝ) : Matrix (Fin nc) (Fin n) ℝ :=
  Vtᵀ * (diagonal (fun i => if s i > cutoff * ⨆ j, s j then (s i)⁻¹ else 0) * Uᵀ)

end

end SeisMIC
