import Verif.Model.Chain

/-!
# Specification: what the correlation of two stations may depend on
-/

namespace SeisMIC

open Xcorr

/-- the filters and windows of a step return as many samples as they get -/
def TdStep.KeepsLength : TdStep → Prop
  | .mute filt _ => ∀ x, (filt.run x).length = x.length
  | .taper weights => ∀ n, (weights n).length = n
  | .norm filt _ => ∀ x, (filt.run x).length = x.length
  | .filter filt => ∀ x, (filt.run x).length = x.length
  | _ => True

/-- no spectrum is zero at any frequency when it is whitened -/
def NoZeroWhitened (freqs : List Rat) : List FdStep → List (List ℂ) → Prop
  | [], _ => True
  | s :: fd, B => (s = .whiten → ∀ row ∈ B, ∀ z ∈ row, z ≠ 0) ∧ ∀ B', s.run freqs B = .ok B' → NoZeroWhitened freqs fd B'

/-- no spectrum of the traces is zero at any frequency when it is whitened -/
def NoZeroSpectra (td : List TdStep) (fd : List FdStep) (sr lts : Rat) (A : List (List ℝ)) : Prop :=
  ∀ A1 A2, td.foldlM (fun A s => s.run sr A) A = .ok A1 → (A1.mapM fun x => orStop (zeroPadding .avoidWrapFastLen sr lts x)) = .ok A2 →
    NoZeroWhitened (rfftfreq (A2.headD []).length sr) fd (A2.map rfft)

end SeisMIC
