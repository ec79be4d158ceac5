import Verif.Py.Basic

/-!
# Specification vocabulary for the parallel correlation

Independent of the model: what a single process would do, row by row.
-/

namespace SeisMIC

/-- A processing step that treats every trace separately with `g`. -/
def rowStep {β : Type} (g : β → β) (block : List β) : Except PyErr (List β) :=
  .ok (block.map g)

/-- Apply the functions `gs` one after the other. -/
def chain {β : Type} (gs : List (β → β)) (a : β) : β := gs.foldl (fun a g => g a) a

/-- The spectra of all traces: every trace goes through the time domain steps,
padding, the transform and the frequency domain steps. No processes involved. -/
def specSpectra {α β : Type} (td : List (List β → List β)) (pad : List β → List β)
    (fft : List β → List α) (fd : List (List α → List α)) (A : List (List β)) :
    List (List α) :=
  A.map fun a => chain fd (fft (pad (chain td a)))

/-- The correlations of all requested pairs. -/
def specCorrelations {α β γ : Type} (td : List (List β → List β)) (pad : List β → List β)
    (fft : List β → List α) (fd : List (List α → List α))
    (corr : List (List α) → Nat × Nat → List γ) (combis : List (Nat × Nat))
    (A : List (List β)) : List (List γ) :=
  combis.map (corr (specSpectra td pad fft fd A))

end SeisMIC
