import Verif.Model.TraceUtils
import Verif.Model.CorrStats

/-!
# Model: the sampling rates of the traces of a read period (correlate.py:500-533)
-/

namespace SeisMIC

/-- Downsampling of a read period (correlate.py:513-526): every process handles the traces that it read. `none`: the process
logs an error and goes on with the next read period (`continue`); the gathers of the windows of this period are left out. -/
def resampleRanks (filt : Rat → List F → List F) (res : Rat → Rat → List F → List F) (srn : Rat)
    (ranks : List (List Wave)) : List (Option (List Wave)) :=
  ranks.map fun st =>
    match resampleStream filt res st srn true with
    | .ok st => some st
    | .error _ => none

/-- The header of a correlation (correlate.py:387-394, 759-764): `n` samples on both sides of zero lag, that is a row of
`2 n + 1` numbers, whose first lag is computed with the rate `srn` of the options. -/
def correlationHeader {V : Type} [DecidableEq V] (geod : Coord → Coord → Rat × Rat × Rat) (inv : Str → Str → Option Coord)
    (srn : Rat) (h1 h2 : Stats V) (n : Nat) (row : List Rat) : CorrStats V :=
  (innerTrace geod inv srn h1 h2 (-(n : Rat) / srn) row).1

end SeisMIC
