import Verif.Model.PostCorr

/-!
# Specification vocabulary for correlation matrices
-/

namespace SeisMIC

/-- lag of sample `i` -/
def LagStats.lag (s : LagStats) (i : Nat) : Rat := s.startLag + i / s.sr

/-- lags of all samples -/
def LagStats.lags (s : LagStats) : List Rat := (List.range s.npts).map s.lag

/-- every row has `npts` samples -/
def Rect {α : Type} (data : List (List α)) (s : LagStats) : Prop := ∀ row ∈ data, row.length = s.npts

/-- the samples of a row at the positions for which `P` holds -/
def samplesWhere {α : Type} (row : List α) (P : Nat → Bool) : List α :=
  ((List.range row.length).filter P).filterMap fun i => row[i]?

/-- positions of `npts` samples for which the lag is in `(a - 1/sr, b]`: from the
last sample at or before `a` to the last sample at or before `b` -/
def LagStats.inWindow (s : LagStats) (a b : Rat) (i : Nat) : Bool :=
  decide (a - 1 / s.sr < s.lag i) && decide (s.lag i ≤ b)

end SeisMIC
