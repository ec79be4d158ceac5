import Verif.Model.BulkOps

/-!
# Specification: the same data, recorded `d` nanoseconds later
-/

namespace SeisMIC

variable {V : Type}

/-- the header of a correlation of data that were recorded `d` nanoseconds later -/
def CorrStats.later (d : Int) (s : CorrStats V) : CorrStats V :=
  { s with corrStart := s.corrStart + d, corrEnd := s.corrEnd + d, starttime := s.starttime + d, endtime := s.endtime + d }

/-- the correlation: same samples -/
def CTr.later (d : Int) (tr : CTr V) : CTr V := ⟨tr.stats.later d, tr.data⟩

/-- the bulk: same samples -/
def Bulk.later (d : Int) (b : Bulk V) : Bulk V :=
  ⟨b.data, { b.stats with
    base := b.stats.base.later d
    corrStart := b.stats.corrStart.map (· + d)
    corrEnd := b.stats.corrEnd.map (· + d) }⟩

/-- a call with arguments that are `d` nanoseconds later -/
def BulkCall.later (d : Int) : BulkCall → BulkCall
  | .resample st en => .resample (st.map (· + d)) (en.map (· + d))
  | .slice a b p => .slice (a + d) (b + d) p
  | .selectTime a b p => .selectTime (a + d) (b + d) p
  | c => c

end SeisMIC
