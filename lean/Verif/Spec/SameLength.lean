import Verif.Model.Run
import Verif.Spec.Combis
import Verif.Spec.Glob
import Verif.Spec.Db

/-!
# C160: stations whose codes have the same length
-/

namespace SeisMIC

variable {δ : Type}

/-- Station list as in most experiments: no code contains a separator or a
pattern character, all network codes have the same length and all station codes
have the same length. -/
structure SameLength (stations : List (Str × Str)) : Prop where
  codes : ∀ s ∈ stations, (NoSep s.1 ∧ NoSep s.2) ∧ Plain s.1 ∧ Plain s.2
  net : ∀ s ∈ stations, ∀ t ∈ stations, s.1.length = t.1.length
  sta : ∀ s ∈ stations, ∀ t ∈ stations, s.2.length = t.2.length

/-- every file of the directory contains a correlation of two of the stations
under the tag of single correlations -/
def CorrDir.OfStations (dir : CorrDir δ) (stations : List (Str × Str)) : Prop :=
  ∀ f ∈ dir, ∃ e ∈ f.2.sets, e.1.tag = "subdivision".toList ∧
    ∃ a ∈ stations, ∃ b ∈ stations, e.1.net = a.1 ++ "-".toList ++ b.1 ∧ e.1.sta = a.2 ++ "-".toList ++ b.2

end SeisMIC
