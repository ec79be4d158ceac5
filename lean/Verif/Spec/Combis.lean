import Verif.Model.Combis
import Verif.Spec.Glob

/-!
# Specification of the combination methods

The English definitions of the five methods (docstring of `calc_cross_combis`),
about two traces and their positions in the alphabetically sorted stream.
-/

namespace SeisMIC

/-- the pair is recorded in the dictionary of existing correlations: under the
alphabetically first station, then the other one, then the channel codes in the
same order, there is the later of the two start times -/
def Recorded (fiss : Int → Str) (ex : ExDict) (a b : TrHead) : Prop :=
  ∃ first second, ((first = a ∧ second = b) ∨ (first = b ∧ second = a)) ∧
    (a.net ++ a.sta ++ a.cha ≤ b.net ++ b.sta ++ b.cha ↔ (first = a ∧ second = b)) ∧
    ∃ times, ex.get (first.net ++ '.' :: first.sta) (second.net ++ '.' :: second.sta)
      (first.cha ++ '-' :: second.cha) = some times ∧ fiss (max a.start b.start) ∈ times

/-- `Net1-Net2.Sta1-Sta2.Cha1-Cha2` -/
def combiName (a b : TrHead) : Str :=
  a.net ++ '-' :: b.net ++ '.' :: a.sta ++ '-' :: b.sta ++ '.' :: a.cha ++ '-' :: b.cha

/-- The pair is requested: there is no request list, or an entry of the list is
(a pattern for) the beginning of the name of the pair in one of the two
orders. -/
def Requested (rcombis : Option (List Str)) (a b : TrHead) : Prop :=
  ∀ r, rcombis = some r → ∃ c ∈ r,
    fnmatch (combiName a b) (c ++ ['*']) = true ∨ fnmatch (combiName b a) (c ++ ['*']) = true

/-- last letter of the channel code -/
def component (a : TrHead) : Option Char := a.cha.getLast?

/-- What each method selects: `i`, `j` are positions in the sorted stream, `a`,
`b` the traces there. -/
def Selected (method : Str) (rcombis : Option (List Str)) (i j : Nat) (a b : TrHead) : Prop :=
  if method = "betweenStations".toList then
    i < j ∧ (a.net ≠ b.net ∨ a.sta ≠ b.sta) ∧ Requested rcombis a b
  else if method = "betweenComponents".toList then
    i < j ∧ a.net = b.net ∧ a.sta = b.sta ∧ component a ≠ component b
  else if method = "autoComponents".toList then i = j
  else if method = "allSimpleCombinations".toList then i ≤ j
  else if method = "allCombinations".toList then True
  else False

/-- the five documented methods -/
def methods : List Str := ["betweenStations".toList, "betweenComponents".toList,
  "autoComponents".toList, "allSimpleCombinations".toList, "allCombinations".toList]

end SeisMIC
