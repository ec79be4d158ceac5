import Verif.Model.Stations
import Verif.Spec.Glob

/-!
# Specification: requests for stations

Documentation of the options (error message in correlate.py:149-153): stations are a
list of the same length as the list of networks, or a wildcard, or a list for one
network.
-/

namespace SeisMIC

/-- a list of station codes -/
def staCodes (ss : List Str) : StaArg := .many (ss.map .code)

/-- the pairs of codes a request asks for -/
inductive Asked (arch : List SdsDir) : NetArg → StaArg → Str → Str → Prop
  | strings (n s : Str) : Asked arch (.one n) (.one s) n s
  | zip {ns ss : List Str} {i : Nat} {n s : Str} (hn : ns[i]? = some n) (hs : ss[i]? = some s) :
      Asked arch (.many ns) (staCodes ss) n s
  | oneNet {n s : Str} {ss : List Str} (hs : s ∈ ss) : Asked arch (.one n) (staCodes ss) n s
  | wildcard {ns : List Str} {n : Str} {d : SdsDir} (hn : n ∈ ns) (hd : d ∈ arch) (h : fnmatch d.net n = true) :
      Asked arch (.many ns) (.one c!"*") d.net d.sta

/-- a request that is documented -/
inductive Documented : NetArg → StaArg → Prop
  | strings {n s : Str} (h : n = c!"*" → '*' ∈ s) : Documented (.one n) (.one s)
  | zip {ns ss : List Str} (h : ns.length = ss.length) : Documented (.many ns) (staCodes ss)
  | oneNet {n : Str} {ss : List Str} : Documented (.one n) (staCodes ss)
  | wildcard {ns : List Str} (h : ∀ n ∈ ns, n ≠ []) : Documented (.many ns) (.one c!"*")

/-- a proper archive: year directories with four digits, codes are not empty, channel
codes without dot, one letter as type -/
def ProperArchive (arch : List SdsDir) : Prop :=
  ∀ d ∈ arch, d.year.length = 4 ∧ '.' ∉ d.chan ∧ d.typ.length = 1

/-- the alphabetical name of a combination of two stations -/
def StationName (x y : Str × Str) (name : Str × Str) : Prop :=
  (x.1 ++ x.2 ≤ y.1 ++ y.2 ∧ name = (x.1 ++ '-' :: y.1, x.2 ++ '-' :: y.2)) ∨
  (¬ x.1 ++ x.2 ≤ y.1 ++ y.2 ∧ name = (y.1 ++ '-' :: x.1, y.2 ++ '-' :: x.2))

/-- the combinations of stations of a method; `i` and `j` are positions in the list of
stations -/
def StationsSelected (method : Str) (i j : Nat) (x y : Str × Str) : Prop :=
  if method = "betweenStations".toList then i < j ∧ x ≠ y
  else if method = "betweenComponents".toList ∨ method = "autoComponents".toList then i = j
  else if method = "allSimpleCombinations".toList then i ≤ j
  else method = "allCombinations".toList

/-- a requested combination `Net0-Net1.Sta0-Sta1` -/
def requestName (x y : Str × Str) : Str := x.1 ++ '-' :: y.1 ++ '.' :: x.2 ++ '-' :: y.2

/-- a code as it occurs in practice: no separator and no pattern character -/
def ProperCode (s : Str) : Prop := '-' ∉ s ∧ '.' ∉ s ∧ Plain s

instance (s : Str) : Decidable (ProperCode s) := by unfold ProperCode; infer_instance

end SeisMIC
