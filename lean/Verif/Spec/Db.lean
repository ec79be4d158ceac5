import Verif.Spec.Glob
import Verif.Model.Db

/-!
# Specification vocabulary for the correlation database
-/

namespace SeisMIC

/-- a code that contains no separator -/
def NoSep (s : Str) : Prop := '-' ∉ s ∧ '.' ∉ s

/-- a network, station or channel code as it occurs in practice -/
def SaneCode (s : Str) : Prop :=
  s ≠ [] ∧ '-' ∉ s ∧ '.' ∉ s ∧ '/' ∉ s ∧ '*' ∉ s ∧ '?' ∉ s ∧ '[' ∉ s

/-- a tag or formatted time without wildcards -/
def SaneName (s : Str) : Prop := s ≠ [] ∧ '/' ∉ s ∧ '*' ∉ s ∧ '?' ∉ s ∧ '[' ∉ s

instance (s : Str) : Decidable (SaneCode s) := by unfold SaneCode; infer_instance
instance (s : Str) : Decidable (SaneName s) := by unfold SaneName; infer_instance

/-- all codes of a request are sane -/
def SaneReq (n1 s1 c1 n2 s2 c2 : Str) : Prop :=
  SaneCode n1 ∧ SaneCode s1 ∧ SaneCode c1 ∧ SaneCode n2 ∧ SaneCode s2 ∧ SaneCode c2

/-- components of a request: literal, or starting with a wildcard -/
def LiteralOrWild (x : Str) : Prop :=
  SaneName x ∨ ('/' ∉ x ∧ '[' ∉ x ∧ (x.head? = some '*' ∨ x.head? = some '?'))

instance (x : Str) : Decidable (LiteralOrWild x) := by unfold LiteralOrWild; infer_instance

/-- a database whose names contain no separators or wildcards -/
def H5.Sane {δ : Type} (f : H5 δ) : Prop := ∀ e ∈ f.sets, ∀ x ∈ e.1.comps, SaneName x

/-- `n.s.c` -/
def dotName (n s c : Str) : Str := n ++ '.' :: (s ++ '.' :: c)

/-- network, station and channel combination of two stations in the
alphabetical order of their names `n.s.c` -/
def requestCodes (n1 s1 c1 n2 s2 c2 : Str) : Str × Str × Str :=
  if dotName n1 s1 c1 ≤ dotName n2 s2 c2
  then (n1 ++ '-' :: n2, s1 ++ '-' :: s2, c1 ++ '-' :: c2)
  else (n2 ++ '-' :: n1, s2 ++ '-' :: s1, c2 ++ '-' :: c1)

/-- options that do not influence the single correlations -/
def ignoredKeys : List Str := ["subdir".toList, "read_start".toList, "read_end".toList,
  "read_len".toList, "read_inc".toList, "combination_method".toList, "combinations".toList,
  "starttime".toList, "xcombinations".toList, "preprocess_subdiv".toList,
  "allow_different_params".toList]

/-- a step that only masks data -/
def isMask {ν : Type} (s : ProcStep ν) : Bool := isSub "stream_mask_at_utc".toList s.function

/-- two option dictionaries agree in everything that influences the
correlations -/
def SameRelevant {ν : Type} (a b : Options ν) : Prop :=
  (∀ k, k ∉ ignoredKeys → a.other.lookup k = b.other.lookup k) ∧
  (∀ k, k ≠ "combinations".toList → a.corrArgs.lookup k = b.corrArgs.lookup k) ∧
  (∀ k, k ≠ "recombine_subdivision".toList → k ≠ "delete_subdivision".toList →
    a.subdivision.lookup k = b.subdivision.lookup k) ∧
  a.preProcessing.map (fun l => l.filter fun s => !isMask s) =
    b.preProcessing.map (fun l => l.filter fun s => !isMask s)

/-- no two consecutive masking steps -/
def NoAdjacentMasks {ν : Type} (o : Options ν) : Prop :=
  ∀ l, o.preProcessing = some l → ∀ i x y, l[i]? = some x → l[i+1]? = some y →
    ¬ (isMask x = true ∧ isMask y = true)

end SeisMIC
