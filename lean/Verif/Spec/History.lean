import Verif.Spec.Db
import Verif.Model.H5Tree

/-!
# Histories of a correlation database

What a user does to a file over time, and what they expect to find in it afterwards.
-/

namespace SeisMIC

/-- a session is opened with options, correlations are added, or correlations of two stations are
removed (tag and start time given, the start time possibly with `*`) -/
inductive DbStep (δ : Type) where
  | options
  | add (l : List (HPath × δ))
  | remove (n1 s1 c1 n2 s2 c2 tag cst : Str)

variable {δ : Type}

/-- effect of a step on the file: options are only written if there are none
(corr_hdf5.py:72-91), a call that raises leaves the file as it is -/
def H5Tree.step (t : H5Tree δ) : DbStep δ → H5Tree δ
  | .options => match t.addOptions with | .ok t' => t' | .error _ => t
  | .add l => t.add l
  | .remove n1 s1 c1 n2 s2 c2 tag cst =>
    match t.removeData (n1 ++ '-' :: n2) (s1 ++ '-' :: s2) (c1 ++ '-' :: c2) tag cst with
    | .ok t' => t'
    | .error _ => t

/-- the file after a history -/
def H5Tree.run (h : List (DbStep δ)) : H5Tree δ := h.foldl H5Tree.step H5Tree.empty

open Classical in
/-- What is expected to be stored: the first correlation added for a place stays until it is
removed. -/
noncomputable def expectedStep (m : HPath → Option δ) : DbStep δ → HPath → Option δ
  | .options => m
  | .add l => fun p => (m p).or (l.lookup p)
  | .remove n1 s1 c1 n2 s2 c2 tag cst => fun p =>
    if p.tag = tag ∧ (p.net, p.sta, p.cha) = requestCodes n1 s1 c1 n2 s2 c2 ∧ Glob cst p.cst
    then none else m p

/-- what is expected to be stored after a history -/
noncomputable def expected (h : List (DbStep δ)) : HPath → Option δ := h.foldl expectedStep fun _ => none

/-- the codes and times of a place are ordinary names, and the tag is not the name of the dataset
with the options -/
def SanePlace (p : HPath) : Prop := (∀ x ∈ p.comps, SaneName x) ∧ p.tag ≠ c!"co"

instance (p : HPath) : Decidable (SanePlace p) := by unfold SanePlace; infer_instance

/-- steps with ordinary names; `*` is the only wildcard in a start time -/
def DbStep.Sane : DbStep δ → Prop
  | .options => True
  | .add l => ∀ e ∈ l, SanePlace e.1
  | .remove n1 s1 c1 n2 s2 c2 tag cst => SaneReq n1 s1 c1 n2 s2 c2 ∧ SaneName tag ∧ tag ≠ c!"co" ∧
      cst ≠ [] ∧ '/' ∉ cst ∧ '?' ∉ cst ∧ '[' ∉ cst

end SeisMIC
