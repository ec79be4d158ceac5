import Verif.Model.ParallelWrite
import Verif.Spec.Parallel
import Verif.Spec.Glob

/-!
# Specification of the database after a run (C157)
-/

namespace SeisMIC

variable {δ : Type}

/-- What one write adds to the file `f`, without any processes: the single
correlations of the pair of `f`, unless they are to be deleted, and then their
stack if it is wanted. -/
def fileAdds (o : WriteOpts δ) (sep : Bool) (f : Str) (cst : List (Out δ)) : List (Out δ) :=
  let own := cst.filter fun x => decide (x.code sep ++ c!".h5" = f)
  if own = [] then []
  else (if o.delete then [] else own) ++ (if o.recombine then o.stack own else [])

/-- The entry `q` of the file `f` after the writes `writes`: what was there before,
otherwise the first correlation added to `f` with the place `q`. -/
def expectedEntry (o : WriteOpts δ) (sep : Bool) (dir : CorrDir δ) (writes : List (List (Out δ))) (f : Str) (q : HPath) :
    Option δ :=
  (dir.get f q).or (((writes.flatMap (fileAdds o sep f)).find? fun x => decide (x.path = q)).map Out.val)

/-- codes without dots and wildcards, and codes that differ do so in more than
upper and lower case -/
def GoodCodes (sep : Bool) (cst : List (Out δ)) : Prop :=
  (∀ o ∈ cst, ∀ s ∈ [o.path.net, o.path.sta, o.path.cha], Plain s ∧ '.' ∉ s) ∧
  ∀ o ∈ cst, ∀ o' ∈ cst, upper (o.code sep) = upper (o'.code sep) → o.code sep = o'.code sep

end SeisMIC
