import Verif.Model.Run
import Verif.Model.ParallelMatrix

/-!
# The database written by several processes

src/seismic/correlate/correlate.py:341-356, 357-449.
-/

namespace SeisMIC

variable {δ : Type}

/-- Options of the subdivision: `recombine_subdivision`, `delete_subdivision` and
the stack of the selected correlations (`CorrStream.stack`, any function of
these) with its place in the database (correlate.py:433-449). -/
structure WriteOpts (δ : Type) where
  recombine : Bool
  delete : Bool
  stack : List (Out δ) → List (Out δ)

/-- What one process does with one file (correlate.py:433-449): the stack is
computed first, the single correlations are dropped if wanted, then the single
correlations are added and after them the stack. -/
def WriteOpts.ops (o : WriteOpts δ) (w : Str × List (Out δ)) : List (Str × Out δ) :=
  let stack := if o.recombine then o.stack w.2 else []
  let single := if o.delete then [] else w.2
  (single ++ stack).map fun x => (w.1, x)

/-- Everything one process does in one call of `_write` (correlate.py:400-449), in
its order: the file and the correlation that is added to it. The check of the
options when a file is opened is part of another model (C16). -/
def rankOps (o : WriteOpts δ) (sep : Bool) (psize rank : Nat) (cst : List (Out δ)) :
    Except PyErr (List (Str × Out δ)) := do
  let ws ← writeRank sep psize rank cst
  pure (ws.flatMap o.ops)

/-- adding correlations to files one after the other -/
def CorrDir.exec (dir : CorrDir δ) (l : List (Str × Out δ)) : CorrDir δ :=
  l.foldl (fun d x => d.addOne x.1 x.2) dir

/-- A possible course of one call of `_write` on `psize` processes: the single
actions with the number of the process that does them, in the order in which
they happen. Each process does its own actions in its own order; nothing is said
about the order of actions of different processes. -/
def IsSchedule {α : Type} (psize : Nat) (prog : Nat → List α) (e : List (Nat × α)) : Prop :=
  (∀ x ∈ e, x.1 < psize) ∧ ∀ r < psize, (e.filter fun x => x.1 == r).map Prod.snd = prog r

/-- A possible course of one call of `_write`, if no process raises an exception -/
def WriteCourse (o : WriteOpts δ) (sep : Bool) (psize : Nat) (cst : List (Out δ))
    (e : List (Nat × (Str × Out δ))) : Prop :=
  ∃ prog : Nat → List (Str × Out δ), (∀ r < psize, rankOps o sep psize r cst = .ok (prog r)) ∧ IsSchedule psize prog e

/-- A possible course of all calls of `_write` of a run (correlate.py:341-356).
Between two calls all processes meet: a second call needs new correlations, and
these need the sum over all processes in `_pxcorr_matrix` (correlate.py:703,
774-776). So no process starts with a call before all have left the last one. -/
inductive RunCourse (o : WriteOpts δ) (sep : Bool) (psize : Nat) :
    List (List (Out δ)) → List (Nat × (Str × Out δ)) → Prop
  | nil : RunCourse o sep psize [] []
  | cons (cst : List (Out δ)) (rest : List (List (Out δ))) (e e' : List (Nat × (Str × Out δ))) :
      WriteCourse o sep psize cst e → RunCourse o sep psize rest e' → RunCourse o sep psize (cst :: rest) (e ++ e')

/-- data of one window: the rows of the matrix, the pairs of rows, and where the
correlation of a pair is stored -/
structure WinData (β : Type) where
  rows : List (List β)
  combis : List (Nat × Nat)
  place : Nat × Nat → HPath

/-- `_pxcorr_inner` (correlate.py:357-398) on `psize` processes: the correlations
that every process holds after the broadcast. -/
def windowOuts {α β γ : Type} [Add α] [Zero α] [Add γ] [Zero γ] (psize fftsize width : Nat)
    (td : List (List (List β) → Except PyErr (List (List β)))) (pad : List β → List β) (fft : List β → List α)
    (fd : List (List (List α) → Except PyErr (List (List α)))) (corr : List (List α) → Nat × Nat → List γ)
    (w : WinData β) : Except PyErr (List (Out (List γ))) := do
  let C ← pxcorrMatrix psize fftsize width td pad fft fd corr w.combis w.rows
  pure ((C.zip w.combis).map fun x => ⟨w.place x.2, x.1⟩)

/-- `pxcorr` up to the writing (correlate.py:341-356): the correlations of all
windows (`none` for a window that is skipped) and the streams handed to `_write`. -/
def runWrites {α β γ : Type} [Add α] [Zero α] [Add γ] [Zero γ] (psize fftsize width : Nat)
    (td : List (List (List β) → Except PyErr (List (List β)))) (pad : List β → List β) (fft : List β → List α)
    (fd : List (List (List α) → Except PyErr (List (List α)))) (corr : List (List α) → Nat × Nat → List γ)
    (incs : List (List (Option (WinData β)))) : Except PyErr (List (List (Out (List γ)))) := do
  let cs ← incs.mapM fun inc => inc.mapM fun w => match w with
    | none => pure none
    | some w => do
      let c ← windowOuts psize fftsize width td pad fft fd corr w
      pure (some c)
  pure (pxcorrWrites (generateData cs))

end SeisMIC
