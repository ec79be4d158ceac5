import Verif.Model.Run
import Verif.Spec.Combis
import Verif.Spec.Db

/-!
# Specification vocabulary for correlation runs
-/

namespace SeisMIC

variable {δ : Type}

/-- every correlation lies in the file that is named after its pair of stations,
and no two files have the same name -/
structure CorrDir.Placed (dir : CorrDir δ) : Prop where
  names : (dir.map Prod.fst).Nodup
  place : ∀ f ∈ dir, ∀ e ∈ f.2.sets, f.1 = corrFileName e.1.net e.1.sta

/-- The end of a correlated window follows from the codes and the start: it is
`g net sta cha start`, in the directory and for the traces of the run. -/
def EndFixed (c : RunCfg δ) (dir : CorrDir δ) (wins : List (List TrHead))
    (g : Str → Str → Str → Str → Str) : Prop :=
  (∀ f ∈ dir, ∀ e ∈ f.2.sets, e.1.tag = "subdivision".toList → e.1.cet = g e.1.net e.1.sta e.1.cha e.1.cst) ∧
  ∀ w ∈ wins, ∀ a ∈ w, ∀ b ∈ w,
    c.cet a b = g (corrCodes a b).1 (corrCodes a b).2.1 (corrCodes a b).2.2 (c.fiss (max a.start b.start))

/-- What may have reached the disk when a run is killed: of every file an initial
part of what the run writes to it. (The files are written by different
processes, so these parts are independent.) -/
def KilledAfter (out l : List (Out δ)) : Prop :=
  ∀ file, (l.filter fun o => decide (o.file = file)) <+: out.filter fun o => decide (o.file = file)

/-- the directories that can be found after any number of runs that were killed
at any point; each of them looked up the existing data at its start -/
inductive AfterKills (c : RunCfg δ) (stations : List (Str × Str)) (wins : List (List TrHead))
    (dir : CorrDir δ) : CorrDir δ → Prop where
  | start : AfterKills c stations wins dir dir
  | kill (d : CorrDir δ) (ex : ExDict) (out l : List (Out δ)) : AfterKills c stations wins dir d →
      findExistingTimes d stations c.method c.rcombis "subdivision".toList = .ok ex →
      c.run ex wins = .ok out → KilledAfter out l → AfterKills c stations wins dir (d.addAll l)

end SeisMIC

namespace SeisMIC

/-- What the writes of a run contain, given for every read increment the
correlations of its windows (in order): a write is triggered by the first window
of an increment, so it takes the remaining windows of the previous increments
and the first window of this one. `carry` is what is in memory. -/
def delayed {κ : Type} (carry : List κ) : List (List (List κ)) → List (List κ)
  | [] => [carry]
  | [] :: incs => delayed carry incs
  | (first :: rest) :: incs => (carry ++ first) :: delayed rest.flatten incs

end SeisMIC
