import Verif.Model.MonitorFiles
import Verif.Model.Partition
import Verif.Model.Db

/-!
# Model: `Monitor.compute_velocity_change_bulk` (monitor.py:328-371)

and `Monitor._find_available_corrs` (monitor.py:143-160).
-/

namespace SeisMIC

variable {δ ρ : Type}

/-- an entry of `plist`: file, network, station and channel combination -/
structure DvTask where
  file : Str
  net : Str
  sta : Str
  cha : Str
deriving DecidableEq

/-- `plist` (monitor.py:341-346): the channels of each selected file, `files` are the databases by path -/
def dvTasks (files : Str → H5 δ) (sel : List (Str × Str × Str)) : List DvTask :=
  sel.flatMap fun x => ((files x.2.2).availableChannels c!"subdivision" x.1 x.2.1).map fun c => ⟨x.2.2, x.1, x.2.1, c⟩

/-- the file that holds the result (monitor.py:316-318); `save` adds the ending (dv.py:131-132) -/
def dvFile (outdir : Str) (t : DvTask) : Str :=
  outdir ++ '/' :: (c!"DV-" ++ t.net ++ '.' :: (t.sta ++ '.' :: t.cha)) ++ c!".npz"

/-- one pass of the loop of a process (monitor.py:357-367): `compute` is what
`compute_velocity_change` saves, `none` if it raises before; exceptions are logged only.
The directory of results maps file names to contents. -/
def runDvTask (outdir : Str) (compute : DvTask → Option ρ) (dir : Str → Option ρ) (t : DvTask) : Str → Option ρ :=
  match compute t with
  | none => dir
  | some r => fun f => if f = dvFile outdir t then some r else dir f

/-- the tasks of a process (monitor.py:350-353) -/
def rankTasks (tasks : List DvTask) (psize rank : Nat) : List DvTask := ownItems tasks psize rank

/-- all processes together: `order` lists the passes of the loops of all processes in the order in which they
are executed, each with the rank of the process -/
def runDvBulk (outdir : Str) (compute : DvTask → Option ρ) (dir : Str → Option ρ) (order : List (Nat × DvTask)) : Str → Option ρ :=
  order.foldl (fun d x => runDvTask outdir compute d x.2) dir

end SeisMIC
