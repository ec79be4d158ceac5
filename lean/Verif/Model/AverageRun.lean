import Verif.Model.MonitorBulk

/-!
# Model: the files that `Monitor.compute_components_average` leaves behind

Continues `Model/MonitorFiles.lean` with the names of the averages.
-/

namespace SeisMIC

/-- a code of an average (monitor.py:1088-1093): the common code of the averaged results, or `av` -/
def commonCode : List Str → Str
  | [] => []
  | a :: l => if l.all fun b => decide (b = a) then a else c!"av"

/-- the file of the average of the results `g` (monitor.py:466-470); `codes` are the network and the station that a
file holds. `save` adds the ending. -/
def averageFile (outdir : Str) (m : AvMethod) (codes : Str → Str × Str) (g : List Str) : Str :=
  dvFile outdir ⟨[], commonCode (g.map fun f => (codes f).1), commonCode (g.map fun f => (codes f).2), m.ch⟩

/-- the directory of the results after `compute_components_average` (monitor.py:392-470), as a list of paths. The
averages are assumed to be computable; an exception of `average_components` would end the run. -/
def averageRun (outdir : Str) (m : AvMethod) (readable : Str → Bool) (codes : Str → Str × Str) (listing : List Str) :
    Option (Except PyErr (List Str)) :=
  (avLoop m readable listing.length listing).map fun r => r.map fun gs =>
    listing ++ (gs.map (averageFile outdir m codes)).filter fun f => !(decide (f ∈ listing))

end SeisMIC
