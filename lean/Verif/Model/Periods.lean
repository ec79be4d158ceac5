import Verif.Model.Run
import Verif.Model.Stream

/-!
# Model: the read increments of a run

src/seismic/correlate/correlate.py:470-500
-/

namespace SeisMIC

variable {δ : Type}

/-- `loop_window = np.arange(t0, t1, read_inc)` (correlate.py:478-480) and the windows that are cut from the data read at each of these
times (correlate.py:496-642). Simplifications: times in nanoseconds; `wins t` are the windows of the read increment that begins at `t`, which
depend on the data and `read_len` only (`preprocess_subdiv` is off). -/
def periodWindows (wins : Int → List (List TrHead)) (readInc : Int) (period : Int × Int) : List (List TrHead) :=
  (arange period.1 period.2 readInc).flatMap wins

/-- `Correlator.pxcorr` with `read_start` and `read_end`: the existing data are looked up (correlate.py:461-468), the other pairs of all
windows are computed and added to the files (correlate.py:316-356) -/
def RunCfg.period (c : RunCfg δ) (stations : List (Str × Str)) (wins : Int → List (List TrHead)) (readInc : Int) (dir : CorrDir δ)
    (period : Int × Int) : Except PyErr (CorrDir δ) := do
  let ex ← findExistingTimes dir stations c.method c.rcombis "subdivision".toList
  let out ← c.run ex (periodWindows wins readInc period)
  pure (dir.addAll out)

/-- several runs one after another -/
def RunCfg.periods (c : RunCfg δ) (stations : List (Str × Str)) (wins : Int → List (List TrHead)) (readInc : Int) (dir : CorrDir δ)
    (periods : List (Int × Int)) : Except PyErr (CorrDir δ) :=
  periods.foldlM (c.period stations wins readInc) dir

end SeisMIC
