import Verif.Model.Stretch
import Verif.Model.PostCorr

/-!
# Model: the samples of a lapse time window that does not begin and end on samples (monitor.py:250-290, 672-692; stretch_mod.py:106-126, 270-302)

`windowIdx` in Model/Stretch.lean and `arangeInt` in Model/MonitorDv.lean are for windows in whole samples. Exact arithmetic.
-/

namespace SeisMIC

/-- `astype(np.int32)`: the decimals are cut off -/
def truncInt (q : Rat) : Int := if q < 0 then q.ceil else q.floor

/-- `np.arange(start, stop, 1)` (monitor.py:279-281, 688-690) -/
def arangeQ (start stop : Rat) : List Rat := (List.range (stop - start).ceil.toNat).map fun k : Nat => start + k

/-- the indices of a lag window (stretch_mod.py:106-123, 270-299) for offsets that need not be whole numbers -/
def windowIdxQ (sides : Str) (n : Nat) (ctw : List Rat) : Except PyErr (List Int) :=
  let c : Rat := centerP n
  if sides = c!"both" then
    match ctw with
    | [] => .error .indexError
    | k0 :: rest =>
      if k0 = 0 then .ok (((ctw.reverse.map fun k => c - k) ++ rest.map fun k => c + k).map truncInt)
      else .ok (((ctw.reverse.map fun k => c - k) ++ ctw.map fun k => c + k).map truncInt)
  else if sides = c!"left" then .ok ((ctw.reverse.map fun k => c - k).map truncInt)
  else if sides = c!"right" then .ok ((ctw.map fun k => c + k).map truncInt)
  else if sides = c!"single" then .ok (ctw.map truncInt)
  else .error .valueError

/-- which columns of the matrix of correlations enter the measurement: the correlations are cut to the lags from `-(tw_start + tw_len)` to
`tw_start + tw_len` (monitor.py:250-259, 675-676), then the samples of the window are taken on the requested sides (monitor.py:279-290, 688-692). The numbers of the
columns take the place of the samples. -/
def usedColumns (s : LagStats) (twStart twLen : Rat) (sides : Str) : Except PyErr (List Nat) := do
  let cbt := corrMatTrim [List.range s.npts] s (-(twStart + twLen)) (twStart + twLen)
  let idx ← windowIdxQ sides cbt.2.npts (arangeQ (twStart * cbt.2.sr) ((twStart + twLen) * cbt.2.sr))
  let mask ← maskOf cbt.2.npts idx
  .ok ((((cbt.1.headD []).zip mask).filter fun cm => cm.2).map Prod.fst)

end SeisMIC
