import Verif.Model.Floats

/-!
# Model: sampling rates in headers that are copied, combined, stored and compared, with rounding

src/seismic/correlate/stats.py:148-229 (`CorrStats`), src/seismic/correlate/stream.py:1442-1507 (`combine_stats`), 1651-1707
(`convert_statlist_to_bulk_stats`), src/seismic/db/corr_hdf5.py:455-510. Only the fields that depend on the sampling rate.
-/

namespace SeisMIC

/-- the fields of a header that depend on the sampling rate, and those that they are computed from. All numbers are floats
(`Py/Float.lean`). -/
structure RateHdr where
  rate : Rat
  delta : Rat
  startLag : Rat
  endLag : Rat
  npts : Nat
  deriving DecidableEq

/-- `CorrStats.defaults` (stats.py:150-165) -/
def RateHdr.default : RateHdr := ⟨1, 1, 0, 0, 0⟩

/-- derived values (stats.py:200-214) -/
def RateHdr.refresh (h : RateHdr) : RateHdr :=
  let delta := deltaF h.rate
  let timediff := if h.npts = 0 then 0 else f64 (((h.npts : Rat) - 1) * delta)
  { h with delta := delta, endLag := f64 (h.startLag + timediff) }

/-- `stats['sampling_rate'] = r` (stats.py:192-193, 199-214) -/
def RateHdr.setRate (h : RateHdr) (r : Rat) : RateHdr := { h with rate := r }.refresh

/-- `stats['delta'] = d` (stats.py:186-191, 199-214) -/
def RateHdr.setDelta (h : RateHdr) (d : Rat) : RateHdr := { h with rate := rateF d }.refresh

/-- `stats['start_lag'] = l` (stats.py:194-195, 199-214) -/
def RateHdr.setStartLag (h : RateHdr) (l : Rat) : RateHdr := { h with startLag := l }.refresh

/-- `stats['npts'] = n` (stats.py:196-198, 199-214) -/
def RateHdr.setNpts (h : RateHdr) (n : Nat) : RateHdr := { h with npts := n }.refresh

/-- `stats.copy()` and `copy.deepcopy(stats)` (obspy's `AttribDict`): the fields are assigned to a new header in the order of
`defaults` (stats.py:150-165), which is the order of the dictionary; `end_lag` is read only and skipped. -/
def RateHdr.copy (h : RateHdr) : RateHdr :=
  (((RateHdr.default.setRate h.rate).setDelta h.delta).setStartLag h.startLag).setNpts h.npts

/-- `combine_stats` (stream.py:1486, 1499-1507, 1556) and `CorrTrace.__init__` (stream.py:1322): the header of the correlation
of two traces with the rate `rate` and the interval `delta`, in the order of the headers of obspy; then the lag and the number
of samples -/
def combineRate (rate delta startLag : Rat) (npts : Nat) : RateHdr :=
  (((RateHdr.default.setRate rate).setDelta delta).setStartLag startLag).setNpts npts

/-- writing a header to a file and reading it (corr_hdf5.py:465-471, 489-510; stream.py:1309): attributes are read in the order
of their names. `end_lag` is read only and skipped. -/
def RateHdr.store (h : RateHdr) : RateHdr :=
  (((RateHdr.default.setDelta h.delta).setNpts h.npts).setRate h.rate).setStartLag h.startLag

/-- the comparison of the headers in `convert_statlist_to_bulk_stats` (stream.py:1675-1705), for the fields considered here:
all headers are compared with a copy of the first. `false`: ValueError. -/
def bulkRates : List RateHdr → Bool
  | [] => true
  | h :: hs => (h :: hs).all fun g =>
      decide (h.copy.npts = g.npts ∧ h.copy.rate = g.rate ∧ h.copy.startLag = g.startLag ∧ h.copy.endLag = g.endLag)

end SeisMIC
