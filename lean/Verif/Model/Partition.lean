import Verif.Py.Basic

/-!
# Distribution of work over MPI processes

The same three lines appear in `src/seismic/correlate/correlate.py:422-424`
(files to write), `:489-493` (traces to read), `:648-654` (traces to
preprocess), `:714-717` (pairs to correlate) and in
`src/seismic/monitor/monitor.py:350-353` and `:505-508` (dv/wfc jobs).
-/

namespace SeisMIC

/-- `pmap = np.arange(n)*psize/n; pmap = pmap.astype(np.int32)`, entry `i`
(correlate.py:422-423, 489-491, 648-651, 714-715; monitor.py:350-351, 505-506).
Simplification: the floating point quotient is exact, `astype(np.int32)` of a
non-negative number is the floor, and there is no int32 overflow. -/
def pmap (n psize i : Nat) : Nat := i * psize / n

/-- `np.arange(n)[pmap == rank]`: the indices a process works on
(correlate.py:424, 492-493, 654, 716-717; monitor.py:352-353, 507-508). For
`n = 0` numpy divides an empty array, so the result is empty. -/
def ownIndices (n psize rank : Nat) : List Nat :=
  (List.range n).filter fun i => pmap n psize i == rank

/-- `np.array(items)[ind]` (correlate.py:426, 503; monitor.py:353, 508): the
items a process works on. -/
def ownItems {α : Type} (items : List α) (psize rank : Nat) : List α :=
  (ownIndices items.length psize rank).filterMap fun i => items[i]?

/-- `for ii, ... : if ii % psize != rank: continue` in `spct_series_welch`
(src/seismic/utils/raw_analysis.py:57-59): the indices of the windows that a
process works on. -/
def ownWindows (n psize rank : Nat) : List Nat :=
  (List.range n).filter fun i => i % psize == rank

end SeisMIC
