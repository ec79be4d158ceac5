import Verif.Model.Partition

/-!
# `Correlator._pxcorr_matrix` as run by a communicator of `p` processes

src/seismic/correlate/correlate.py:644-778. A matrix is a list of rows. The
entries are an arbitrary type with addition and zero (complex numbers for the
spectra, reals for the correlations). Processing functions are parameters:
they receive the block of rows the process owns, as in the code.
-/

namespace SeisMIC

variable {α β γ : Type}

/-- Boolean index `ind = pmap == self.rank` (correlate.py:648-654, 714-716). -/
def ownMask (n psize rank : Nat) : List Bool :=
  (List.range n).map fun i => pmap n psize i == rank

/-- `A[ind, :]` with a boolean index (correlate.py:671, 685, 699). -/
def selectMask : List Bool → List β → List β
  | true :: m, a :: A => a :: selectMask m A
  | false :: m, _ :: A => selectMask m A
  | _, _ => []

/-- `A[ind, :] = res` with a boolean index (correlate.py:671, 685, 699), `res`
having one row per selected row. -/
def assignMask : List Bool → List β → List β → List β
  | true :: m, _ :: A, r :: R => r :: assignMask m A R
  | false :: m, a :: A, R => a :: assignMask m A R
  | _, A, _ => A

/-- `A[ind, :] = func(A[ind, :], proc['args'], params)` (correlate.py:671,
699). A result with another number of rows is a numpy `ValueError`
(simplification: broadcasting of a single returned row is not modelled). -/
def applyOwn (mask : List Bool) (func : List β → Except PyErr (List β))
    (A : List β) : Except PyErr (List β) := do
  let block := selectMask mask A
  let res ← func block
  if res.length = block.length then
    pure (assignMask mask A res)
  else
    throw .valueError

/-- the loops `for proc in corr_args['TDpreProcessing']` (correlate.py:669-671)
and `for proc in corr_args['FDpreProcessing']` (correlate.py:693-699). -/
def applyAllOwn (mask : List Bool) (funcs : List (List β → Except PyErr (List β)))
    (A : List β) : Except PyErr (List β) :=
  funcs.foldlM (fun A f => applyOwn mask f A) A

/-- The matrix `B` of one process before the `Allreduce`
(correlate.py:644-699): time domain steps on own rows, zero padding of all
rows (`pad`), zero matrix `B`, transform (`fft`) of own rows, frequency domain
steps on own rows. `fftsize` is the number of columns of `B`. -/
def rankSpectra [Zero α] (psize rank fftsize : Nat)
    (td : List (List (List β) → Except PyErr (List (List β))))
    (pad : List β → List β) (fft : List β → List α)
    (fd : List (List (List α) → Except PyErr (List (List α))))
    (A : List (List β)) : Except PyErr (List (List α)) := do
  let ntrc := A.length
  let ind := ownMask ntrc psize rank
  let A ← applyAllOwn ind td A
  let A := A.map pad
  let B := List.replicate ntrc (List.replicate fftsize (0 : α))
  let B := assignMask ind B ((selectMask ind A).map fft)
  applyAllOwn ind fd B

/-- sum of two matrices of the same shape -/
def matAdd [Add α] (A B : List (List α)) : List (List α) :=
  List.zipWith (List.zipWith (· + ·)) A B

/-- `comm.Allreduce(MPI.IN_PLACE, [B, MPI.FLOAT], op=MPI.SUM)`
(correlate.py:703, 774): every process receives the sum of the matrices of all
processes, given here in rank order. -/
def allreduceSum [Add α] : List (List (List α)) → List (List α)
  | [] => []
  | M :: Ms => Ms.foldl matAdd M

/-- `C[ii, :] = ...` for `ii` in the own combinations, in a zero matrix
(correlate.py:712-764); `corr B ij` is the saved correlation of the pair `ij`
computed from the spectra. The start lags (correlate.py:718, 763) are handled
like a matrix with one column. -/
def rankCorrelations [Zero γ] (psize rank width : Nat)
    (corr : List (List α) → Nat × Nat → List γ) (combis : List (Nat × Nat))
    (B : List (List α)) : List (List γ) :=
  assignMask (ownMask combis.length psize rank)
    (List.replicate combis.length (List.replicate width (0 : γ)))
    ((selectMask (ownMask combis.length psize rank) combis).map (corr B))

/-- The whole function on a communicator of `psize` processes: the result that
each process returns (all processes return the same reduced matrix). If one
process raises, the collective call never completes: the run fails with the
exception of the first failing process. -/
def pxcorrMatrix [Add α] [Zero α] [Add γ] [Zero γ] (psize fftsize width : Nat)
    (td : List (List (List β) → Except PyErr (List (List β))))
    (pad : List β → List β) (fft : List β → List α)
    (fd : List (List (List α) → Except PyErr (List (List α))))
    (corr : List (List α) → Nat × Nat → List γ) (combis : List (Nat × Nat))
    (A : List (List β)) : Except PyErr (List (List γ)) := do
  let Bs ← (List.range psize).mapM fun r => rankSpectra psize r fftsize td pad fft fd A
  let B := allreduceSum Bs
  pure (allreduceSum ((List.range psize).map fun r =>
    rankCorrelations psize r width corr combis B))

end SeisMIC
