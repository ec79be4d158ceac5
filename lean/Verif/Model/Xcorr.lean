import Mathlib.RingTheory.RootsOfUnity.Complex
import Mathlib.Data.Rat.Floor
import Mathlib.Data.Nat.Find
import Verif.Py.Basic

/-!
# Zero padding and cross-correlation in the frequency domain

src/seismic/correlate/preprocessing_td.py:434-492 and
src/seismic/correlate/correlate.py:672-768. Samples are real numbers, spectra
complex numbers; rounding to single precision is not modelled. The discrete
Fourier transforms of numpy are modelled by their defining sums.
-/

namespace SeisMIC
namespace Xcorr

open Complex Finset

theorem exists_smooth_ge (n : Nat) : ∃ m, n ≤ m ∧ m ∣ 30 ^ m :=
  ⟨2 ^ n, Nat.le_of_lt Nat.lt_two_pow_self,
    (pow_dvd_pow_of_dvd (by norm_num : 2 ∣ 30) n).trans
      (Nat.pow_dvd_pow _ (Nat.le_of_lt Nat.lt_two_pow_self))⟩

/-- `scipy.fftpack.next_fast_len(n)`, `n > 0`: the smallest number that is not
less than `n` and has no prime factor other than 2, 3, 5 (such a number `m`
divides `30 ^ m`). -/
def nextFastLen (n : Nat) : Nat := Nat.find (exists_smooth_ge n)

/-- the three types of padding in `args['type']` (preprocessing_td.py:475-485);
every other string is a `ValueError` -/
inductive PadType where
  | nextFastLen
  | avoidWrapAround
  | avoidWrapFastLen
  | other
  deriving DecidableEq

/-- length of the padded traces, preprocessing_td.py:475-485. `int` truncates.
For `avoidWrapAround` `N` is a float, so that `np.zeros((ntrc, N-npts))` raises
`TypeError`. -/
def paddedLen (ty : PadType) (sr lts : Rat) (npts : Nat) : Except PyErr Nat :=
  match ty with
  | .nextFastLen => .ok (nextFastLen npts)
  | .avoidWrapAround => .error .typeError
  | .avoidWrapFastLen => .ok (nextFastLen (⌊npts + sr * lts⌋).toNat)
  | .other => .error .valueError

/-- `zeroPadding` of one row (`axis=1`, preprocessing_td.py:434-492); `N ≥ npts`
for nonnegative `lengthToSave`. -/
def zeroPadding (ty : PadType) (sr lts : Rat) (x : List ℝ) : Except PyErr (List ℝ) := do
  let N ← paddedLen ty sr lts x.length
  pure (x ++ List.replicate (N - x.length) 0)

/-- one coefficient of the discrete Fourier transform of `x` -/
noncomputable def dft (x : List ℝ) (k : Nat) : ℂ :=
  ∑ j ∈ range x.length, (x.getD j 0 : ℂ) * exp (-(2 * Real.pi * I * (j * k / x.length)))

/-- `np.fft.rfft` of one row (correlate.py:685) -/
noncomputable def rfft (x : List ℝ) : List ℂ :=
  (List.range (x.length / 2 + 1)).map (dft x)

/-- `np.fft.rfftfreq(N, 1/sr)` (correlate.py:687) -/
def rfftfreq (N : Nat) (sr : Rat) : List Rat :=
  (List.range (N / 2 + 1)).map fun k : ℕ => (k : Rat) * sr / N

/-- `np.fft.irfft(M)` without `n` (correlate.py:758): the output always has
`2 * (len(M) - 1)` samples; imaginary parts of the first and last coefficient
are ignored. One coefficient only (no output samples) is a `ValueError` of
numpy. -/
noncomputable def irfft (M : List ℂ) : Except PyErr (List ℝ) :=
  let m := M.length - 1
  if m = 0 then .error .valueError
  else .ok ((List.range (2 * m)).map fun j : ℕ =>
    ((M.getD 0 0).re
      + (∑ k ∈ Ico 1 m, 2 * (M.getD k 0 * exp (2 * Real.pi * I * (j * k / (2 * m : ℕ)))).re)
      + (M.getD m 0).re * (-1) ^ j) / (2 * m : ℕ))

/-- `np.fix`: rounding towards zero -/
def fix (q : Rat) : Int := if 0 ≤ q then ⌊q⌋ else ⌈q⌉

/-- `sampleToSave` (correlate.py:709-711); a negative `lengthToSave` is outside
the model -/
def sampleToSave (sr lts : Rat) : Nat := (⌈lts * sr⌉).toNat

/-- `roffset` (correlate.py:725-730): `offset` is the difference of the start
times in seconds -/
def roffset (center : Bool) (sr offset : Rat) : Rat :=
  if center then 0 else (fix (offset * sr) : Rat) / sr

/-- the cross spectrum `M` (correlate.py:750-753) of the spectra `B0`, `B1` -/
noncomputable def crossSpectrum (freqs : List Rat) (offset : Rat) (B0 B1 : List ℂ) : List ℂ :=
  List.zipWith3 (fun b0 b1 (f : Rat) =>
    (starRingEnd ℂ) b0 * b1 * exp (I * (f : ℝ) * (offset : ℝ) * 2 * Real.pi)) B0 B1 freqs

/-- one factor of the normalisation (correlate.py:735-745): `2 Σ |B|² - B₀²`.
Simplification: `B₀` is real (it is the sum of the samples), so the square root
is the one of the reals; `Xcorr.normTerm_nonneg` shows that it is not negative. -/
noncomputable def normTerm (B : List ℂ) : ℝ :=
  2 * (B.map normSq).sum - (B.getD 0 0).re ^ 2

/-- normalisation factor (correlate.py:734-748); `irfftsize` = `(fftsize-1)*2` -/
noncomputable def corrNorm (normalize : Bool) (B0 B1 : List ℂ) : ℝ :=
  if normalize then
    Real.sqrt (normTerm B0) * Real.sqrt (normTerm B1) / ((B0.length - 1) * 2 : ℕ)
  else 1

/-- `np.concatenate((tmp[-s:], tmp[:s+1]))` (correlate.py:761-762);
`tmp[-0:]` is the whole array -/
def cutCentre {α : Type} (s : Nat) (tmp : List α) : List α :=
  (if s = 0 then tmp else tmp.drop (tmp.length - s)) ++ tmp.take (s + 1)

/-- row `ii` of `C` and its start lag (correlate.py:719-764) for the (already
processed) spectra `B0`, `B1`, `N` being the padded length. A row that does not
fit into `C` is a `ValueError`. A norm of zero yields `nan` in numpy and 0 here. -/
noncomputable def corrRow (center normalize : Bool) (sr lts : Rat) (N : Nat) (start0 start1 : Rat)
    (B0 B1 : List ℂ) : Except PyErr (List ℝ × Rat) := do
  let s := sampleToSave sr lts
  let ro := roffset center sr (start0 - start1)
  let offset := start0 - start1 - ro
  let norm := corrNorm normalize B0 B1
  let tmp ← irfft (crossSpectrum (rfftfreq N sr) offset B0 B1)
  let row := cutCentre s tmp
  if row.length = 2 * s + 1 then
    pure (row.map (· / norm), -(s : Rat) / sr - ro)
  else throw .valueError

/-- The correlation of two traces of equal length without further processing
steps (correlate.py:644-778): padding, transforms, correlation. `start0`,
`start1` are the start times of the traces in seconds. -/
noncomputable def correlate (center normalize : Bool) (sr lts : Rat) (start0 start1 : Rat)
    (x0 x1 : List ℝ) : Except PyErr (List ℝ × Rat) := do
  let a ← zeroPadding .avoidWrapFastLen sr lts x0
  let b ← zeroPadding .avoidWrapFastLen sr lts x1
  corrRow center normalize sr lts a.length start0 start1 (rfft a) (rfft b)

end Xcorr
end SeisMIC
