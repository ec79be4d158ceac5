import Verif.Model.Decay
import Verif.Model.Xcorr
import Mathlib.Algebra.BigOperators.Intervals

/-!
# Filter and envelope of correlations (src/seismic/monitor/post_corr_process.py)

Rows are real, `none` is NaN.
-/

namespace SeisMIC

open Finset

noncomputable section

/-- sample `n` of `scipy.signal.lfilter(b, a, x)` (used in post_corr_process.py:220-221) for the coefficients `b` and `a`, without initial
conditions: `a₀ yₙ = Σ bₖ xₙ₋ₖ - Σ aₖ yₙ₋ₖ` -/
def lfilterAt (b a x : List ℝ) (n : Nat) : ℝ :=
  (∑ k ∈ range (n + 1), b.getD k 0 * x.getD (n - k) 0 - ∑ k : Fin n, a.getD (k + 1) 0 * lfilterAt b a x (n - 1 - k)) / a.getD 0 0
termination_by n
decreasing_by omega

/-- `scipy.signal.lfilter(b, a, x)` -/
def lfilter (b a x : List ℝ) : List ℝ := (List.range x.length).map (lfilterAt b a x)

/-- one row in `corr_mat_filter` (post_corr_process.py:220-221): forwards, then backwards -/
def zeroPhase (b a x : List ℝ) : List ℝ := (lfilter b a (lfilter b a x).reverse).reverse

/-- a row that may have NaN: the sums from the first NaN on are NaN, among them the last one, so that all samples are NaN after the filter went
backwards -/
def zeroPhaseRow (b a : List ℝ) (row : List (Option ℝ)) : List (Option ℝ) :=
  match row.mapM id with
  | some x => (zeroPhase b a x).map some
  | none => row.map fun _ => none

/-- `corr_mat_filter` (post_corr_process.py:188-223). `butter order wn` are the coefficients of `scipy.signal.butter` for a band given as
fractions of the Nyquist frequency, or its exception. -/
def corrMatFilter (butter : Nat → List Rat → Except PyErr (List ℝ × List ℝ)) (data : List (List (Option ℝ))) (s : LagStats) (freqs : List Rat)
    (order : Nat) : Except PyErr (List (List (Option ℝ))) :=
  if freqs.length ≠ 2 then .error .valueError
  else do
    let ba ← butter order (freqs.map fun f => f / (s.sr / 2))
    .ok (data.map (zeroPhaseRow ba.1 ba.2))

/-- the factors of `scipy.signal.hilbert` for `N` coefficients -/
def hilbertFactor (N m : Nat) : ℝ :=
  if m = 0 then 1
  else if N % 2 = 0 then (if m < N / 2 then 2 else if m = N / 2 then 1 else 0)
  else if m < (N + 1) / 2 then 2 else 0

/-- `scipy.signal.hilbert` of one row (used in post_corr_process.py:370): the analytic signal -/
def analytic (x : List ℝ) : List ℂ :=
  (List.range x.length).map fun j : Nat =>
    (∑ m ∈ range x.length, (hilbertFactor x.length m : ℂ) * Xcorr.dft x m * Complex.exp (2 * Real.pi * Complex.I * (j * m / x.length))) / x.length

/-- its imaginary part, the argument `hilb` of `envelopeRow` -/
def hilbertIm (x : List ℝ) : List ℝ := (analytic x).map Complex.im

/-- `corr_mat_envelope` (post_corr_process.py:355-375): a NaN spreads over its row -/
def corrMatEnvelope (data : List (List (Option ℝ))) : List (List (Option ℝ)) :=
  data.map fun row => match row.mapM id with
    | some x => (analytic x).map fun z => some ‖z‖
    | none => row.map fun _ => none

end

end SeisMIC
