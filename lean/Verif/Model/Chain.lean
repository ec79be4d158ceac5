import Verif.Model.Amplitude
import Verif.Model.TdNorm
import Verif.Model.FdNorm
import Verif.Model.Detrend
import Verif.Model.Xcorr

/-!
# The whole chain from traces to correlations

`Correlator._pxcorr_matrix` (src/seismic/correlate/correlate.py:644-778) on one process, with
the steps of src/seismic/correlate/preprocessing_td.py and preprocessing_fd.py. Rows are
traces without NaN (correlate.py:667 sets NaN to zero). A step that makes a sample NaN stops the
chain with `none`: such traces are not followed further.
-/

namespace SeisMIC

noncomputable section

open Xcorr

/-- why a chain ends early: an exception, or NaN in the data (`none`) -/
abbrev Stop := Option PyErr

/-- exceptions of a step -/
def orStop {α : Type} : Except PyErr α → Except Stop α
  | .ok a => .ok a
  | .error e => .error (some e)

/-- the numbers of a trace without NaN -/
def noNan (row : List (Option ℝ)) : Except Stop (List ℝ) :=
  match row.mapM id with
  | some l => .ok l
  | none => .error none

/-- a multiple of a trace -/
def scaleBy (a : ℝ) (x : List ℝ) : List ℝ := x.map (a * ·)

/-- a linear filter for one trace (`TDfilter`, preprocessing_td.py:400-431, and the filters of
other steps); only that it commutes with a change of the gain is used -/
structure LinFilter where
  run : List ℝ → List ℝ
  homog : ∀ a x, run (scaleBy a x) = scaleBy a (run x)

/-- a step of `TDpreProcessing` -/
inductive TdStep where
  | clip (factor : ℝ)
  | trend (qr : (n : Nat) → 2 ≤ n → QR (trendMatrix n))
  | demean
  | mute (filt : LinFilter) (args : MuteArgs)
  | std
  | sign
  | taper (weights : Nat → List ℝ)
  | norm (filt : LinFilter) (windowLength : Rat)
  | filter (filt : LinFilter)

/-- one step in the time domain (correlate.py:669-671): `clip` (preprocessing_td.py:26-53),
`detrend` (56-145) with `linear` or `constant`, `mute` (148-247), `normalizeStandardDeviation`
(250-273), `signBitNormalization` (276-293), `taper` (296-332) with the weights of the chosen
window for the number of samples, `TDnormalization` (335-397), `TDfilter` (400-431) -/
def TdStep.run (sr : Rat) (s : TdStep) (A : List (List ℝ)) : Except Stop (List (List ℝ)) :=
  match s with
  | .clip factor => A.mapM fun x => noNan (tdClip factor (x.map some))
  | .trend qr => A.mapM fun x =>
      if h : 2 ≤ x.length then noNan (List.ofFn (detrendRow (qr x.length h) fun k => some (x.get k)))
      else .error (some .valueError)
  | .demean => A.mapM fun x => noNan (List.ofFn (demeanRow fun k : Fin x.length => some (x.get k)))
  | .mute filt args => orStop (SeisMIC.mute filt.run A (A.headD []).length sr args)
  | .std => .ok (A.map normalizeStd)
  | .sign => .ok (A.map signBit)
  | .taper weights => .ok (A.map fun x => List.zipWith (· * ·) x (weights (A.headD []).length))
  | .norm filt windowLength =>
      match tdNormalization filt.run (A.headD []).length sr windowLength (A.map fun x => x.map some) with
      | .error e => .error (some e)
      | .ok B => B.mapM noNan
  | .filter filt => .ok (A.map filt.run)

/-- a step of `FDpreProcessing` -/
inductive FdStep where
  | filter (f1 f2 f3 f4 : Rat)
  | sign
  | whiten

/-- one step in the frequency domain (correlate.py:693-699): `FDfilter`
(preprocessing_fd.py:23-49), `FDsignBitNormalization` (52-77), `spectralWhitening` (80-120)
without joint normalisation -/
def FdStep.run (freqs : List Rat) (s : FdStep) (B : List (List ℂ)) : Except Stop (List (List ℂ)) :=
  match s with
  | .filter f1 f2 f3 f4 => orStop (fdFilter freqs f1 f2 f3 f4 B)
  | .sign => orStop (fdSignBit B)
  | .whiten => orStop (spectralWhitening false B)

/-- one correlation (correlate.py:719-763) of the spectra with the indices of a pair -/
def pairRow (center normalize : Bool) (sr lts : Rat) (N : Nat) (starts : List Rat) (B : List (List ℂ)) (ij : Nat × Nat) :
    Except Stop (List ℝ × Rat) :=
  match B[ij.1]?, B[ij.2]?, starts[ij.1]?, starts[ij.2]? with
  | some b0, some b1, some s0, some s1 => orStop (corrRow center normalize sr lts N s0 s1 b0 b1)
  | _, _, _, _ => .error (some .indexError)

/-- `_pxcorr_matrix` (correlate.py:644-778) on one process: for each pair the correlation and its first lag -/
def correlateChain (td : List TdStep) (fd : List FdStep) (center normalize : Bool) (sr lts : Rat) (starts : List Rat)
    (pairs : List (Nat × Nat)) (A : List (List ℝ)) : Except Stop (List (List ℝ × Rat)) := do
  let A ← td.foldlM (fun A s => s.run sr A) A
  let A ← A.mapM fun x => orStop (zeroPadding .avoidWrapFastLen sr lts x)
  let N := (A.headD []).length
  let B ← fd.foldlM (fun B s => s.run (rfftfreq N sr) B) (A.map rfft)
  pairs.mapM (pairRow center normalize sr lts N starts B)

end

end SeisMIC
