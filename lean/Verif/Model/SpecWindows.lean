import Verif.Model.WindowOrder
import Verif.Model.ReadWindows
import Verif.Model.Spectrogram

/-!
# Model: the data of the spectra of a spectrogram (utils/raw_analysis.py:54-87, 111-136)

Times are counted in samples.
-/

namespace SeisMIC

variable {β φ σ : Type}

/-- the trace whose spectra are computed for a stream (raw_analysis.py:60-73): `preprocess` (raw_analysis.py:111-136) of the contiguous parts, `op`, which is `none` if
an exception is raised; the parts are merged and the first trace of the stream is taken. Without a trace (IndexError), or after an exception, the stream is skipped.
Simplification: the data have twice the rate of `freqmax` already, so that `resample_or_decimate` does not change it. -/
def specTrace (op : List β → Option (List β)) (st : List (WTr β)) : Option (WTr β) :=
  match (splitStream st).mapM fun t => (op (t.data.filterMap _root_.id)).map fun d => t.with (t.head.start, d.map some) with
  | none => none
  | some ps => (mergeObs ps).head?

/-- the windows for which spectra are computed, with their start (raw_analysis.py:74-76): `tr.slide(window_length, window_length)` cuts windows with both ends.
`none` is a masked sample: `scipy.signal.welch` ignores the mask and finds the NaN that obspy's `merge` puts there. -/
def specWindows (win : Nat) (t : WTr β) : List (Int × List (Option β)) :=
  (slideStarts t.head.start (t.head.start + t.data.length - 1) win).map fun s =>
    (s, (List.range (win + 1)).map fun i : Nat => GapTr.at (t.head.start, t.data) (s + i))

/-- the stream as in `Model/Spectrogram.lean`: `spec` is the spectrum of the samples of a window, with its frequencies -/
def specStream (freq : List (Option β) → Option φ) (spec : List (Option β) → Option σ) (op : List β → Option (List β)) (win : Nat) (st : List (WTr β)) : SpecStream φ σ :=
  (specTrace op st).map fun t => (specWindows win t).map fun w => ⟨w.1, freq w.2, spec w.2⟩

end SeisMIC
