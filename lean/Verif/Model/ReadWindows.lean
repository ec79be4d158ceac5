import Verif.Py.Basic

/-!
# Model: the time windows of a spectrogram (trace_data/waveform.py, utils/raw_analysis.py)

Times are integers (a common unit of start, end, increment and window length).
-/

namespace SeisMIC

/-- the start times `starttime + np.arange(0, endtime - starttime, increment)` (waveform.py:415-416), for a positive increment -/
def readStarts (start stop inc : Int) : List Int := (List.range (-((start - stop) / inc)).toNat).map fun k : Nat => start + k * inc

/-- the periods that are read by `Store_Client._generate_time_windows` (waveform.py:392-422) -/
def readWindows (start stop inc : Int) : List (Int × Int) := (readStarts start stop inc).map fun s => (s, s + inc)

/-- start times of `tr.slide(window_length=win, step=win)` (raw_analysis.py:74) for a trace with samples from `s` to `e`: the windows that end at or before
the last sample -/
def slideStarts (s e win : Int) : List Int := (List.range ((e - s) / win).toNat).map fun k : Nat => s + k * win

/-- the start times of the windows for which `Store_Client.compute_spectrogram` (waveform.py:424-470) computes spectra with one process
(raw_analysis.py:55-82), for data without gaps that have samples at the limits of the periods that are read -/
def spectrogramStarts (start stop win inc : Int) : Except PyErr (List Int) :=
  if inc < win then .error .valueError
  else .ok ((readWindows start stop inc).flatMap fun w => slideStarts w.1 w.2 win)

end SeisMIC
