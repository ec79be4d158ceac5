{
 "C04": {
  "note": "Exact set of selected pairs for every method, including the two special cases of empty channel codes."
 },
 "C07": {
  "note": "Never skips a correlation that is not stored (proved). Stored correlations are recognised if the file is the only one whose name fits and the pair's name order does not depend on the channel; equal-length codes give this. Violated in general: S1/S10 is recomputed forever, S1-S2 next to S1-S22 and stack-only files raise KeyError."
 },
 "C08": {
  "note": "Holds for codes of equal length and whenever the concatenations differ; violated for two stations whose concatenated codes coincide."
 },
 "C09": {
  "note": "Lookup is independent of the order of the arguments (proved). Found when the order without channel agrees with the order with channel; violated for S1/S10."
 },
 "C15": {
  "note": "Exact for literal times and for '*'. Violated for '?'."
 },
 "C16": {
  "note": "Different relevant options are refused (proved); equal ones are accepted unless two mask steps are adjacent (violated)."
 },
 "C17": {
  "note": "Idempotent unless two mask steps are adjacent (violated)."
 },
 "C19": {
  "note": "Accepted names are valid and all valid ones are accepted; strings that merely contain a valid name are accepted too (violated)."
 },
 "C20": {
  "note": "Start/end wildcards are exact; complete for whole-component wildcards; wildcards inside a component miss, '*Z' matches too much, and options are returned as data (violated)."
 },
 "C81": {
  "note": "Violated because a request is used as a prefix pattern (A-B1 also selects A-B10); exact for complete names of maximal length."
 },
 "C10": {
  "note": "Exchange theorem for CorrTrace (lag of the last sample given) and for the correlation itself (any spectra). Violated by _pxcorr_inner, which passes the lag after the last sample, and for two locations of one station."
 },
 "C11": {
  "note": "Window, centre, minimal number of samples. Violated for lengthToSave = 0 (always ValueError)."
 },
 "C12": {
  "note": "Every saved sample is the linear correlation at the lag of the header if the padded length is even, lengthToSave and the offset are whole numbers of samples. Violated for odd padded length and for fractions of samples."
 },
 "C84": {
  "note": "Proved for pairs of one-letter components; strings such as 'ZZ-' are accepted (violated)."
 },
 "C85": {
  "note": "Exact value proved; it is one iff the alternating sum of the samples vanishes, so the property is violated (Nyquist coefficient counted twice)."
 },
 "C23": {
  "note": "Exact, with order and multiplicity."
 },
 "C25": {
  "note": "Exact if the data contain no nan; equal correlations with nan both stay (violated). The kept traces are always a sublist without two traces that compare equal."
 },
 "C26": {
  "note": "Partition proved in general; exact for correlations within one day; windows that cross midnight are misjudged (violated)."
 },
 "C27": {
  "note": "Partition proved for given times and for days; with default times a correlation that ends after the one that starts last may be lost (violated), otherwise proved."
 },
 "C29": {
  "note": "Bounds, copies and normalisation proved for 'mean' and, without nan, for 'by_length'; violated for 'by_length' with nan. Header end is that of the last-starting member (violated if an earlier one ends later)."
 },
 "C30": {
  "note": "Round trip preserves samples, windows, codes and lags; calib, coordinates and extra entries become those of the first trace (violated for extras)."
 },
 "C31": {
  "note": "Iff proved relative to the first trace; if the first trace lacks coordinates, different coordinates are mixed (violated)."
 },
 "C32": {
  "note": "Rows exact; a bulk with one row cannot be sliced and ntrcs is stale after slicing by time (violated). Index slices are exact."
 },
 "C33": {
  "note": "For all sequences of increments and windows (gaps included)."
 },
 "C34": {
  "note": "c34_actual gives the content of every write for all inputs: the remaining windows of the previous increment plus the first window of the next one. So the property fails with more than one window per increment (violated) and holds with at most one."
 },
 "C35": {
  "note": "Holds if the traces of each process are aligned and span the increment. Violated by sub-sample offsets between traces of a process, by data that end early, and by ValueError in the preprocessing of one process. obspy's slide is modelled from its documentation."
 },
 "C36": {
  "note": "Any number of crashes at any points; needs a look-up of existing data that returns (it can raise KeyError: c36_restart_violated). c36_keeps holds unconditionally. The correlation of a pair is taken to depend on the two traces only; stacks written by a crashed run are not covered."
 },
 "C37": {
  "note": "For all streams and all process counts, both file layouts."
 },
 "C86": {
  "note": "obspy's select ignores case, so stations that differ only in case are mixed (violated)."
 },
 "C38": {
  "note": "Samples: for every window inside the trace. Header: exact if the window starts on a sample, otherwise start_lag is off by less than one sample (violated)."
 },
 "C39": {
  "note": "For all matrices, start times and bins."
 },
 "C40": {
  "note": "For all rational arguments."
 },
 "C41": {
  "note": "Holds if zero lag is on a sample; if it falls between two samples the mirrored samples are those of different lags (violated)."
 },
 "C42": {
  "note": "Holds if the tapered part does not begin before the trace and does not end exactly one sample after it; otherwise ValueError although the width is admissible (violated). The cosine taper is a parameter."
 },
 "C43": {
  "note": "The last of the samples 0, f, 2f, ... is always dropped (violated); all other samples, the header, and the errors are as stated. The filter is a parameter."
 },
 "C44": {
  "note": "Rates are exact rationals here; the comparison of floating-point durations is in Model/FloatResample.lean (C197). The filter and scipy's resample are not modelled."
 },
 "C45": {
  "note": "Holds for energy, abssum and absmax with a window that contains a sample. Violated for type max (negative maximum flips the polarity) and for windows without samples (all data become NaN). Real numbers."
 },
 "C46": {
  "note": "For all matrices, axes and factors >= 0, with NaN in the preprocessing version. The level is computed from the data, so a second call with the same factor is a clipping at another level (c46_second_call)."
 },
 "C77": {
  "note": "Holds if no sample of the block is zero. One zero sample disables whitening of all traces of the process (violated); the result depends on the number of processes."
 },
 "C78": {
  "note": "Holds for tapers with an odd number of samples; with an even number samples above the threshold can get weight one (violated). Exact real arithmetic: rounding of the moving average is not modelled."
 },
 "C88": {
  "note": "Real numbers, traces without NaN."
 },
 "C70": {
  "note": "obspy's Stream iterates over a copy of its list of traces. Sampling rates are rationals."
 },
 "C71": {
  "note": "A trace whose samples are all NaN but not masked counts as valid, as in the code."
 },
 "C72": {
  "note": "Exact arithmetic; one-dimensional arrays and the rows of matrices (last axis)."
 },
 "C73": {
  "note": "Holds for traces with a valid sample; a trace without valid sample that is not longer than the maximum gap raises ValueError (violated)."
 },
 "C74": {
  "note": "For every finite nesting; strings are leaves."
 },
 "C75": {
  "note": "The anti-alias filter and Trace.resample are parameters of the model."
 },
 "C76": {
  "note": "c76_actual characterises exactly which samples are masked. Violated for intervals that cover the whole trace or only touch its first or last sample."
 },
 "C79": {
  "note": "Holds without tapering at gaps. Violated with it: leading masked samples are dropped and data move in time. Integer data are set to zero at the ends."
 },
 "C80": {
  "note": "The archive is a list of channel directories; requests with codes. Lists with one entry are covered by c80_single."
 },
 "C89": {
  "note": "Exact without request list. Violated with one: requests are compared with the alphabetical name only, while traces are selected in both orders and by patterns."
 },
 "C90": {
  "note": "Holds for requests Net0-Net1.Sta0-Sta1 with codes free of separators and pattern characters; violated for requests with channels."
 },
 "C91": {
  "note": "Violated for one network with at least two stations."
 },
 "C216": {
  "note": "The shape of a kernel depends on the unit of length (c216_length_violated): the coherent term has the dimension 1/length, the scattered term 1/area."
 },
 "C218": {
  "note": "Proved for inputs on one grid of times and stretches (memory saving variant: if no input is an average itself). Violated otherwise: only results on the grid of the first input are used, so the order decides which measurements contribute."
 },
 "C220": {
  "note": "Proved for odd numbers of tested stretches from three and references that do not vanish on the window for any tested stretch. Violated for even numbers (100 is the default of time_stretch_estimate): zero is not tested, so it is never reported; and for a single step."
 },
 "C221": {
  "note": "Proved for a given reference. Not satisfied if the reference is trimmed too: compressed references have nothing to compare with beyond the trimmed lags and the result is nan."
 },
 "C222": {
  "note": "Proved for traces whose length is even after padding. Not satisfied for odd lengths, since the inverse transform always returns an even number of samples."
 },
 "C226": {
  "note": "Holds for averages in bins and for mirroring. Violated for smoothing near the ends of a trace, where the excess is at most the width of the range."
 }
}