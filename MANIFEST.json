{
 "claims": [
  {
   "property": "C01",
   "status": "proved",
   "theorems": [
    "SeisMIC.c01_exactly_one_process",
    "SeisMIC.c01_items_partition",
    "SeisMIC.c01_windows_exactly_one_process"
   ],
   "note": "The full statement is proved of the model."
  },
  {
   "property": "C02",
   "status": "proved",
   "theorems": [
    "SeisMIC.c02_parallel_eq_serial"
   ],
   "note": "The full statement is proved of the model."
  },
  {
   "property": "C03",
   "status": "proved",
   "theorems": [
    "SeisMIC.c03_contiguous",
    "SeisMIC.c03_balanced"
   ],
   "note": "The full statement is proved of the model."
  },
  {
   "property": "C04",
   "status": "proved",
   "theorems": [
    "SeisMIC.c04_exact",
    "SeisMIC.c04_empty_channel"
   ],
   "note": "Exact set of selected pairs for every method, including the two special cases of empty channel codes."
  },
  {
   "property": "C05",
   "status": "proved",
   "theorems": [
    "SeisMIC.c05_method_names"
   ],
   "note": "The full statement is proved of the model."
  },
  {
   "property": "C06",
   "status": "proved",
   "theorems": [
    "SeisMIC.c06_symmetric",
    "SeisMIC.c06_named_pair_selected"
   ],
   "note": "The full statement is proved of the model."
  },
  {
   "property": "C07",
   "status": "partial",
   "theorems": [
    "SeisMIC.c07_never_skips_missing",
    "SeisMIC.c07_recognised_partial",
    "SeisMIC.c07_recognised_equal_length",
    "SeisMIC.c07_recognised_violated",
    "SeisMIC.c07_lookup_fails_violated"
   ],
   "note": "Never skips a correlation that is not stored (proved). Stored correlations are recognised if the file is the only one whose name fits and the pair's name order does not depend on the channel; equal-length codes give this. Violated in general: S1/S10 is recomputed forever, S1-S2 next to S1-S22 and stack-only files raise KeyError."
  },
  {
   "property": "C08",
   "status": "partial",
   "theorems": [
    "SeisMIC.c08_codes_together",
    "SeisMIC.c08_order_independent_partial",
    "SeisMIC.c08_order_independent_equal_length",
    "SeisMIC.c08_order_independent_violated",
    "SeisMIC.c08_idempotent"
   ],
   "note": "Holds for codes of equal length and whenever the concatenations differ; violated for two stations whose concatenated codes coincide."
  },
  {
   "property": "C09",
   "status": "partial",
   "theorems": [
    "SeisMIC.c09_either_order",
    "SeisMIC.c09_found_partial",
    "SeisMIC.c09_found_equal_length",
    "SeisMIC.c09_found_violated"
   ],
   "note": "Lookup is independent of the order of the arguments (proved). Found when the order without channel agrees with the order with channel; violated for S1/S10."
  },
  {
   "property": "C10",
   "status": "partial",
   "theorems": [
    "SeisMIC.c10_exchange_partial",
    "SeisMIC.c10_alphabetical",
    "SeisMIC.c10_lags",
    "SeisMIC.c10_inner_violated",
    "SeisMIC.c10_inner_partial",
    "SeisMIC.c10_same_codes_violated",
    "SeisMIC.Xcorr.c10_exchange_reverses"
   ],
   "note": "Exchange theorem for CorrTrace (lag of the last sample given) and for the correlation itself (any spectra). Violated by _pxcorr_inner, which passes the lag after the last sample, and for two locations of one station."
  },
  {
   "property": "C11",
   "status": "partial",
   "theorems": [
    "SeisMIC.Xcorr.c11_window",
    "SeisMIC.Xcorr.c11_samples",
    "SeisMIC.Xcorr.c11_zero_length_violated"
   ],
   "note": "Window, centre, minimal number of samples. Violated for lengthToSave = 0 (always ValueError)."
  },
  {
   "property": "C12",
   "status": "partial",
   "theorems": [
    "SeisMIC.Xcorr.c12_between_samples_partial",
    "SeisMIC.Xcorr.c12_lag_and_no_wrap_partial",
    "SeisMIC.Xcorr.c12_odd_length_violated",
    "SeisMIC.Xcorr.c12_fraction_violated"
   ],
   "note": "Every saved sample is the linear correlation at the lag of the header if the padded length is even, lengthToSave and the offset are whole numbers of samples. Violated for odd padded length and for fractions of samples."
  },
  {
   "property": "C13",
   "status": "proved",
   "theorems": [
    "SeisMIC.c13_first_write_wins",
    "SeisMIC.c13_never_overwritten",
    "SeisMIC.c13_options_kept"
   ],
   "note": "The full statement is proved of the model."
  },
  {
   "property": "C14",
   "status": "proved",
   "theorems": [
    "SeisMIC.c14_read_back",
    "SeisMIC.c14_read_back_later",
    "SeisMIC.c14_missing"
   ],
   "note": "The full statement is proved of the model."
  },
  {
   "property": "C15",
   "status": "partial",
   "theorems": [
    "SeisMIC.c15_literal_exact",
    "SeisMIC.c15_star_exact_partial",
    "SeisMIC.c15_wildcard_codes_rejected",
    "SeisMIC.c15_question_violated",
    "SeisMIC.c15_star_missing"
   ],
   "note": "Exact for literal times and for '*'. Violated for '?'."
  },
  {
   "property": "C16",
   "status": "partial",
   "theorems": [
    "SeisMIC.c16_different_refused",
    "SeisMIC.c16_equal_accepted_partial",
    "SeisMIC.c16_otherwise",
    "SeisMIC.c16_stored_options_stay",
    "SeisMIC.c16_equal_accepted_violated"
   ],
   "note": "Different relevant options are refused (proved); equal ones are accepted unless two mask steps are adjacent (violated)."
  },
  {
   "property": "C17",
   "status": "partial",
   "theorems": [
    "SeisMIC.c17_what_is_stored",
    "SeisMIC.c17_idempotent_partial",
    "SeisMIC.c17_idempotent_violated"
   ],
   "note": "Idempotent unless two mask steps are adjacent (violated)."
  },
  {
   "property": "C18",
   "status": "proved",
   "theorems": [
    "SeisMIC.c18_mode",
    "SeisMIC.c18_file_name"
   ],
   "note": "The full statement is proved of the model."
  },
  {
   "property": "C19",
   "status": "partial",
   "theorems": [
    "SeisMIC.c19_level",
    "SeisMIC.c19_method_and_level",
    "SeisMIC.c19_number",
    "SeisMIC.c19_accepted_is_valid",
    "SeisMIC.c19_no_level",
    "SeisMIC.c19_other_rejected_violated"
   ],
   "note": "Accepted names are valid and all valid ones are accepted; strings that merely contain a valid name are accepted too (violated)."
  },
  {
   "property": "C20",
   "status": "partial",
   "theorems": [
    "SeisMIC.c20_times_exact",
    "SeisMIC.c20_complete_partial",
    "SeisMIC.c20_inner_wildcard_violated",
    "SeisMIC.c20_overmatch_violated",
    "SeisMIC.c20_options_dataset_violated",
    "SeisMIC.c20_stored",
    "SeisMIC.c20_levels_exact"
   ],
   "note": "Start/end wildcards are exact; complete for whole-component wildcards; wildcards inside a component miss, '*Z' matches too much, and options are returned as data (violated)."
  },
  {
   "property": "C21",
   "status": "proved",
   "theorems": [
    "SeisMIC.c21_consistent",
    "SeisMIC.c21_preserved",
    "SeisMIC.c21_from_dictionary",
    "SeisMIC.c21_last_lag"
   ],
   "note": "The full statement is proved of the model."
  },
  {
   "property": "C22",
   "status": "proved",
   "theorems": [
    "SeisMIC.c22_read_only",
    "SeisMIC.c22_only_derived"
   ],
   "note": "The full statement is proved of the model."
  },
  {
   "property": "C23",
   "status": "proved",
   "theorems": [
    "SeisMIC.c23_select_exact"
   ],
   "note": "Exact, with order and multiplicity."
  },
  {
   "property": "C24",
   "status": "proved",
   "theorems": [
    "SeisMIC.c24_pop_exact"
   ],
   "note": "The full statement is proved of the model."
  },
  {
   "property": "C25",
   "status": "partial",
   "theorems": [
    "SeisMIC.c25_duplicates_partial",
    "SeisMIC.c25_nan_violated",
    "SeisMIC.c25_sublist"
   ],
   "note": "Exact if the data contain no nan; equal correlations with nan both stay (violated). The kept traces are always a sublist without two traces that compare equal."
  },
  {
   "property": "C26",
   "status": "partial",
   "theorems": [
    "SeisMIC.c26_nanoseconds_partial",
    "SeisMIC.c26_partition",
    "SeisMIC.c26_same_day_partial",
    "SeisMIC.c26_midnight_violated"
   ],
   "note": "Partition proved in general; exact for correlations within one day; windows that cross midnight are misjudged (violated)."
  },
  {
   "property": "C27",
   "status": "partial",
   "theorems": [
    "SeisMIC.c27_nanoseconds",
    "SeisMIC.c27_windows_partition",
    "SeisMIC.c27_slide",
    "SeisMIC.c27_daily",
    "SeisMIC.c27_default_partial",
    "SeisMIC.c27_default_violated"
   ],
   "note": "Partition proved for given times and for days; with default times a correlation that ends after the one that starts last may be lost (violated), otherwise proved."
  },
  {
   "property": "C28",
   "status": "proved",
   "theorems": [
    "SeisMIC.c28_groups",
    "SeisMIC.c28_total"
   ],
   "note": "The full statement is proved of the model."
  },
  {
   "property": "C29",
   "status": "partial",
   "theorems": [
    "SeisMIC.c29_mean_bounded",
    "SeisMIC.c29_weighted_bounded_partial",
    "SeisMIC.c29_weighted_nan_violated",
    "SeisMIC.c29_normalised",
    "SeisMIC.c29_copies",
    "SeisMIC.c29_copies_weighted_partial",
    "SeisMIC.c29_copies_weighted_violated",
    "SeisMIC.c29_start",
    "SeisMIC.c29_covers_partial",
    "SeisMIC.c29_covers_violated",
    "SeisMIC.c29_header"
   ],
   "note": "Bounds, copies and normalisation proved for 'mean' and, without nan, for 'by_length'; violated for 'by_length' with nan. Header end is that of the last-starting member (violated if an earlier one ends later)."
  },
  {
   "property": "C30",
   "status": "partial",
   "theorems": [
    "SeisMIC.c30_round_trip_partial",
    "SeisMIC.c30_extra_violated",
    "SeisMIC.c30_rejects",
    "SeisMIC.c30_rows"
   ],
   "note": "Round trip preserves samples, windows, codes and lags; calib, coordinates and extra entries become those of the first trace (violated for extras)."
  },
  {
   "property": "C31",
   "status": "partial",
   "theorems": [
    "SeisMIC.c31_iff",
    "SeisMIC.c31_fields",
    "SeisMIC.c31_pairwise",
    "SeisMIC.c31_missing_coordinates_violated"
   ],
   "note": "Iff proved relative to the first trace; if the first trace lacks coordinates, different coordinates are mixed (violated)."
  },
  {
   "property": "C32",
   "status": "partial",
   "theorems": [
    "SeisMIC.c32_slice_partial",
    "SeisMIC.c32_range_error",
    "SeisMIC.c32_single_row_violated",
    "SeisMIC.c32_ntrcs_violated",
    "SeisMIC.c32_index_slice",
    "SeisMIC.c32_item"
   ],
   "note": "Rows exact; a bulk with one row cannot be sliced and ntrcs is stale after slicing by time (violated). Index slices are exact."
  },
  {
   "property": "C33",
   "status": "proved",
   "theorems": [
    "SeisMIC.c33_written_once"
   ],
   "note": "For all sequences of increments and windows (gaps included)."
  },
  {
   "property": "C34",
   "status": "partial",
   "theorems": [
    "SeisMIC.c34_actual",
    "SeisMIC.c34_partial",
    "SeisMIC.c34_violated"
   ],
   "note": "c34_actual gives the content of every write for all inputs: the remaining windows of the previous increment plus the first window of the next one. So the property fails with more than one window per increment (violated) and holds with at most one."
  },
  {
   "property": "C35",
   "status": "partial",
   "theorems": [
    "SeisMIC.c35_partial",
    "SeisMIC.c35_offset_violated",
    "SeisMIC.c35_short_violated",
    "SeisMIC.c35_failure_violated"
   ],
   "note": "Holds if the traces of each process are aligned and span the increment. Violated by sub-sample offsets between traces of a process, by data that end early, and by ValueError in the preprocessing of one process. obspy's slide is modelled from its documentation."
  },
  {
   "property": "C36",
   "status": "partial",
   "theorems": [
    "SeisMIC.c36_resume_partial",
    "SeisMIC.c36_keeps",
    "SeisMIC.c36_skipping",
    "SeisMIC.c36_restart_violated"
   ],
   "note": "Any number of crashes at any points; needs a look-up of existing data that returns (it can raise KeyError: c36_restart_violated). c36_keeps holds unconditionally. The correlation of a pair is taken to depend on the two traces only; stacks written by a crashed run are not covered."
  },
  {
   "property": "C37",
   "status": "proved",
   "theorems": [
    "SeisMIC.c37_disjoint"
   ],
   "note": "For all streams and all process counts, both file layouts."
  },
  {
   "property": "C38",
   "status": "partial",
   "theorems": [
    "SeisMIC.c38_trim",
    "SeisMIC.c38_header_partial",
    "SeisMIC.c38_outside",
    "SeisMIC.c38_header_violated"
   ],
   "note": "Samples: for every window inside the trace. Header: exact if the window starts on a sample, otherwise start_lag is off by less than one sample (violated)."
  },
  {
   "property": "C39",
   "status": "proved",
   "theorems": [
    "SeisMIC.c39_bins",
    "SeisMIC.c39_one_bin"
   ],
   "note": "For all matrices, start times and bins."
  },
  {
   "property": "C40",
   "status": "proved",
   "theorems": [
    "SeisMIC.c40_times",
    "SeisMIC.c40_rejects"
   ],
   "note": "For all rational arguments."
  },
  {
   "property": "C41",
   "status": "partial",
   "theorems": [
    "SeisMIC.c41_mirror",
    "SeisMIC.c41_one_sided",
    "SeisMIC.c41_between_samples_violated"
   ],
   "note": "Holds if zero lag is on a sample; if it falls between two samples the mirrored samples are those of different lags (violated)."
  },
  {
   "property": "C42",
   "status": "partial",
   "theorems": [
    "SeisMIC.c42_taper_partial",
    "SeisMIC.c42_rejects",
    "SeisMIC.c42_zero",
    "SeisMIC.c42_begin_violated",
    "SeisMIC.c42_end_violated"
   ],
   "note": "Holds if the tapered part does not begin before the trace and does not end exactly one sample after it; otherwise ValueError although the width is admissible (violated). The cosine taper is a parameter."
  },
  {
   "property": "C43",
   "status": "partial",
   "theorems": [
    "SeisMIC.c43_decimate_partial",
    "SeisMIC.c43_factor",
    "SeisMIC.c43_last_violated",
    "SeisMIC.c43_choice"
   ],
   "note": "The last of the samples 0, f, 2f, ... is always dropped (violated); all other samples, the header, and the errors are as stated. The filter is a parameter."
  },
  {
   "property": "C44",
   "status": "proved",
   "theorems": [
    "SeisMIC.c44_header",
    "SeisMIC.c44_terminates",
    "SeisMIC.c44_durations",
    "SeisMIC.c44_failure"
   ],
   "note": "Rates are exact rationals here; the comparison of floating-point durations is in Model/FloatResample.lean (C197). The filter and scipy's resample are not modelled."
  },
  {
   "property": "C45",
   "status": "partial",
   "theorems": [
    "SeisMIC.c45_normalize_partial",
    "SeisMIC.c45_outside",
    "SeisMIC.c45_unknown",
    "SeisMIC.c45_max_violated",
    "SeisMIC.c45_empty_violated"
   ],
   "note": "Holds for energy, abssum and absmax with a window that contains a sample. Violated for type max (negative maximum flips the polarity) and for windows without samples (all data become NaN). Real numbers."
  },
  {
   "property": "C46",
   "status": "proved",
   "theorems": [
    "SeisMIC.c46_clip",
    "SeisMIC.c46_same_level",
    "SeisMIC.c46_td_clip",
    "SeisMIC.c46_second_call"
   ],
   "note": "For all matrices, axes and factors >= 0, with NaN in the preprocessing version. The level is computed from the data, so a second call with the same factor is a clipping at another level (c46_second_call)."
  },
  {
   "property": "C47",
   "status": "partial",
   "theorems": [
    "SeisMIC.c47_best",
    "SeisMIC.c47_coherence",
    "SeisMIC.c47_undefined_violated",
    "SeisMIC.c47_numbers",
    "SeisMIC.c47_single_violated",
    "SeisMIC.c47_nan_row"
   ],
   "note": "The code does not satisfy the full statement. C47 violated: one stretched reference that vanishes in the window makes the result undefined, although the other one matches the data perfectly C47 is violated by a single reference: it is compared with any number of tested values without an error, and the first of them is reported."
  },
  {
   "property": "C48",
   "status": "partial",
   "theorems": [
    "SeisMIC.c48_window_partial",
    "SeisMIC.c48_wrap_violated",
    "SeisMIC.c48_rejected",
    "SeisMIC.c48_creation"
   ],
   "note": "The code does not satisfy the full statement. C48 violated: on the left side a lag just beyond the beginning of the trace is not rejected but uses the sample at its end"
  },
  {
   "property": "C49",
   "status": "proved",
   "theorems": [
    "SeisMIC.c49_differences",
    "SeisMIC.c49_consistent",
    "SeisMIC.c49_centred"
   ],
   "note": "The full statement is proved of the model."
  },
  {
   "property": "C50",
   "status": "partial",
   "theorems": [
    "SeisMIC.c50_coherence_partial",
    "SeisMIC.c50_weight",
    "SeisMIC.c50_mean_partial",
    "SeisMIC.c50_negative_violated",
    "SeisMIC.c50_perfect_violated"
   ],
   "note": "The code does not satisfy the full statement. C50 violated: points with negative coherence do contribute C50 violated: a point at which both curves match perfectly is left out"
  },
  {
   "property": "C51",
   "status": "partial",
   "theorems": [
    "SeisMIC.c51_mean",
    "SeisMIC.c51_shape",
    "SeisMIC.c51_methods",
    "SeisMIC.c51_best_partial",
    "SeisMIC.c51_best_violated",
    "SeisMIC.c51_code_violated",
    "SeisMIC.c51_count",
    "SeisMIC.c51_sizes",
    "SeisMIC.c51_codes"
   ],
   "note": "The code does not satisfy the full statement. C51 violated: with a NaN among negative similarities, the reported value is the stretch of the NaN and not the one of the reported correlation C51 violated: a result of a station whose code contains `av` is taken for an average and not used"
  },
  {
   "property": "C52",
   "status": "partial",
   "theorems": [
    "SeisMIC.c52_equal_partial",
    "SeisMIC.c52_nan_violated",
    "SeisMIC.c52_first_violated",
    "SeisMIC.c52_none_violated"
   ],
   "note": "The code does not satisfy the full statement. C52 violated: a NaN for a single stretch is ignored by one average and counts as zero in the other C52 violated: if the first input is an average itself and is left out, the memory saving variant takes over its codes C52 violated: without usable input one raises and the other returns a result"
  },
  {
   "property": "C53",
   "status": "partial",
   "theorems": [
    "SeisMIC.c53_same_time_partial",
    "SeisMIC.c53_leak_violated",
    "SeisMIC.c53_missing_violated",
    "SeisMIC.c53_constant",
    "SeisMIC.c53_single_violated",
    "SeisMIC.c53_value",
    "SeisMIC.c53_window_partial"
   ],
   "note": "The code does not satisfy the full statement. C53 violated: for every shift to larger stretches, the first similarities of each time but the first come from the end of the row of the previous time. C53 violated: a time without data (value, correlation and similarities NaN) has a value after the correction, even if nothing is shifted C53 violated: if two results have exactly one time in common and no additional overlap is requested, nothing is compared and the correction fails with ValueError."
  },
  {
   "property": "C54",
   "status": "partial",
   "theorems": [
    "SeisMIC.c54_selected_partial",
    "SeisMIC.c54_single",
    "SeisMIC.c54_lists_violated",
    "SeisMIC.c54_mixed_violated",
    "SeisMIC.c54_from_directory"
   ],
   "note": "The code does not satisfy the full statement. C54 violated: if networks and stations are given as lists, the stations are not compared, whatever the stations are C54 violated: a correlation between two requested networks is not selected"
  },
  {
   "property": "C55",
   "status": "partial",
   "theorems": [
    "SeisMIC.c55_terminates_partial",
    "SeisMIC.c55_loop_violated",
    "SeisMIC.c55_prefix_violated",
    "SeisMIC.c55_path_violated",
    "SeisMIC.c55_selected",
    "SeisMIC.c55_groups_partial"
   ],
   "note": "The code does not satisfy the full statement. C55 violated: if the path of the results contains brackets, the loop does not end. C55 violated: a pair of stations whose name begins with the name of another pair is averaged with it C55 violated: if `av` occurs anywhere in the path of the results, nothing is averaged"
  },
  {
   "property": "C56",
   "status": "partial",
   "theorems": [
    "SeisMIC.c56_processing",
    "SeisMIC.c56_no_processing",
    "SeisMIC.c56_all_or_nothing",
    "SeisMIC.c56_bulk_partial",
    "SeisMIC.c56_data_refused",
    "SeisMIC.c56_single_violated",
    "SeisMIC.c56_object_violated",
    "SeisMIC.c56_dv_partial",
    "SeisMIC.c56_average_violated",
    "SeisMIC.c56_processing_violated",
    "SeisMIC.c56_aligned_violated"
   ],
   "note": "The code does not satisfy the full statement. C56 is violated: a list with one time is read as a time, whatever the time is. C56 is violated: a header with an object (None, a dictionary) is saved without an error, but the file cannot be read. C56 is violated: after reading an average with the values of the components, the header has a field that it did not have. C56 is violated: if the length of the window is not set, none of the parameters of the processing is read. C56 is violated: a curve that was not aligned counts as aligned after saving and reading, and is ignored when the curves are aligned."
  },
  {
   "property": "C57",
   "status": "proved",
   "theorems": [
    "SeisMIC.c57_cache"
   ],
   "note": "The full statement is proved of the model."
  },
  {
   "property": "C58",
   "status": "proved",
   "theorems": [
    "SeisMIC.c58_inversion",
    "SeisMIC.c58_stations"
   ],
   "note": "The full statement is proved of the model."
  },
  {
   "property": "C59",
   "status": "partial",
   "theorems": [
    "SeisMIC.c59_mean_partial",
    "SeisMIC.c59_shift",
    "SeisMIC.c59_missing_violated"
   ],
   "note": "The code does not satisfy the full statement. C59 violated: a missing value with a coherence counts as zero, so that a constant curve aligned to 0 is not 0"
  },
  {
   "property": "C60",
   "status": "partial",
   "theorems": [
    "SeisMIC.c60_others",
    "SeisMIC.c60_own_value_partial",
    "SeisMIC.c60_first",
    "SeisMIC.c60_once",
    "SeisMIC.c60_shifted_violated",
    "SeisMIC.c60_window_violated"
   ],
   "note": "The code does not satisfy the full statement. C60 violated: the first curve has a coherence of one; it gets the value that belongs to the second curve, and the second curve is not aligned C60 violated: with different lapse windows the window of the last curve is used for all of them"
  },
  {
   "property": "C61",
   "status": "partial",
   "theorems": [
    "SeisMIC.c61_closest",
    "SeisMIC.c61_closest_array",
    "SeisMIC.c61_rejected_partial",
    "SeisMIC.c61_north_violated",
    "SeisMIC.c61_array_violated",
    "SeisMIC.c61_array_partial",
    "SeisMIC.c61_axis",
    "SeisMIC.c61_grid"
   ],
   "note": "The code does not satisfy the full statement. C61 violated: a point far to the north of the grid is assigned to the last row. C61 violated: in a list, a point outside the grid is accepted if another one is inside."
  },
  {
   "property": "C62",
   "status": "proved",
   "theorems": [
    "SeisMIC.c62_used",
    "SeisMIC.c62_none",
    "SeisMIC.c62_succeeds"
   ],
   "note": "The full statement is proved of the model."
  },
  {
   "property": "C63",
   "status": "partial",
   "theorems": [
    "SeisMIC.c63_terminates",
    "SeisMIC.c63_stored_partial",
    "SeisMIC.c63_fresh",
    "SeisMIC.c63_last_violated",
    "SeisMIC.c63_single_violated",
    "SeisMIC.c63_gap_violated",
    "SeisMIC.c63_samples_partial",
    "SeisMIC.c63_last_partial",
    "SeisMIC.c63_stream_partial",
    "SeisMIC.c63_holes"
   ],
   "note": "The code does not satisfy the full statement. C63 violated: a last sample at midnight is not in the file of its day. C63 violated: a trace with a single sample is not stored. C63 violated: two traces of the same day with a gap between them cannot be stored."
  },
  {
   "property": "C64",
   "status": "partial",
   "theorems": [
    "SeisMIC.c64_names_partial",
    "SeisMIC.c64_times_partial",
    "SeisMIC.c64_unavailable",
    "SeisMIC.c64_empty_violated",
    "SeisMIC.c64_names_violated"
   ],
   "note": "The code does not satisfy the full statement. C64 is violated: if folders of years exist but all of them are empty, an IndexError is raised instead of reporting the station as unavailable (only a FileNotFoundError is expected, and it cannot occur). C64 is violated: another folder whose name has four characters and begins with 2 makes the request fail, although there are files."
  },
  {
   "property": "C65",
   "status": "partial",
   "theorems": [
    "SeisMIC.c65_moved_partial",
    "SeisMIC.c65_built_partial",
    "SeisMIC.c65_year_violated",
    "SeisMIC.c65_order_violated",
    "SeisMIC.c65_month_violated",
    "SeisMIC.c65_unbound_violated"
   ],
   "note": "The code does not satisfy the full statement. C65 is violated: if the last time element is a year, the next file is searched one year earlier, and the previous file one year later. C65 is violated: the last time element decides, not the finest one. With hours in a folder and days in the name of the file, the next file is searched one day later. C65 is violated: with monthly files the search for the neighbouring file fails with a ValueError if the day does not exist in the neighbouring month. C65 is violated: without a time element, and with minutes as the last one, an UnboundLocalError is raised."
  },
  {
   "property": "C66",
   "status": "partial",
   "theorems": [
    "SeisMIC.c66_elements_partial",
    "SeisMIC.c66_replacement_violated",
    "SeisMIC.c66_short",
    "SeisMIC.c66_sds"
   ],
   "note": "The code does not satisfy the full statement. C66 is violated: a replacement in parentheses is never applied. An element of the id with a replacement is passed to `strftime`, with the parentheses, for every id; in the example of the documentation the name contains the century and the text of the replacement instead of the last letter of the channel."
  },
  {
   "property": "C67",
   "status": "partial",
   "theorems": [
    "SeisMIC.c67_wildcards_violated"
   ],
   "note": "The code does not satisfy the full statement. C67 violated: requests with wildcards are never rejected, whatever the codes are."
  },
  {
   "property": "C68",
   "status": "partial",
   "theorems": [
    "SeisMIC.c68_series_partial",
    "SeisMIC.c68_size_partial",
    "SeisMIC.c68_first_violated",
    "SeisMIC.c68_processes_violated",
    "SeisMIC.c68_duplicate_violated",
    "SeisMIC.c68_axis_violated"
   ],
   "note": "The code does not satisfy the full statement. C68 is violated: if all streams of the first process fail, a ValueError is raised, although the other processes have computed spectra. data for which the result is a series with one process, and an error with two C68 is violated: two windows with the same time raise a ValueError. C68 is violated: with different sampling rates the frequency axis depends on the number of processes."
  },
  {
   "property": "C69",
   "status": "partial",
   "theorems": [
    "SeisMIC.c69_local_partial",
    "SeisMIC.c69_nested_violated",
    "SeisMIC.c69_source"
   ],
   "note": "The code does not satisfy the full statement. C69 violated: a short trace within a long one makes the local data look incomplete."
  },
  {
   "property": "C70",
   "status": "proved",
   "theorems": [
    "SeisMIC.c70_discard_short"
   ],
   "note": "obspy's Stream iterates over a copy of its list of traces. Sampling rates are rationals."
  },
  {
   "property": "C71",
   "status": "proved",
   "theorems": [
    "SeisMIC.c71_valid_traces"
   ],
   "note": "A trace whose samples are all NaN but not masked counts as valid, as in the code."
  },
  {
   "property": "C72",
   "status": "proved",
   "theorems": [
    "SeisMIC.c72_moving_average",
    "SeisMIC.c72_rows"
   ],
   "note": "Exact arithmetic; one-dimensional arrays and the rows of matrices (last axis)."
  },
  {
   "property": "C73",
   "status": "partial",
   "theorems": [
    "SeisMIC.c73_interpolate_partial",
    "SeisMIC.c73_between",
    "SeisMIC.c73_all_masked_violated"
   ],
   "note": "Holds for traces with a valid sample; a trace without valid sample that is not longer than the maximum gap raises ValueError (violated)."
  },
  {
   "property": "C74",
   "status": "proved",
   "theorems": [
    "SeisMIC.c74_flatten"
   ],
   "note": "For every finite nesting; strings are leaves."
  },
  {
   "property": "C75",
   "status": "proved",
   "theorems": [
    "SeisMIC.c75_trace",
    "SeisMIC.c75_stream"
   ],
   "note": "The anti-alias filter and Trace.resample are parameters of the model."
  },
  {
   "property": "C76",
   "status": "partial",
   "theorems": [
    "SeisMIC.c76_intervals",
    "SeisMIC.c76_actual",
    "SeisMIC.c76_mask_partial",
    "SeisMIC.c76_cover_violated",
    "SeisMIC.c76_edge_violated",
    "SeisMIC.c76_arguments"
   ],
   "note": "c76_actual characterises exactly which samples are masked. Violated for intervals that cover the whole trace or only touch its first or last sample."
  },
  {
   "property": "C77",
   "status": "partial",
   "theorems": [
    "SeisMIC.c77_whitening_partial",
    "SeisMIC.c77_zero_sample",
    "SeisMIC.c77_zero_violated",
    "SeisMIC.c77_block_violated",
    "SeisMIC.c77_joint_rejects",
    "SeisMIC.c77_joint_partial",
    "SeisMIC.c77_joint_mean_partial"
   ],
   "note": "Holds if no sample of the block is zero. One zero sample disables whitening of all traces of the process (violated); the result depends on the number of processes."
  },
  {
   "property": "C78",
   "status": "partial",
   "theorems": [
    "SeisMIC.c78_threshold",
    "SeisMIC.c78_short",
    "SeisMIC.c78_mute_partial",
    "SeisMIC.c78_even_violated"
   ],
   "note": "Holds for tapers with an odd number of samples; with an even number samples above the threshold can get weight one (violated). Exact real arithmetic: rounding of the moving average is not modelled."
  },
  {
   "property": "C79",
   "status": "partial",
   "theorems": [
    "SeisMIC.c79_stream_masked_partial",
    "SeisMIC.c79_taper_partial",
    "SeisMIC.c79_weights",
    "SeisMIC.c79_integer_violated",
    "SeisMIC.c79_masked_partial",
    "SeisMIC.c79_masked_violated"
   ],
   "note": "Holds without tapering at gaps. Violated with it: leading masked samples are dropped and data move in time. Integer data are set to zero at the ends."
  },
  {
   "property": "C80",
   "status": "proved",
   "theorems": [
    "SeisMIC.c80_available",
    "SeisMIC.c80_rejected",
    "SeisMIC.c80_single"
   ],
   "note": "The archive is a list of channel directories; requests with codes. Lists with one entry are covered by c80_single."
  },
  {
   "property": "C81",
   "status": "partial",
   "theorems": [
    "SeisMIC.c81_only_requested_pairs_violated",
    "SeisMIC.c81_only_requested_pairs_partial"
   ],
   "note": "Violated because a request is used as a prefix pattern (A-B1 also selects A-B10); exact for complete names of maximal length."
  },
  {
   "property": "C82",
   "status": "proved",
   "theorems": [
    "SeisMIC.Xcorr.c82_bounded"
   ],
   "note": "The full statement is proved of the model."
  },
  {
   "property": "C83",
   "status": "proved",
   "theorems": [
    "SeisMIC.c83_combined_header",
    "SeisMIC.c83_geometry",
    "SeisMIC.c83_common_entries"
   ],
   "note": "The full statement is proved of the model."
  },
  {
   "property": "C84",
   "status": "partial",
   "theorems": [
    "SeisMIC.c84_component",
    "SeisMIC.c84_length",
    "SeisMIC.c84_component_violated"
   ],
   "note": "Proved for pairs of one-letter components; strings such as 'ZZ-' are accepted (violated)."
  },
  {
   "property": "C85",
   "status": "partial",
   "theorems": [
    "SeisMIC.Xcorr.c85_autocorrelation_peak_partial",
    "SeisMIC.Xcorr.c85_autocorrelation_peak_violated"
   ],
   "note": "Exact value proved; it is one iff the alternating sum of the samples vanishes, so the property is violated (Nyquist coefficient counted twice)."
  },
  {
   "property": "C86",
   "status": "partial",
   "theorems": [
    "SeisMIC.c86_own_file_partial",
    "SeisMIC.c86_case_violated"
   ],
   "note": "obspy's select ignores case, so stations that differ only in case are mixed (violated)."
  },
  {
   "property": "C87",
   "status": "proved",
   "theorems": [
    "SeisMIC.c87_pruning"
   ],
   "note": "The full statement is proved of the model."
  },
  {
   "property": "C88",
   "status": "proved",
   "theorems": [
    "SeisMIC.c88_std",
    "SeisMIC.c88_constant",
    "SeisMIC.c88_sign_bit"
   ],
   "note": "Real numbers, traces without NaN."
  },
  {
   "property": "C89",
   "status": "partial",
   "theorems": [
    "SeisMIC.c89_combinations",
    "SeisMIC.c89_requested",
    "SeisMIC.c89_requested_violated"
   ],
   "note": "Exact without request list. Violated with one: requests are compared with the alphabetical name only, while traces are selected in both orders and by patterns."
  },
  {
   "property": "C90",
   "status": "partial",
   "theorems": [
    "SeisMIC.c90_kept_partial",
    "SeisMIC.c90_all_kept",
    "SeisMIC.c90_channels_violated"
   ],
   "note": "Holds for requests Net0-Net1.Sta0-Sta1 with codes free of separators and pattern characters; violated for requests with channels."
  },
  {
   "property": "C91",
   "status": "partial",
   "theorems": [
    "SeisMIC.c91_options_partial",
    "SeisMIC.c91_options_violated"
   ],
   "note": "Violated for one network with at least two stations."
  },
  {
   "property": "C92",
   "status": "partial",
   "theorems": [
    "SeisMIC.c92_history_partial",
    "SeisMIC.c92_additions",
    "SeisMIC.c92_times_history",
    "SeisMIC.c92_emptied_violated",
    "SeisMIC.c92_channels",
    "SeisMIC.c92_times_partial",
    "SeisMIC.c92_question_violated"
   ],
   "note": "The code does not satisfy the full statement. C92 is violated after removals: the group of a channel combination whose correlations have all been removed stays and is still listed, with no start times. A read of it gives an empty stream, for a combination that never existed it is a `KeyError`. C92 violated: the documentation allows wildcards, but `?` is one only beside `*`"
  },
  {
   "property": "C93",
   "status": "proved",
   "theorems": [
    "SeisMIC.c93_selection"
   ],
   "note": "The full statement is proved of the model."
  },
  {
   "property": "C94",
   "status": "partial",
   "theorems": [
    "SeisMIC.c94_month_partial",
    "SeisMIC.c94_month_violated",
    "SeisMIC.c94_week_violated",
    "SeisMIC.c94_read_partial",
    "SeisMIC.c94_year_violated"
   ],
   "note": "The code does not satisfy the full statement. C94 (violated, monthly files) A request that begins on a day that the next month does not have, for example on the 31st of January, and whose data do not reach its end in the first file, fails. C94 (violated, weekly files) The files of a request are named by year and week. The request begins in the last week of 2014 and ends on the 8th of January; the files of the weeks of the 30th of December and of the 6th and 13th of January are read, but not the one of week 0 of 2015, to which the 2nd of January belongs. C94 is violated for yearly files: if the data in the file of the year do not reach the end of the request, older and older years are searched; the files of the following years are never read, and a ValueError is raised in the end."
  },
  {
   "property": "C95",
   "status": "partial",
   "theorems": [
    "SeisMIC.c95_shape",
    "SeisMIC.c95_nonneg",
    "SeisMIC.c95_range",
    "SeisMIC.c95_reciprocal_partial",
    "SeisMIC.c95_reciprocal_violated"
   ],
   "note": "The code does not satisfy the full statement. C95 (reciprocity), violated: for a lapse time between two multiples of `dt` the last term belongs to a negative time on one side only. Stations at (0, 0) and (4, 0), lapse time 3 and `dt` 2."
  },
  {
   "property": "C96",
   "status": "partial",
   "theorems": [
    "SeisMIC.c96_uneven",
    "SeisMIC.c96_computed_partial",
    "SeisMIC.c96_lapse_violated"
   ],
   "note": "The code does not satisfy the full statement. C96 (lapse times), violated: if it is farther away, there is no kernel for any pair of stations that is reached by the coda at this time."
  },
  {
   "property": "C97",
   "status": "proved",
   "theorems": [
    "SeisMIC.c97_inversion",
    "SeisMIC.c97_all_models"
   ],
   "note": "The full statement is proved of the model."
  },
  {
   "property": "C98",
   "status": "proved",
   "theorems": [
    "SeisMIC.c98_variance",
    "SeisMIC.c98_rejected"
   ],
   "note": "The full statement is proved of the model."
  },
  {
   "property": "C99",
   "status": "proved",
   "theorems": [
    "SeisMIC.c99_resolution"
   ],
   "note": "The full statement is proved of the model."
  },
  {
   "property": "C100",
   "status": "proved",
   "theorems": [
    "SeisMIC.c100_posterior"
   ],
   "note": "The full statement is proved of the model."
  },
  {
   "property": "C101",
   "status": "partial",
   "theorems": [
    "SeisMIC.c101_round_trip_partial",
    "SeisMIC.c101_exact_partial",
    "SeisMIC.c101_precision_violated",
    "SeisMIC.c101_header_partial"
   ],
   "note": "The code does not satisfy the full statement. C101: a time with a higher resolution is changed."
  },
  {
   "property": "C102",
   "status": "partial",
   "theorems": [
    "SeisMIC.c102_order",
    "SeisMIC.c102_names_partial",
    "SeisMIC.c102_names_violated"
   ],
   "note": "The code does not satisfy the full statement. C102: different times within 0.1 ms have the same name."
  },
  {
   "property": "C103",
   "status": "partial",
   "theorems": [
    "SeisMIC.c103_detrend_partial",
    "SeisMIC.c103_detrend_violated",
    "SeisMIC.c103_moved",
    "SeisMIC.c103_stream"
   ],
   "note": "The code does not satisfy the full statement. C103 is violated for a trace that begins with missing samples: its data are moved to an earlier time, and a trace without any sample is an `IndexError`."
  },
  {
   "property": "C104",
   "status": "proved",
   "theorems": [
    "SeisMIC.c104_filter"
   ],
   "note": "The full statement is proved of the model."
  },
  {
   "property": "C105",
   "status": "partial",
   "theorems": [
    "SeisMIC.c105_gap_handler_partial",
    "SeisMIC.c105_gap_handler_violated"
   ],
   "note": "The code does not satisfy the full statement. C105 is violated for a trace all of whose samples are masked, if the gap is short enough to be interpolated."
  },
  {
   "property": "C106",
   "status": "partial",
   "theorems": [
    "SeisMIC.c106_polarity_partial",
    "SeisMIC.c106_polarity_violated"
   ],
   "note": "The code does not satisfy the full statement. C106 is violated if the dip of an earlier vertical trace is not known: the second trace has positive dip but is not changed."
  },
  {
   "property": "C107",
   "status": "partial",
   "theorems": [
    "SeisMIC.c107_mean",
    "SeisMIC.c107_median",
    "SeisMIC.c107_norm_mean",
    "SeisMIC.c107_norm_mean_scale",
    "SeisMIC.c107_similarity_partial",
    "SeisMIC.c107_hundred_violated",
    "SeisMIC.c107_identical_violated",
    "SeisMIC.c107_unknown",
    "SeisMIC.c107_order"
   ],
   "note": "The code does not satisfy the full statement. C107 (violated): for `percentile` = 100 no trace is averaged, whatever the data is. C107 (violated): with identical traces all of them are equally similar to the mean, none is above the median, and the reference is NaN."
  },
  {
   "property": "C108",
   "status": "partial",
   "theorems": [
    "SeisMIC.c108_windows",
    "SeisMIC.c108_cover",
    "SeisMIC.c108_list",
    "SeisMIC.c108_zero",
    "SeisMIC.c108_negative",
    "SeisMIC.c108_gap_partial",
    "SeisMIC.c108_gap_violated"
   ],
   "note": "The code does not satisfy the full statement. C108 (violated): with `similarity_percentile` one window without traces fails the whole extraction: two traces with ten days between them, one reference per day."
  },
  {
   "property": "C109",
   "status": "partial",
   "theorems": [
    "SeisMIC.c109_interior",
    "SeisMIC.c109_constant",
    "SeisMIC.c109_trend_partial",
    "SeisMIC.c109_trend_violated",
    "SeisMIC.c109_linear",
    "SeisMIC.c109_rejected",
    "SeisMIC.c109_full_violated",
    "SeisMIC.c109_lag_axis",
    "SeisMIC.c109_time_axis",
    "SeisMIC.c109_failed_violated",
    "SeisMIC.c109_shapes"
   ],
   "note": "The code does not satisfy the full statement. C109 (violated): at the ends a linear trend is bent, because the reflected copies are not taken about the first and the last sample. C109 (violated): a window as long as the traces is not rejected, but the result is one sample short and can't be stored. C109 (violated): a call that is rejected has already replaced NaN by zero in the data."
  },
  {
   "property": "C110",
   "status": "partial",
   "theorems": [
    "SeisMIC.c110_best",
    "SeisMIC.c110_accepted",
    "SeisMIC.c110_local",
    "SeisMIC.c110_bounded",
    "SeisMIC.c110_recover",
    "SeisMIC.c110_tested",
    "SeisMIC.c110_rejected",
    "SeisMIC.c110_one_step_violated",
    "SeisMIC.c110_end_violated",
    "SeisMIC.c110_zero_violated",
    "SeisMIC.c110_windows_partial",
    "SeisMIC.c110_windows_accepted",
    "SeisMIC.c110_average",
    "SeisMIC.c110_offgrid_violated",
    "SeisMIC.c110_default_violated",
    "SeisMIC.c110_asymmetric_violated"
   ],
   "note": "The code does not satisfy the full statement. C110 (violated): a single step is accepted as an odd number of steps, but the only shift that is tested is the negative end of the range. Every trace, the reference too, is reported to be shifted by it. C110 (violated): the last sample of a window is not compared, although the window is given as `[start, end]`. C110 (violated): if a window for both sides starts at zero lag, this lag counts twice. C110 (violated): in a window off the sampling grid the lags can be taken one sample too early. The trace is the reference (which does not change under the tested shifts) at all lags in the window, but its correlation with the reference is not one. C110 (violated): on both sides of the default window every lag counts twice, but the two outermost lags once, so that the coefficient is not the one of the samples in the window. C110 (violated): on a time axis that is not symmetric the default window for both sides reaches beyond the samples that are used."
  },
  {
   "property": "C111",
   "status": "partial",
   "theorems": [
    "SeisMIC.c111_shift",
    "SeisMIC.c111_zero",
    "SeisMIC.c111_nan",
    "SeisMIC.c111_single_violated",
    "SeisMIC.c111_atomic_violated",
    "SeisMIC.c111_excess_violated",
    "SeisMIC.c111_gap_violated"
   ],
   "note": "The code does not satisfy the full statement. C111 (violated): the shift of a single trace is stored as a scalar, and the correction with it fails. C111 (violated): with fewer shifts than traces the correction fails after the first traces have been changed. C111 (violated): shifts in excess of the traces are ignored. C111 (violated): with gaps even a correction by zero changes a trace: the sample after a NaN becomes NaN."
  },
  {
   "property": "C112",
   "status": "partial",
   "theorems": [
    "SeisMIC.c112_interleaved",
    "SeisMIC.c112_copy",
    "SeisMIC.c112_slice",
    "SeisMIC.c112_part_partial",
    "SeisMIC.c112_two_parts",
    "SeisMIC.c112_part_violated",
    "SeisMIC.c112_trace_violated",
    "SeisMIC.c112_result_violated",
    "SeisMIC.c112_traces"
   ],
   "note": "The code does not satisfy the full statement. C112 does not hold for parts. A method that writes into its array (normalise, correct the decay, correct shifts or stretches, smooth, taper), called on `bulk[first:first+n]`, changes these rows of the bulk itself; the header of the bulk does not show it. C112 does not hold for traces. An assignment to the elements of trace `i` of `create_corr_stream` changes row `i` of the bulk. C112 does not hold for results. A velocity change measured before further processing of the bulk shows this processing in its own header, because the two have one header: any method but `mirror` adds its entry to the history of the result, and its changes of the lags and of the length to the header of the result."
  },
  {
   "property": "C113",
   "status": "partial",
   "theorems": [
    "SeisMIC.c113_symmetric_partial",
    "SeisMIC.c113_single_violated",
    "SeisMIC.c113_asymmetric_violated",
    "SeisMIC.c113_refused_violated",
    "SeisMIC.c113_clock_shift_partial",
    "SeisMIC.c113_measure_shift"
   ],
   "note": "The code does not satisfy the full statement. C113 does not hold for `single`. For lags from `-e` to `e`, a measurement with `sides='single'` compares lags from 0 to `e`, as it should; but it leaves the bulk with a header that says that its data start at lag 0 and have `e + 1` columns, while they have `2e + 1`. The same measurement once more compares the lags from `-e` to 0 instead. C113 does not hold for other lags. If there are more lags on the negative side, from `a` to `e` with `e < -a`, a measurement with both sides compares the lags from `-e` to `e`, as it should, but leaves the bulk with a header that says that its data have these lags; the same measurement once more compares the lags from `a` to `a + 2e`. C113 does not hold for calls that fail. `find_clock_shift` refuses `sides='left'`, but only after it changed the header of the bulk."
  },
  {
   "property": "C114",
   "status": "partial",
   "theorems": [
    "SeisMIC.c114_history",
    "SeisMIC.c114_copy",
    "SeisMIC.c114_part_violated"
   ],
   "note": "The code does not satisfy the full statement. C114 does not hold for parts. The result of `slice` and `bulk[first:first+n]` have the processed data, but an empty history."
  },
  {
   "property": "C115",
   "status": "partial",
   "theorems": [
    "SeisMIC.c115_aligned_partial",
    "SeisMIC.c115_odd_violated",
    "SeisMIC.c115_no_data_violated",
    "SeisMIC.c115_one_time_violated",
    "SeisMIC.c115_refused"
   ],
   "note": "The code does not satisfy the full statement. C115 does not hold for other displacements. For two references displaced by one tested stretch, the displacements relative to the mean, `-1/2` and `1/2`, are both rounded to zero: the matrices are averaged without any alignment, and the combined correlation is smaller than the one with either reference at every time. C115 does not hold at times without data. If the similarities of a time are NaN with all references, the combined correlation is NaN, but the combined value is the first tested stretch, not NaN. C115 does not hold for a single time: with several references, the call fails."
  },
  {
   "property": "C116",
   "status": "partial",
   "theorems": [
    "SeisMIC.c116_best",
    "SeisMIC.c116_best_single_partial",
    "SeisMIC.c116_found",
    "SeisMIC.c116_single_violated",
    "SeisMIC.c116_single_value_violated",
    "SeisMIC.c116_no_header_violated",
    "SeisMIC.c116_late_violated",
    "SeisMIC.c116_windows_violated",
    "SeisMIC.c116_default_violated"
   ],
   "note": "The code does not satisfy the full statement. C116 (not satisfied: `single` with a two-sided reference). If the reference has lags from `-E` to `E`, as has every reference extracted from a bulk with both sides, it is stretched about its first sample: for stretch `v` the sample at lag `l` of the trace is compared with the reference at lag `(l + E) * exp (-v) - E`. C116 (not satisfied: `single` with a two-sided reference, example). For the reference with the values `l + E` at lags `l` the measured stretch is `-range` for every trace that does not vanish on the window, in particular for a trace that is the reference itself, or the reference stretched about zero lag by any other value. C116 (not satisfied: no header of the reference). A reference with more lags than the traces, from `-E` to `E`, is not trimmed about zero lag but to its first samples: the sample at lag `l` is compared with the stretched reference at lag `l - (E - min a b)`. C116 (not satisfied: late windows). If the window lies so late that the reference compressed most does not reach it, there is no result at all, for no trace, although other tested stretches can be compared. C116 (not satisfied: several windows). With two time windows or more there is no result for `both` and `left`; for `right` and `single` there are as many results as the first window has samples. C116 (not satisfied: no time window). The documentation says that the full time range is used; the outermost lags on both sides are not: the window has the lags from zero to the last but one."
  },
  {
   "property": "C117",
   "status": "partial",
   "theorems": [
    "SeisMIC.c117_restored_partial",
    "SeisMIC.c117_zero",
    "SeisMIC.c117_one_trace_violated",
    "SeisMIC.c117_refused",
    "SeisMIC.c117_undefined",
    "SeisMIC.c117_remeasured_partial"
   ],
   "note": "The code does not satisfy the full statement. C117 (not satisfied: one trace). The values of a measurement on a single trace are a scalar, and it cannot be corrected."
  },
  {
   "property": "C118",
   "status": "partial",
   "theorems": [
    "SeisMIC.c118_result_partial",
    "SeisMIC.c118_found_partial",
    "SeisMIC.c118_unchanged_partial",
    "SeisMIC.c118_none_violated",
    "SeisMIC.c118_refused_partial",
    "SeisMIC.c118_message_violated",
    "SeisMIC.c118_one_trace_violated",
    "SeisMIC.c118_single_violated"
   ],
   "note": "The code does not satisfy the full statement. C118 (not satisfied: whole coda). A length of the window of `None`, which according to the documentation is the rest of the coda, raises a `TypeError`. C118 (not satisfied: refusal without a travel time). Otherwise the error is an `UnboundLocalError`, because the message contains the distance, which was not computed. C118 (not satisfied: one trace). A bulk with one trace has no result: the correction by a single value fails. C118 (not satisfied: `single`). The traces have both sides, lags from `-E` to `E`. With `single` the result is the comparison of negative lags with positive ones: the trace at lag `l - T`, where `T` is the end of the window, with the reference stretched about its first sample, at lag `(l + E) * exp (-v) - E`."
  },
  {
   "property": "C119",
   "status": "proved",
   "theorems": [
    "SeisMIC.c119_value",
    "SeisMIC.c119_bounded",
    "SeisMIC.c119_stable",
    "SeisMIC.c119_names",
    "SeisMIC.c119_short"
   ],
   "note": "The full statement is proved of the model."
  },
  {
   "property": "C120",
   "status": "partial",
   "theorems": [
    "SeisMIC.c120_results_partial",
    "SeisMIC.c120_mem_partial",
    "SeisMIC.c120_options",
    "SeisMIC.c120_refused",
    "SeisMIC.c120_band_violated",
    "SeisMIC.c120_save_violated"
   ],
   "note": "The code does not satisfy the full statement. C120 (not satisfied: an invalid band). An error in one band, here `freq_max <= freq_min`, is raised only when the band is reached: the bands before are computed, all bands after it are lost, although they are valid. C120 (not satisfied: files that cannot be written). With `save_comps` a coherence that was computed is discarded if its file cannot be written, for example because the process with rank zero, which creates the directory, has not done so yet: the error is only logged."
  },
  {
   "property": "C121",
   "status": "partial",
   "theorems": [
    "SeisMIC.c121_average_partial",
    "SeisMIC.c121_order_partial",
    "SeisMIC.c121_refused",
    "SeisMIC.c121_references_violated",
    "SeisMIC.c121_groups_partial",
    "SeisMIC.c121_failure_violated"
   ],
   "note": "The code does not satisfy the full statement. C121 (not satisfied: different references). If the first component has fewer references than another one, the others are left out of the average without a warning: the result only has the references of the first; in the opposite order there is a `KeyError`. C121 (not satisfied: one failure). An exception in the computation for one combination of stations is not caught: nothing is written for any combination."
  },
  {
   "property": "C122",
   "status": "partial",
   "theorems": [
    "SeisMIC.c122_axes",
    "SeisMIC.c122_cells_partial",
    "SeisMIC.c122_centres_violated"
   ],
   "note": "The code does not satisfy the full statement. C122 (not satisfied: equal centres). Different bands can have the same centre frequency, for example 1 to 3 Hz and 0.5 to 3.5 Hz, and windows of different length the same centre: of such coherences only the last one is in the grid, the others disappear without a warning."
  },
  {
   "property": "C123",
   "status": "partial",
   "theorems": [
    "SeisMIC.c123_scipy_constant",
    "SeisMIC.c123_mixed_partial",
    "SeisMIC.c123_linear_partial",
    "SeisMIC.c123_trend_partial",
    "SeisMIC.c123_constant",
    "SeisMIC.c123_unknown",
    "SeisMIC.c123_nan_violated",
    "SeisMIC.c123_method_violated",
    "SeisMIC.c123_scipy_partial",
    "SeisMIC.c123_scipy_gaps",
    "SeisMIC.c123_gap_violated",
    "SeisMIC.c123_argument_violated"
   ],
   "note": "The code does not satisfy the full statement. C123 is violated: with the default arguments a trace with a missing sample is lost completely, whatever its other samples are C123 is violated: the method `scipy` never works. The argument `method` is passed on to a function that does not know it, so that any matrix with a valid sample gives a `TypeError`. C123 is violated: `detrend_scipy` closes gaps before it fits the line, so that it does not remove the trend of a trace with missing samples: of the line 0, 1, 2, 3 with the second sample missing something remains C123 is violated: for linear trends the traces that are given as argument are changed, for constant ones (`c123_constant`) they are not"
  },
  {
   "property": "C124",
   "status": "partial",
   "theorems": [
    "SeisMIC.c124_value_partial",
    "SeisMIC.c124_scale",
    "SeisMIC.c124_sign",
    "SeisMIC.c124_bounded",
    "SeisMIC.c124_refused",
    "SeisMIC.c124_silent_violated",
    "SeisMIC.c124_nan_violated",
    "SeisMIC.c124_long_violated"
   ],
   "note": "The code does not satisfy the full statement. C124 is violated: a silent trace becomes NaN everywhere C124 is violated: a trace with a missing sample is lost C124 is violated: with a window that is longer than the traces there is no result"
  },
  {
   "property": "C125",
   "status": "partial",
   "theorems": [
    "SeisMIC.c125_signs_partial",
    "SeisMIC.c125_again_partial",
    "SeisMIC.c125_single",
    "SeisMIC.c125_odd_violated"
   ],
   "note": "The code does not satisfy the full statement. C125 is violated: the inverse transform has an even number of samples. The three samples 1, 1, 1 are their own signs, but their spectrum is changed: its first coefficient, their sum, becomes 2."
  },
  {
   "property": "C126",
   "status": "partial",
   "theorems": [
    "SeisMIC.c126_weights_partial",
    "SeisMIC.c126_lowpass_violated",
    "SeisMIC.c126_highpass_violated",
    "SeisMIC.c126_outside_violated"
   ],
   "note": "The code does not satisfy the full statement. C126 is violated: a low pass, which has no lower flank (`f1 = f2 = 0`), removes the mean: the first coefficient gets the weight 0 C126 is violated: a high pass, which has no upper flank (`f3 = f4`, the highest frequency), removes the highest frequency C126 is violated: a pass band above all frequencies does not give zero: the function fails"
  },
  {
   "property": "C127",
   "status": "partial",
   "theorems": [
    "SeisMIC.c127_weights_partial",
    "SeisMIC.c127_refused",
    "SeisMIC.c127_two_samples_violated"
   ],
   "note": "The code does not satisfy the full statement. C127 is violated: of two samples only the last one becomes zero"
  },
  {
   "property": "C128",
   "status": "partial",
   "theorems": [
    "SeisMIC.c128_divides_partial",
    "SeisMIC.c128_exact_partial",
    "SeisMIC.c128_scale",
    "SeisMIC.c128_acausal_violated",
    "SeisMIC.c128_late_violated",
    "SeisMIC.c128_between_violated",
    "SeisMIC.c128_silent_violated"
   ],
   "note": "The code does not satisfy the full statement. C128 is violated: correlations that have negative lags only are made to decay more. Here are samples at the lags -3 and -2 with a decay of `e` per sample; afterwards it is `e^2`. (The imaginary part of the analytic signal of two samples is zero.) C128 is violated: if the correlations start after lag zero, the decay is not removed but multiplied with a constant: here the amplitude `exp(-lag)` does not become 1 C128 is violated: if lag zero is between two samples, the call fails C128 is violated: if all correlations are zero, the call fails"
  },
  {
   "property": "C129",
   "status": "partial",
   "theorems": [
    "SeisMIC.c129_zero_phase_partial",
    "SeisMIC.c129_refused",
    "SeisMIC.c129_nan_violated",
    "SeisMIC.c129_reversal_violated"
   ],
   "note": "The code does not satisfy the full statement. C129 is violated: a correlation with a NaN is lost completely C129 is violated: correlations that are the same for positive and negative lags are not the same afterwards, because what leaves a correlation at its end is lost when the filter goes forwards, but not when it goes backwards. This is so for each filter with an impulse response that is longer than one sample."
  },
  {
   "property": "C130",
   "status": "partial",
   "theorems": [
    "SeisMIC.c130_bound_partial",
    "SeisMIC.c130_scale",
    "SeisMIC.c130_sinusoid",
    "SeisMIC.c130_nan_violated"
   ],
   "note": "The code does not satisfy the full statement. C130 is violated: a correlation with a NaN is lost completely"
  },
  {
   "property": "C131",
   "status": "partial",
   "theorems": [
    "SeisMIC.c131_best",
    "SeisMIC.c131_found_partial",
    "SeisMIC.c131_edge_violated",
    "SeisMIC.c131_correction_violated",
    "SeisMIC.c131_refused"
   ],
   "note": "The code does not satisfy the full statement. C131 (violated). On the positive side the reference is delayed as if it began at lag zero, although it has samples at negative lags. Here it has the samples `l + 1` at the lags `l` from -1 to 3, and a trace is exactly this reference delayed by one sample; the tested shifts are -1 and 1, and the result is -1. C131 (violated). The shift that is found is the one by which the trace is later than the reference, but `correct_shift` takes the opposite (see C111): it delays the trace by the same shift again. Here the sampling rate is 1 Hz; otherwise the units differ as well."
  },
  {
   "property": "C132",
   "status": "partial",
   "theorems": [
    "SeisMIC.c132_shift_partial",
    "SeisMIC.c132_varying",
    "SeisMIC.c132_column",
    "SeisMIC.c132_refused",
    "SeisMIC.c132_whole_partial",
    "SeisMIC.c132_fewer_violated",
    "SeisMIC.c132_estimate_violated"
   ],
   "note": "The code does not satisfy the full statement. C132 (violated): with fewer shifts than traces the other traces become zero, without an error C132 (violated): the shifts that `time_shift_estimate` measures (see C131) are not those that `time_shift_apply` removes: it delays a trace that is later than the reference by the same shift again."
  },
  {
   "property": "C133",
   "status": "partial",
   "theorems": [
    "SeisMIC.c133_values",
    "SeisMIC.c133_restored_partial",
    "SeisMIC.c133_sign_violated",
    "SeisMIC.c133_argument_violated",
    "SeisMIC.c133_refused"
   ],
   "note": "The code does not satisfy the full statement. C133 (violated). The documentation says that the negative of the measured stretch has to be applied. It doubles the stretch: a trace that is the reference at `l * exp (-v)` becomes the reference at `l * exp (-2 v)`. C133 (violated). The traces of the caller are tapered: their first and last samples become zero."
  },
  {
   "property": "C134",
   "status": "partial",
   "theorems": [
    "SeisMIC.c134_smoothed",
    "SeisMIC.c134_best_partial",
    "SeisMIC.c134_negative_violated",
    "SeisMIC.c134_empty_violated",
    "SeisMIC.c134_window_violated",
    "SeisMIC.c134_refused"
   ],
   "note": "The code does not satisfy the full statement. C134 (violated). With a NaN among negative similarities the value is the stretch of the NaN. C134 (violated). At a time without similarities in its window the correlation is NaN, but the value is a number, the first stretch. C134 (violated). The window length is documented in samples. For an even one the window has one sample more: with length two, the similarity is the mean of three times."
  },
  {
   "property": "C135",
   "status": "partial",
   "theorems": [
    "SeisMIC.c135_pairs",
    "SeisMIC.c135_selected",
    "SeisMIC.c135_only_partial",
    "SeisMIC.c135_prefix_violated",
    "SeisMIC.c135_existing_violated",
    "SeisMIC.c135_existing_partial",
    "SeisMIC.c135_interrupted_violated",
    "SeisMIC.c135_refused"
   ],
   "note": "The code does not satisfy the full statement. C135 (violated). The combination of the station `S1` with itself is requested, too, and used as a prefix: the traces of `S1` and of the far station `S10` are correlated although no distance is below the limit. C135 (violated). The combinations are named in the order of the list, but existing correlations are looked for under the name in the order of the concatenated codes: those of the stations `A.Z` and `AA.B` are selected, but never recognised as existing. C135 (violated). If the remote service fails, the combinations found so far remain and are used, and the search can not be repeated: the second call is refused."
  },
  {
   "property": "C136",
   "status": "partial",
   "theorems": [
    "SeisMIC.c136_periods",
    "SeisMIC.c136_windows_partial",
    "SeisMIC.c136_increment_violated",
    "SeisMIC.c136_end_violated",
    "SeisMIC.c136_refused"
   ],
   "note": "The code does not satisfy the full statement. C136 (violated). The documentation says that the increment does not influence the result. If it is no multiple of the window length, the end of each period is lost: with windows of length 2 and an increment of 3 instead of 2, the spectra begin at 0 and 3 instead of 0, 2 and 4. C136 (violated). The end is documented as the end of the last window. If the period is no multiple of the increment, more is read: there is a spectrum for a window after the end, for every window length."
  },
  {
   "property": "C137",
   "status": "proved",
   "theorems": [
    "SeisMIC.c137_mean_time",
    "SeisMIC.c137_chain",
    "SeisMIC.c137_predecessor",
    "SeisMIC.c137_finishes",
    "SeisMIC.c137_mean",
    "SeisMIC.c137_failed"
   ],
   "note": "The full statement is proved of the model."
  },
  {
   "property": "C138",
   "status": "partial",
   "theorems": [
    "SeisMIC.c138_covariance",
    "SeisMIC.c138_history",
    "SeisMIC.c138_joint",
    "SeisMIC.c138_attributes",
    "SeisMIC.c138_order_partial",
    "SeisMIC.c138_succeeds",
    "SeisMIC.c138_order_violated",
    "SeisMIC.c138_zero_violated",
    "SeisMIC.c138_stale_violated",
    "SeisMIC.c138_best_fit",
    "SeisMIC.c138_settings"
   ],
   "note": "The code does not satisfy the full statement. C138 (violated). The window and the frequencies are those of the last curve with a value. If this curve does not know its processing, the inversion is refused, although it succeeds with the curves in another order. C138 (violated). A frequency of zero that is given is not used: the call is the same as without it, for all other arguments; without a processing it is refused although all arguments are given. C138 (violated). After an inversion with resolution and one for another time without, the object has the velocity changes of the second and the resolution of the first one; the resolution of the second one is another."
  },
  {
   "property": "C139",
   "status": "proved",
   "theorems": [
    "SeisMIC.c139_least_squares",
    "SeisMIC.c139_neglected",
    "SeisMIC.c139_unique",
    "SeisMIC.c139_method",
    "SeisMIC.c139_order",
    "SeisMIC.c139_exact"
   ],
   "note": "The full statement is proved of the model."
  },
  {
   "property": "C140",
   "status": "partial",
   "theorems": [
    "SeisMIC.c140_round_trip_partial",
    "SeisMIC.c140_name_violated",
    "SeisMIC.c140_time_violated",
    "SeisMIC.c140_refused",
    "SeisMIC.c140_missing",
    "SeisMIC.c140_pattern",
    "SeisMIC.c140_star_violated"
   ],
   "note": "The code does not satisfy the full statement. C140 (violated). A field of the header whose name ends in `_av` is read as an average, and is missing in the header. C140 (violated). For a single correlation the list with its time is read as a time. C140 (violated). A file whose name contains a `*` can't be read, whatever it contains: no number of nested calls is enough."
  },
  {
   "property": "C141",
   "status": "partial",
   "theorems": [
    "SeisMIC.c141_period_partial",
    "SeisMIC.c141_inside",
    "SeisMIC.c141_select",
    "SeisMIC.c141_end_violated",
    "SeisMIC.c141_start_violated",
    "SeisMIC.c141_order_violated",
    "SeisMIC.c141_rates_violated",
    "SeisMIC.c141_year_violated",
    "SeisMIC.c141_sds"
   ],
   "note": "The code does not satisfy the full statement. C141 (violated). A sample exactly at the end of the period is not returned if it is the first one of its file, for example the sample at midnight for a period that ends at midnight. C141 (violated). A sample exactly at the start of the period is not returned if it is the last one of its file. C141 (violated). If the traces of a file are not in order, samples in the middle of the period are not read. C141 (violated). If the sampling rate of a channel changes within a day, the data of this day are left out without an error. If it changes from one day to the next, the request fails. C141 (violated). With yearly files a period that reaches into the next year can't be read: the files of all previous years are searched, and then a ValueError is raised."
  },
  {
   "property": "C142",
   "status": "partial",
   "theorems": [
    "SeisMIC.c142_own_file",
    "SeisMIC.c142_read_name",
    "SeisMIC.c142_kept",
    "SeisMIC.c142_again",
    "SeisMIC.c142_files",
    "SeisMIC.c142_complete_partial",
    "SeisMIC.c142_unaligned_violated",
    "SeisMIC.c142_incomplete_violated",
    "SeisMIC.c142_read_only_violated"
   ],
   "note": "The code does not satisfy the full statement. C142 (violated). If a download does not begin at midnight, the samples before this time of the day are not in the file of their day but in the one of the day before. C142 (violated). A day that was downloaded in part is never completed: after a download that ends within the day, a later download of the whole day adds nothing to the file. C142 (violated). A client that was created with `read_only=True` extends the archive by a mass download all the same."
  },
  {
   "property": "C143",
   "status": "partial",
   "theorems": [
    "SeisMIC.c143_rows",
    "SeisMIC.c143_too_long",
    "SeisMIC.c143_window_partial",
    "SeisMIC.c143_merge_pad",
    "SeisMIC.c143_filter_after_mask",
    "SeisMIC.c143_mask",
    "SeisMIC.c143_masked_violated"
   ],
   "note": "The code does not satisfy the full statement. C143 is violated: masks set by `stream_mask_at_utc` as the last preprocessing step have no effect at all on the matrix, whatever is masked: the samples beneath the masks are correlated."
  },
  {
   "property": "C144",
   "status": "partial",
   "theorems": [
    "SeisMIC.c144_window",
    "SeisMIC.c144_steps_partial",
    "SeisMIC.c144_name_violated",
    "SeisMIC.c144_samples_partial",
    "SeisMIC.c144_response_partial",
    "SeisMIC.c144_twice_violated",
    "SeisMIC.c144_station_violated",
    "SeisMIC.c144_failed"
   ],
   "note": "The code does not satisfy the full statement. C144 is violated: a step of the user is left out because of its name. C144 is violated: if a response is missing for a later channel of the station, the response is removed twice from the channels before it. C144 is violated: with traces of several stations only the response of the first trace's station is requested, so a response that the server has is not used and preprocessing fails."
  },
  {
   "property": "C145",
   "status": "partial",
   "theorems": [
    "SeisMIC.c145_results_partial",
    "SeisMIC.c145_same_partial",
    "SeisMIC.c145_two_files_violated"
   ],
   "note": "The code does not satisfy the full statement. C145 is violated: if the correlations of a channel combination are in two selected files (all components in one file and each in its own file), the results are saved in the same file, and the order of execution decides which one remains."
  },
  {
   "property": "C146",
   "status": "partial",
   "theorems": [
    "SeisMIC.c146_kept_partial",
    "SeisMIC.c146_same_client",
    "SeisMIC.c146_requested_once",
    "SeisMIC.c146_overwritten_violated",
    "SeisMIC.c146_not_requested_violated",
    "SeisMIC.c146_read_only_violated"
   ],
   "note": "The code does not satisfy the full statement. C146 is violated: when data of a second channel of a station are downloaded, the file with the information about the first channel is replaced, and a new client does not know it any more. C146 is violated: then the station counts as known, so the missing channel is not requested with the station either. C146 is violated: a client that is opened for reading only writes inventories as well."
  },
  {
   "property": "C147",
   "status": "partial",
   "theorems": [
    "SeisMIC.c147_matrix",
    "SeisMIC.c147_codes_partial",
    "SeisMIC.c147_rows_kept",
    "SeisMIC.c147_resample_violated",
    "SeisMIC.c147_other_codes_violated",
    "SeisMIC.c147_clip",
    "SeisMIC.c147_normalize",
    "SeisMIC.c147_decay",
    "SeisMIC.c147_envelope",
    "SeisMIC.c147_filter",
    "SeisMIC.c147_smooth",
    "SeisMIC.c147_taper",
    "SeisMIC.c147_taper_center",
    "SeisMIC.c147_shift",
    "SeisMIC.c147_stretch"
   ],
   "note": "The code does not satisfy the full statement. C147 is violated by `resample`: the location codes and the number of traces stay those of the old matrix. With more bins than correlations the bulk cannot be converted to a stream any more. C147 is violated by `resample`: with fewer bins the rows get the codes of other correlations."
  },
  {
   "property": "C148",
   "status": "partial",
   "theorems": [
    "SeisMIC.c148_scattered_partial",
    "SeisMIC.c148_scattered_all",
    "SeisMIC.c148_scattered_le",
    "SeisMIC.c148_energy_partial",
    "SeisMIC.c148_energy_violated",
    "SeisMIC.c148_unit_violated"
   ],
   "note": "The code does not satisfy the full statement. More energy than that of the source is found, e.g. with `v = 1`, `t = 10`, `l = 10` and `atol = 1`. With the same numbers for a medium a thousand times smaller (metres for kilometres), less energy is found."
  },
  {
   "property": "C149",
   "status": "partial",
   "theorems": [
    "SeisMIC.c149_correlator",
    "SeisMIC.c149_monitor",
    "SeisMIC.c149_wfc_partial",
    "SeisMIC.c149_wfc_violated",
    "SeisMIC.c149_completes",
    "SeisMIC.c149_monitor_completes",
    "SeisMIC.c149_wfc_completes",
    "SeisMIC.c149_log_files",
    "SeisMIC.c149_averages_violated"
   ],
   "note": "The code does not satisfy the full statement. C149 is violated by the waveform coherence: the directory for its results is created by process 0 when it computes its own first combination, and nobody waits for that. If process 1 is faster, its results are lost (the exception is caught and the result is not handed on). C149 is violated: all processes write the files with the averages of the waveform coherence, at the same time."
  },
  {
   "property": "C150",
   "status": "partial",
   "theorems": [
    "SeisMIC.c150_recorded",
    "SeisMIC.c150_accepted_partial",
    "SeisMIC.c150_times_violated",
    "SeisMIC.c150_overwritten_violated"
   ],
   "note": "The code does not satisfy the full statement. C150 is violated: times in the options for the velocity changes (as `pop_at_utcs` and `select_time` need them) cannot be recorded. The object for monitoring cannot be created, and an earlier record of the same minute is emptied. C150 is violated: of two runs that start in the same minute, only the options of the second are kept."
  },
  {
   "property": "C151",
   "status": "partial",
   "theorems": [
    "SeisMIC.c151_kinds",
    "SeisMIC.c151_pattern_partial",
    "SeisMIC.c151_single",
    "SeisMIC.c151_missing",
    "SeisMIC.c151_other_damage_violated",
    "SeisMIC.c151_names_violated"
   ],
   "note": "The code does not satisfy the full statement. C151 is violated: an empty or otherwise damaged file among those that match makes all of them unreadable. C151 is violated: a file whose name contains a wildcard is never read, the function calls itself without end."
  },
  {
   "property": "C152",
   "status": "partial",
   "theorems": [
    "SeisMIC.c152_common_partial",
    "SeisMIC.c152_last_violated",
    "SeisMIC.c152_gap",
    "SeisMIC.c152_apart_partial",
    "SeisMIC.c152_alternate_violated",
    "SeisMIC.c152_middle",
    "SeisMIC.c152_median",
    "SeisMIC.c152_method",
    "SeisMIC.c152_rest"
   ],
   "note": "The code does not satisfy the full statement. C152 is violated: without additional overlap the last common time is not compared, so that the result does not depend on the values measured there. C152 is violated: curves whose times alternate are not more than one time apart, but the correction with an overlap of one time is refused."
  },
  {
   "property": "C153",
   "status": "partial",
   "theorems": [
    "SeisMIC.c153_whitening_partial",
    "SeisMIC.c153_silent_violated",
    "SeisMIC.c153_joint_violated"
   ],
   "note": "The code does not satisfy the full statement. C153 is violated: with one process, a trace whose spectrum is zero (a gap) turns off the whitening of the other trace; with two processes the other trace is whitened. The results of the two runs are the correlations of different spectra. C153 is violated for joint whitening: the three components of a station are whitened by one process, but two processes fail."
  },
  {
   "property": "C154",
   "status": "partial",
   "theorems": [
    "SeisMIC.c154_polarity_partial",
    "SeisMIC.c154_gain_partial",
    "SeisMIC.c154_threshold_violated",
    "SeisMIC.c154_joint_violated"
   ],
   "note": "The code does not satisfy the full statement. C154 is violated for a mute with an absolute threshold: a trace above the threshold becomes silent, the same trace with a quarter of the gain does not. C154 is violated for joint whitening: if the gain of the second component is four times as high, the whitened spectrum of the first component has another shape."
  },
  {
   "property": "C155",
   "status": "proved",
   "theorems": [
    "SeisMIC.c155_stretch",
    "SeisMIC.c155_stretch_mean",
    "SeisMIC.c155_coherence",
    "SeisMIC.c155_shift",
    "SeisMIC.c155_shift_mean"
   ],
   "note": "The full statement is proved of the model."
  },
  {
   "property": "C156",
   "status": "partial",
   "theorems": [
    "SeisMIC.c156_stretch",
    "SeisMIC.c156_coherence",
    "SeisMIC.c156_shift",
    "SeisMIC.c156_references_violated"
   ],
   "note": "The code does not satisfy the full statement. C156 is violated with several references: a third time changes what was measured at the times before. The correlation at the first time is one half before and one quarter afterwards."
  },
  {
   "property": "C157",
   "status": "proved",
   "theorems": [
    "SeisMIC.c157_database",
    "SeisMIC.c157_same",
    "SeisMIC.c157_killed",
    "SeisMIC.c157_completes",
    "SeisMIC.c157_run"
   ],
   "note": "The full statement is proved of the model."
  },
  {
   "property": "C158",
   "status": "proved",
   "theorems": [
    "SeisMIC.c158_stretch",
    "SeisMIC.c158_coherence"
   ],
   "note": "The full statement is proved of the model."
  },
  {
   "property": "C159",
   "status": "proved",
   "theorems": [
    "SeisMIC.c159_traces",
    "SeisMIC.c159_processes",
    "SeisMIC.c159_database"
   ],
   "note": "The full statement is proved of the model."
  },
  {
   "property": "C160",
   "status": "proved",
   "theorems": [
    "SeisMIC.c160_lookup",
    "SeisMIC.c160_resume",
    "SeisMIC.c160_again"
   ],
   "note": "The full statement is proved of the model."
  },
  {
   "property": "C161",
   "status": "proved",
   "theorems": [
    "SeisMIC.c161_mirror",
    "SeisMIC.c161_trim",
    "SeisMIC.c161_resample",
    "SeisMIC.c161_axis",
    "SeisMIC.c161_slice",
    "SeisMIC.c161_normalise",
    "SeisMIC.c161_td",
    "SeisMIC.c161_demean",
    "SeisMIC.c161_detrend",
    "SeisMIC.c161_whitening",
    "SeisMIC.c161_select"
   ],
   "note": "The full statement is proved of the model."
  },
  {
   "property": "C162",
   "status": "proved",
   "theorems": [
    "SeisMIC.c162_lags",
    "SeisMIC.c162_values",
    "SeisMIC.c162_smooth",
    "SeisMIC.c162_correct",
    "SeisMIC.c162_calls",
    "SeisMIC.c162_measure",
    "SeisMIC.c162_reference",
    "SeisMIC.c162_td"
   ],
   "note": "The full statement is proved of the model."
  },
  {
   "property": "C163",
   "status": "proved",
   "theorems": [
    "SeisMIC.c163_select",
    "SeisMIC.c163_slide",
    "SeisMIC.c163_stack",
    "SeisMIC.c163_calls",
    "SeisMIC.c163_convert",
    "SeisMIC.c163_times",
    "SeisMIC.c163_shift",
    "SeisMIC.c163_timeofday"
   ],
   "note": "The full statement is proved of the model."
  },
  {
   "property": "C164",
   "status": "partial",
   "theorems": [
    "SeisMIC.c164_alone_partial",
    "SeisMIC.c164_values_partial",
    "SeisMIC.c164_pairs",
    "SeisMIC.c164_run",
    "SeisMIC.c164_silent_violated",
    "SeisMIC.c164_response_violated"
   ],
   "note": "The code does not satisfy the full statement. C164 is violated by whitening: with a station that recorded nothing but zeros in the window, no station is whitened. C164 is violated by the removal of responses: if the response of one channel is not known, the data of all stations that are read by the process are lost for the whole read increment."
  },
  {
   "property": "C165",
   "status": "partial",
   "theorems": [
    "SeisMIC.c165_trace",
    "SeisMIC.c165_matrix_partial",
    "SeisMIC.c165_part",
    "SeisMIC.c165_single_violated",
    "SeisMIC.c165_end_violated"
   ],
   "note": "The code does not satisfy the full statement. C165 Not so: no correlation of an imported matrix can be accessed by its number, whatever the file holds (unless its header has an entry `ntrcs`). C165 Not so: the correlations of an imported matrix end in 1970, whenever they begin."
  },
  {
   "property": "C166",
   "status": "proved",
   "theorems": [
    "SeisMIC.c166_function",
    "SeisMIC.c166_missing"
   ],
   "note": "The full statement is proved of the model."
  },
  {
   "property": "C167",
   "status": "proved",
   "theorems": [
    "SeisMIC.c167_compare"
   ],
   "note": "The full statement is proved of the model."
  },
  {
   "property": "C168",
   "status": "proved",
   "theorems": [
    "SeisMIC.c168_stretch",
    "SeisMIC.c168_stretch_mean",
    "SeisMIC.c168_shift",
    "SeisMIC.c168_shift_mean",
    "SeisMIC.c168_coherence",
    "SeisMIC.c168_run"
   ],
   "note": "The full statement is proved of the model."
  },
  {
   "property": "C169",
   "status": "proved",
   "theorems": [
    "SeisMIC.c169_order"
   ],
   "note": "The full statement is proved of the model."
  },
  {
   "property": "C170",
   "status": "proved",
   "theorems": [
    "SeisMIC.c170_parts",
    "SeisMIC.c170_any_order"
   ],
   "note": "The full statement is proved of the model."
  },
  {
   "property": "C171",
   "status": "proved",
   "theorems": [
    "SeisMIC.c171_reference",
    "SeisMIC.c171_velocity"
   ],
   "note": "The full statement is proved of the model."
  },
  {
   "property": "C172",
   "status": "proved",
   "theorems": [
    "SeisMIC.c172_filled",
    "SeisMIC.c172_no_number"
   ],
   "note": "The full statement is proved of the model."
  },
  {
   "property": "C173",
   "status": "proved",
   "theorems": [
    "SeisMIC.c173_trace",
    "SeisMIC.c173_stream"
   ],
   "note": "The full statement is proved of the model."
  },
  {
   "property": "C174",
   "status": "proved",
   "theorems": [
    "SeisMIC.c174_nearest",
    "SeisMIC.c174_order"
   ],
   "note": "The full statement is proved of the model."
  },
  {
   "property": "C175",
   "status": "proved",
   "theorems": [
    "SeisMIC.c175_publication",
    "SeisMIC.c175_limits",
    "SeisMIC.c175_technical",
    "SeisMIC.c175_technical_limits"
   ],
   "note": "The full statement is proved of the model."
  },
  {
   "property": "C176",
   "status": "partial",
   "theorems": [
    "SeisMIC.c176_pixel",
    "SeisMIC.c176_normalize_partial",
    "SeisMIC.c176_normalize_violated"
   ],
   "note": "The code does not satisfy the full statement. C176 (negation of a part) If all similarities of a time are negative, normalising turns their order around: the smallest similarity is shown as the largest. If one similarity is missing, the figure shows none of this time."
  },
  {
   "property": "C177",
   "status": "partial",
   "theorems": [
    "SeisMIC.c177_others",
    "SeisMIC.c177_extension",
    "SeisMIC.c177_fresh_partial",
    "SeisMIC.c177_default_violated"
   ],
   "note": "The code does not satisfy the full statement. C177 (negation of a part) The default name should give a new file for each figure. But of any number of figures that are saved into an empty directory only the first and the last one remain: the search looks for files `plot_default_0_change.png`, which are never written, so the second and all later figures have the same name."
  },
  {
   "property": "C178",
   "status": "partial",
   "theorems": [
    "SeisMIC.c178_curves_partial",
    "SeisMIC.c178_selected",
    "SeisMIC.c178_plain",
    "SeisMIC.c178_median_partial",
    "SeisMIC.c178_filters_violated",
    "SeisMIC.c178_damaged_violated",
    "SeisMIC.c178_times_violated"
   ],
   "note": "The code does not satisfy the full statement. C178 (negation of a part) A file that matches two filters is drawn twice. C178 (negation of a part) A damaged file should be skipped. Instead the curve of the file before it is drawn a second time, and if the damaged file comes first there is no figure, but an `UnboundLocalError`. C178 (negation of a part) The start times are not compared: the median of curves of different times is drawn at the times of the last file."
  },
  {
   "property": "C179",
   "status": "partial",
   "theorems": [
    "SeisMIC.c179_section_time",
    "SeisMIC.c179_axis_partial",
    "SeisMIC.c179_axis_violated",
    "SeisMIC.c179_time_partial",
    "SeisMIC.c179_lags_violated",
    "SeisMIC.c179_distance_partial",
    "SeisMIC.c179_west_violated",
    "SeisMIC.c179_section",
    "SeisMIC.c179_ragged"
   ],
   "note": "The code does not satisfy the full statement. C179 (negation of a part) If the farthest station is to the west, its lags with the opposite sign are the limits of the axis: the axis goes from right to left, for every set of increasing lags. C179 (negation of a part) The lag times are not compared: for two traces with the same number of samples but different lags there is a figure, and the earlier one is drawn at the lag times of the later one. C179 (negation of a part) For lags that are not symmetric the coloured figure is wrong for stations to the west: with the lags 0, 1 and 2 the data of lag 0 are drawn at lag 2."
  },
  {
   "property": "C180",
   "status": "proved",
   "theorems": [
    "SeisMIC.c180_regular",
    "SeisMIC.c180_pixel"
   ],
   "note": "The full statement is proved of the model."
  },
  {
   "property": "C181",
   "status": "partial",
   "theorems": [
    "SeisMIC.c181_time_gain",
    "SeisMIC.c181_frequency_gain",
    "SeisMIC.c181_unit",
    "SeisMIC.c181_one",
    "SeisMIC.c181_unknown",
    "SeisMIC.c181_frequency_limits",
    "SeisMIC.c181_time_limits_partial",
    "SeisMIC.c181_time_limits_violated"
   ],
   "note": "The code does not satisfy the full statement. C181 (negation of a part) The time that is closest to the upper limit is not shown: with the first and the last time as limits the last spectrum is missing in the figure."
  },
  {
   "property": "C182",
   "status": "partial",
   "theorems": [
    "SeisMIC.c182_history",
    "SeisMIC.c182_kept",
    "SeisMIC.c182_default",
    "SeisMIC.c182_others",
    "SeisMIC.c182_again",
    "SeisMIC.c182_failed_violated"
   ],
   "note": "The code does not satisfy the full statement. C182: a call that fails, here because the traces are of different stations, has deleted the data nevertheless"
  },
  {
   "property": "C183",
   "status": "partial",
   "theorems": [
    "SeisMIC.c183_history",
    "SeisMIC.c183_used",
    "SeisMIC.c183_extract",
    "SeisMIC.c183_new",
    "SeisMIC.c183_stale_violated"
   ],
   "note": "The code does not satisfy the full statement. C183 (part, violated) The documentation of `stretch` says that a reference is extracted if none is given. After `extract_trace` and a processing of the matrix, here `trim`, it is the old reference that is used, even if it does not fit the matrix any more."
  },
  {
   "property": "C184",
   "status": "partial",
   "theorems": [
    "SeisMIC.c184_closed",
    "SeisMIC.c184_crash",
    "SeisMIC.c184_others",
    "SeisMIC.c184_readonly",
    "SeisMIC.c184_refused",
    "SeisMIC.c184_history",
    "SeisMIC.c184_read_back",
    "SeisMIC.c184_emptied_violated",
    "SeisMIC.c184_leak_violated",
    "SeisMIC.c184_silent_violated"
   ],
   "note": "The code does not satisfy the full statement. C184 (violated: emptied by a failing block). Opening a file in mode `w` with an unknown compression raises the error only after the file has been emptied. C184 (violated: left open). A file that is refused because of other options is not closed. C184 (violated: lost without an error). Adding to a file that was opened for reading only is not an error where h5py reports the refusal as `ValueError`: the correlation is reported as already being in the file and is not written."
  },
  {
   "property": "C185",
   "status": "partial",
   "theorems": [
    "SeisMIC.Xcorr.c185_delay_partial",
    "SeisMIC.Xcorr.c185_delay_violated"
   ],
   "note": "The code does not satisfy the full statement. C185 is violated if the padded length is odd: the recording `0, 1` is the recording `1, 0` one sample later, and the value at the lag `-1` is as large as the one at the lag `1`."
  },
  {
   "property": "C186",
   "status": "partial",
   "theorems": [
    "SeisMIC.c186_map",
    "SeisMIC.c186_station_violated",
    "SeisMIC.c186_before"
   ],
   "note": "The code does not satisfy the full statement. C186 (negation of a part) The pixels are smaller than the cells of the grid, so that a station may be marked on the pixel of another cell than its own: on a grid with three points in a distance of one kilometre, the station at 0.6 km belongs to the second grid point, but lies inside the pixel of the first one."
  },
  {
   "property": "C187",
   "status": "partial",
   "theorems": [
    "SeisMIC.c187_line_partial",
    "SeisMIC.c187_visible_violated",
    "SeisMIC.c187_files_partial",
    "SeisMIC.c187_name",
    "SeisMIC.c187_files_violated"
   ],
   "note": "The code does not satisfy the full statement. C187 (negation of a part) The vertical axis always goes from -1 to 1: any sample of a correlation that is not normalised and exceeds one is not visible. C187 (negation of a part) Of two correlations that start in the same second (half a second apart) only one figure remains."
  },
  {
   "property": "C188",
   "status": "proved",
   "theorems": [
    "SeisMIC.Xcorr.c188_first",
    "SeisMIC.Xcorr.c188_second"
   ],
   "note": "The full statement is proved of the model."
  },
  {
   "property": "C189",
   "status": "partial",
   "theorems": [
    "SeisMIC.c189_run_partial",
    "SeisMIC.c189_files_partial",
    "SeisMIC.c189_again_partial",
    "SeisMIC.c189_methods_partial",
    "SeisMIC.c189_stale_violated"
   ],
   "note": "The code does not satisfy the full statement. C189 violated: results that are computed after the average never enter it. The average of two components remains although there are three results, which a run without the old average would combine."
  },
  {
   "property": "C190",
   "status": "partial",
   "theorems": [
    "SeisMIC.c190_nothing_lost",
    "SeisMIC.c190_same_answers",
    "SeisMIC.c190_stack_all",
    "SeisMIC.c190_after_plots",
    "SeisMIC.c190_distinct_starts",
    "SeisMIC.c190_rows_violated",
    "SeisMIC.c190_windows"
   ],
   "note": "The code does not satisfy the full statement. C190 is violated by the order of the rows of a matrix: the same call makes another matrix of the stream if a selection has been made before."
  },
  {
   "property": "C191",
   "status": "partial",
   "theorems": [
    "SeisMIC.c191_lines",
    "SeisMIC.c191_short",
    "SeisMIC.c191_columns",
    "SeisMIC.c191_tells",
    "SeisMIC.c191_init",
    "SeisMIC.c191_rate_violated"
   ],
   "note": "The code does not satisfy the full statement. C191 (negation of a part) The sampling rate is shown with one decimal only: two correlations with different rates can have the same line."
  },
  {
   "property": "C192",
   "status": "proved",
   "theorems": [
    "SeisMIC.c192_same_process",
    "SeisMIC.c192_same_items",
    "SeisMIC.c192_distribution"
   ],
   "note": "The full statement is proved of the model."
  },
  {
   "property": "C193",
   "status": "partial",
   "theorems": [
    "SeisMIC.c193_offset_partial",
    "SeisMIC.c193_saved",
    "SeisMIC.c193_error",
    "SeisMIC.c193_nearest",
    "SeisMIC.c193_exact_partial",
    "SeisMIC.c193_whole_partial",
    "SeisMIC.c193_exact_violated",
    "SeisMIC.c193_saved_violated"
   ],
   "note": "The code does not satisfy the full statement. C193 (negation of a part) The start lags are kept in single precision. Of correlations with 25 Hz of which 12.4 s are saved on each side, the header starts at -12.399999618... instead of -12.4, it is not symmetric, and no sample has the lag zero. C193 (negation of a part) Of correlations with 100 Hz, 8 samples are saved on each side for a `lengthToSave` of 0.07 s, although 7 cover it."
  },
  {
   "property": "C194",
   "status": "partial",
   "theorems": [
    "SeisMIC.c194_index",
    "SeisMIC.c194_trim_partial",
    "SeisMIC.c194_trim_whole_partial",
    "SeisMIC.c194_trim_violated",
    "SeisMIC.c194_mirror_partial",
    "SeisMIC.c194_mirror_violated",
    "SeisMIC.c194_taper_partial",
    "SeisMIC.c194_taper_length",
    "SeisMIC.c194_taper_violated"
   ],
   "note": "The code does not satisfy the full statement. C194 (negation of a part) Correlations with 25 Hz of which 12.4 s were saved on each side are trimmed to lags from -10.4 s to 10.4 s: samples 49 to 569 are kept instead of 50 to 570. The sample at zero lag, number 310, is then at place 261, where the new header has the lag 0.04 s. C194 (negation of a part) The same correlations with 25 Hz and 12.4 s cannot be mirrored: the function returns the number 0 because `start_lag*sampling_rate` is not whole. C194 (negation of a part) On the same correlations a taper of 2 s begins at sample 284 instead of 285, so it is not centred at sample 310."
  },
  {
   "property": "C195",
   "status": "partial",
   "theorems": [
    "SeisMIC.c195_multiple",
    "SeisMIC.c195_only",
    "SeisMIC.c195_whole_partial",
    "SeisMIC.c195_decimal_violated",
    "SeisMIC.c195_interval",
    "SeisMIC.c195_interval_violated"
   ],
   "note": "The code does not satisfy the full statement. C195 (negation of a part) Rates that are decimal fractions: 1 Hz is five times 0.2 Hz and ten times 0.1 Hz, 10 Hz is a hundred times 0.1 Hz, but the quotients rounded down are 4, 9 and 99. These matrices are resampled instead of decimated. C195 (negation of a part) It is not always the same: 49 Hz becomes 49.000...007 Hz."
  },
  {
   "property": "C196",
   "status": "partial",
   "theorems": [
    "SeisMIC.c196_dyadic",
    "SeisMIC.c196_whole",
    "SeisMIC.c196_error",
    "SeisMIC.c196_decimal_violated"
   ],
   "note": "The code does not satisfy the full statement. C196 (negation of a part) With a step of 0.1 s that begins in the year 2020 the windows come 95 nanoseconds too early per window: window 1000 begins more than 95 microseconds before its time."
  },
  {
   "property": "C197",
   "status": "partial",
   "theorems": [
    "SeisMIC.c197_lengths_partial",
    "SeisMIC.c197_duration_partial",
    "SeisMIC.c197_lost_violated",
    "SeisMIC.c197_close",
    "SeisMIC.c197_whole_partial",
    "SeisMIC.c197_decimal_violated",
    "SeisMIC.c197_resampled_partial",
    "SeisMIC.c197_resampled_violated",
    "SeisMIC.c197_search"
   ],
   "note": "The code does not satisfy the full statement. C197 (violated: a sample is lost) From 20 Hz to 15 Hz, 164 samples (8.2 s) are 123 new samples, but 122 are kept: the last one of the time axis is lost. C197 (negation of a part) At 100 Hz a window of 0.07 s has 8 samples for the measurement and for smoothing, a taper of 0.29 s has 28 and a window for shifts from 0.07 s to 0.29 s begins and ends one sample off. C197 (negation of a part) 205 samples with 25 Hz are resampled to 122 samples with 15 Hz instead of 123."
  },
  {
   "property": "C198",
   "status": "proved",
   "theorems": [
    "SeisMIC.c198_single",
    "SeisMIC.c198_all"
   ],
   "note": "The full statement is proved of the model."
  },
  {
   "property": "C199",
   "status": "proved",
   "theorems": [
    "SeisMIC.c199_order",
    "SeisMIC.c199_chronological"
   ],
   "note": "The full statement is proved of the model."
  },
  {
   "property": "C200",
   "status": "partial",
   "theorems": [
    "SeisMIC.c200_close",
    "SeisMIC.c200_ends",
    "SeisMIC.c200_increasing",
    "SeisMIC.c200_zero_partial",
    "SeisMIC.c200_zero_violated"
   ],
   "note": "The code does not satisfy the full statement. C200 (negation of a part) With a range of 0.05 and 601 steps the value in the middle is not zero but about 7e-18."
  },
  {
   "property": "C201",
   "status": "partial",
   "theorems": [
    "SeisMIC.c201_taper",
    "SeisMIC.c201_roll",
    "SeisMIC.c201_windows_partial",
    "SeisMIC.c201_windows_violated",
    "SeisMIC.c201_mask"
   ],
   "note": "The code does not satisfy the full statement. C201 (negation of a part) 2.1 s hold three increments of 0.7 s, but the processes without data pass four windows."
  },
  {
   "property": "C202",
   "status": "partial",
   "theorems": [
    "SeisMIC.c202_plain",
    "SeisMIC.c202_subdiv_partial",
    "SeisMIC.c202_complete_partial",
    "SeisMIC.c202_gap_violated"
   ],
   "note": "The code does not satisfy the full statement. C202 is violated: the second of two stations has a gap and the windows are preprocessed one by one. With two processes, what is stored as the correlation of the stations AAA and BBB is the correlation of AAA with itself, whatever the processing; one process computes the right one."
  },
  {
   "property": "C203",
   "status": "partial",
   "theorems": [
    "SeisMIC.c203_windows_partial",
    "SeisMIC.c203_samples_partial",
    "SeisMIC.c203_processes_partial",
    "SeisMIC.c203_correlations_partial",
    "SeisMIC.c203_preprocessed",
    "SeisMIC.c203_late_violated",
    "SeisMIC.c203_first_violated",
    "SeisMIC.c203_gap_violated"
   ],
   "note": "The code does not satisfy the full statement. C203 is violated for windows that are preprocessed one by one (nothing is cut or padded before). The windows of a process begin with its own data: if they begin 5 samples late, so do all its windows, and of the window with the samples 10 to 19 only half is left when it is cut to its time. If they begin more than a window late, the process has a window less, and the others wait for it forever. C203 is violated for windows that are preprocessed one by one: the trace that is first in the list is not the earliest one. The windows begin with the earliest trace but are cut as if they began with the first one, so that of 10 samples in each window 5 are lost. C203 is violated for windows that are preprocessed one by one: after a gap longer than a window all data are lost."
  },
  {
   "property": "C204",
   "status": "partial",
   "theorems": [
    "SeisMIC.c204_assign",
    "SeisMIC.c204_once",
    "SeisMIC.c204_kept",
    "SeisMIC.c204_history",
    "SeisMIC.c204_end",
    "SeisMIC.c204_bulk_partial",
    "SeisMIC.c204_set_violated"
   ],
   "note": "The code does not satisfy the full statement. C204 is violated: a correlation whose rate was set to 49 Hz (by an assignment to its header, or by the resampling of obspy) is not equal to itself: a matrix of this single correlation is refused because of different sampling rates. The same correlation is accepted after it was copied."
  },
  {
   "property": "C205",
   "status": "partial",
   "theorems": [
    "SeisMIC.c205_rate_partial",
    "SeisMIC.c205_mixed_violated",
    "SeisMIC.c205_low_violated",
    "SeisMIC.c205_processes_violated"
   ],
   "note": "The code does not satisfy the full statement. C205 is violated: one process has traces with 100 Hz and with 20 Hz, and 50 Hz are requested. The second trace keeps its rate, and is correlated with the first one. The header of this correlation has the default rate of 1 Hz: the lags of its samples, with 2 s requested on both sides, go from -2 s to 198 s. C205 is violated: the same with two stations with 20 Hz. Their correlation has 20 Hz in its header, but its first lag was computed with 50 Hz: the sample at zero lag, number 100, is said to be at 3 s. C205 is violated: whether a trace with a lower rate is used depends on the number of processes. If the process that reads it has no other traces, it skips the read period (and the gathers that the other process waits for)."
  },
  {
   "property": "C206",
   "status": "partial",
   "theorems": [
    "SeisMIC.c206_once",
    "SeisMIC.c206_history_partial",
    "SeisMIC.c206_inventory_partial",
    "SeisMIC.c206_coordinates_violated",
    "SeisMIC.c206_rate_violated",
    "SeisMIC.c206_rate_partial"
   ],
   "note": "The code does not satisfy the full statement. C206 is violated (coordinates). Two recordings of SAC files, without an inventory. Their cross-correlation has the coordinates of both stations if it is made first. After the auto-correlation of the first recording it has no distance and only the coordinates of the first station. C206 is violated (sampling rate). The recordings were resampled to 25 samples per second. Their cross-correlation has this rate. If it is made once more, the rate in its header is that of the files, 100, since the first time has changed the headers of the recordings."
  },
  {
   "property": "C207",
   "status": "partial",
   "theorems": [
    "SeisMIC.c207_whole_partial",
    "SeisMIC.c207_close",
    "SeisMIC.c207_between_samples_violated"
   ],
   "note": "The code does not satisfy the full statement. C207 is violated: a window from 0.5 s to 2.5 s at 25 Hz, that is from 12.5 to 62.5 samples. Used are the lags from 11 to 60 samples and from -63 to -14 samples, instead of 13 to 62 samples on both sides: samples before the window enter, samples of the window do not, and the two sides differ by three samples."
  },
  {
   "property": "C208",
   "status": "partial",
   "theorems": [
    "SeisMIC.c208_powers_partial",
    "SeisMIC.c208_quiet_partial",
    "SeisMIC.c208_one_violated",
    "SeisMIC.c208_ends_violated",
    "SeisMIC.c208_rounding_violated",
    "SeisMIC.c208_rounding_exact_partial"
   ],
   "note": "The code does not satisfy the full statement. C208 is violated by a taper of one sample: it consists of a zero, so every trace of two samples or more becomes zero everywhere, whatever its amplitudes and the threshold. C208 is violated at the ends of a trace: a constant trace that never exceeds the threshold is not returned as it is. Here four ones with a taper of two samples come back as `0, 1, 1, 1`. C208 is violated by the rounding of the moving average when muted segments are to be extended: with a taper of ten samples (1 s at 10 Hz) the rounded mean of ten ones is below one, so every sample counts as part of a muted segment and every trace longer than the taper becomes zero everywhere, whatever its amplitudes and the threshold."
  },
  {
   "property": "C209",
   "status": "partial",
   "theorems": [
    "SeisMIC.Xcorr.c209_stretch",
    "SeisMIC.Xcorr.c209_clock_shift",
    "SeisMIC.Xcorr.c209_measure_partial",
    "SeisMIC.Xcorr.c209_wider_violated"
   ],
   "note": "The code does not satisfy the full statement. C209 is violated by wider ranges of stretches: if the reference compressed most does not reach the window, the result that the narrower range gives is lost for every trace, although all stretches of the narrower range are tested, too. Here a trace is compared with itself on one lag: with the stretches from `-r` to `r` its correlation is one, with those from `-3 r` to `3 r` there is none."
  },
  {
   "property": "C210",
   "status": "partial",
   "theorems": [
    "SeisMIC.c210_length_partial",
    "SeisMIC.c210_mean_partial",
    "SeisMIC.c210_norm_violated",
    "SeisMIC.c210_gap_violated",
    "SeisMIC.c210_sizes_violated",
    "SeisMIC.c210_prior_violated"
   ],
   "note": "The code does not satisfy the full statement. C210 is violated by `CorrStream.stack`, which normalises each stack: stacks of windows of 20 that are stacked again differ from the stack of all correlations, even in the proportions of the samples. C210 is violated by gaps: a stack counts with the time from its first to its last correlation, so a stack of few correlations with a long gap gets a large weight. C210 is violated by means of groups of different sizes. C210 (normalisation before stacking) is violated: `norm` is documented to normalise the correlations before they are stacked, so that all of them count alike. The stack is normalised instead: a correlation a hundred times as large as another one outweighs it."
  },
  {
   "property": "C211",
   "status": "partial",
   "theorems": [
    "SeisMIC.c211_time_partial",
    "SeisMIC.c211_parts_partial",
    "SeisMIC.c211_parts_violated",
    "SeisMIC.c211_disjoint_violated",
    "SeisMIC.c211_drop",
    "SeisMIC.c211_daytime",
    "SeisMIC.c211_cut_partial",
    "SeisMIC.c211_cut_violated"
   ],
   "note": "The code does not satisfy the full statement. C211 is violated without `include_partially_selected`: a correlation over the time at which the period is divided is in none of the parts. C211 is violated for periods that share no time: there is nothing that is in both, but a period that ends before it begins (or has no length) still selects the correlations that end exactly at its end. C211 is violated for a first lag between two samples: of samples at the lags -2 to 2, cut to `[-1/2, 2]` and then to `[0, 2]`, the sample of lag -1 is kept and said to be at lag 0."
  },
  {
   "property": "C212",
   "status": "partial",
   "theorems": [
    "SeisMIC.c212_windows_partial",
    "SeisMIC.c212_fraction_violated",
    "SeisMIC.c212_nanoseconds_violated"
   ],
   "note": "The code does not satisfy the full statement. C212 is violated for steps with fractions of a second: ten correlations of 0.1 s each are to be put into ten windows of 0.1 s. The windows begin earlier and earlier, so that number 4 is in two windows, each later window holds the correlation before its own, and the last correlation is lost. C212 is violated for times between two microseconds: a correlation of an hour that begins 5501 ns after a full second is in no window of an hour, so that its stack is empty."
  },
  {
   "property": "C213",
   "status": "partial",
   "theorems": [
    "SeisMIC.c213_axis_partial",
    "SeisMIC.c213_kernels_partial",
    "SeisMIC.c213_resolution_violated",
    "SeisMIC.c213_extent_violated",
    "SeisMIC.c213_interval_violated"
   ],
   "note": "The code does not satisfy the full statement. C213 (violated: resolution) A grid with a resolution of 0.1 km and an extent of 0.3 km or more cannot be used: each kernel, for whichever stations, lapse time and velocity, is refused, because the differences of the values on the axis are not exactly the same. C213 (violated: extent) A grid with a resolution of 0.1 km and an extent of 0.2 km has a column too many, beyond its end. C213 (violated: interval of integration) With an interval of 0.01 s there is no kernel for a lapse time of 16 s, although this is a multiple of the interval: rounding adds a time after the lapse time. For 15 s there is one."
  },
  {
   "property": "C214",
   "status": "partial",
   "theorems": [
    "SeisMIC.c214_spectrum_partial",
    "SeisMIC.c214_series",
    "SeisMIC.c214_channel_violated"
   ],
   "note": "The code does not satisfy the full statement. C214 (violated: channels) Of several channels of the station only one is used, and which one depends on the gaps: without gaps the first one, but a second one with a gap takes its place."
  },
  {
   "property": "C215",
   "status": "proved",
   "theorems": [
    "SeisMIC.c215_shift",
    "SeisMIC.c215_stretch",
    "SeisMIC.c215_correct",
    "SeisMIC.c215_processing"
   ],
   "note": "The full statement is proved of the model."
  },
  {
   "property": "C216",
   "status": "partial",
   "theorems": [
    "SeisMIC.c216_moved",
    "SeisMIC.c216_axes",
    "SeisMIC.c216_time",
    "SeisMIC.c216_length_partial",
    "SeisMIC.c216_length_violated"
   ],
   "note": "The shape of a kernel depends on the unit of length (c216_length_violated): the coherent term has the dimension 1/length, the scattered term 1/area."
  },
  {
   "property": "C217",
   "status": "proved",
   "theorems": [
    "SeisMIC.c217_superposition",
    "SeisMIC.c217_units"
   ],
   "note": "The full statement is proved of the model."
  },
  {
   "property": "C218",
   "status": "partial",
   "theorems": [
    "SeisMIC.c218_order_partial",
    "SeisMIC.c218_mem_save_partial",
    "SeisMIC.c218_order_violated",
    "SeisMIC.c218_coords_partial",
    "SeisMIC.c218_copies"
   ],
   "note": "Proved for inputs on one grid of times and stretches (memory saving variant: if no input is an average itself). Violated otherwise: only results on the grid of the first input are used, so the order decides which measurements contribute."
  },
  {
   "property": "C219",
   "status": "proved",
   "theorems": [
    "SeisMIC.c219_linear",
    "SeisMIC.c219_constant",
    "SeisMIC.c219_velocity"
   ],
   "note": "The full statement is proved of the model."
  },
  {
   "property": "C220",
   "status": "partial",
   "theorems": [
    "SeisMIC.c220_stretch_partial",
    "SeisMIC.c220_shift",
    "SeisMIC.c220_even_violated",
    "SeisMIC.c220_one_violated"
   ],
   "note": "Proved for odd numbers of tested stretches from three and references that do not vanish on the window for any tested stretch. Violated for even numbers (100 is the default of time_stretch_estimate): zero is not tested, so it is never reported; and for a single step."
  },
  {
   "property": "C221",
   "status": "partial",
   "theorems": [
    "SeisMIC.c221_stretch",
    "SeisMIC.c221_trim_partial",
    "SeisMIC.c221_reference_violated"
   ],
   "note": "Proved for a given reference. Not satisfied if the reference is trimmed too: compressed references have nothing to compare with beyond the trimmed lags and the result is nan."
  },
  {
   "property": "C222",
   "status": "partial",
   "theorems": [
    "SeisMIC.c222_domains_partial",
    "SeisMIC.c222_odd_violated"
   ],
   "note": "Proved for traces whose length is even after padding. Not satisfied for odd lengths, since the inverse transform always returns an even number of samples."
  },
  {
   "property": "C223",
   "status": "proved",
   "theorems": [
    "SeisMIC.Xcorr.c223_exchange",
    "SeisMIC.Xcorr.c223_mirror"
   ],
   "note": "The full statement is proved of the model."
  },
  {
   "property": "C224",
   "status": "proved",
   "theorems": [
    "SeisMIC.c224_response"
   ],
   "note": "The full statement is proved of the model."
  },
  {
   "property": "C225",
   "status": "proved",
   "theorems": [
    "SeisMIC.Xcorr.c225_symmetric",
    "SeisMIC.Xcorr.c225_largest"
   ],
   "note": "The full statement is proved of the model."
  },
  {
   "property": "C226",
   "status": "partial",
   "theorems": [
    "SeisMIC.c226_resample",
    "SeisMIC.c226_mirror",
    "SeisMIC.c226_smooth_partial",
    "SeisMIC.c226_smooth_violated"
   ],
   "note": "Holds for averages in bins and for mirroring. Violated for smoothing near the ends of a trace, where the excess is at most the width of the range."
  },
  {
   "property": "C227",
   "status": "partial",
   "theorems": [
    "SeisMIC.c227_stored",
    "SeisMIC.c227_kept_partial",
    "SeisMIC.c227_gap_violated",
    "SeisMIC.c227_threshold_violated"
   ],
   "note": "The code does not satisfy the full statement. C227 (violated). Smoothing gives a time in a gap a correlation, but the time is not listed as available: shifts between curves do not use it until the object is saved and read again. C227 (violated). A threshold can remove all similarities of a time. The time is still listed as available, although it has no correlation."
  },
  {
   "property": "C228",
   "status": "partial",
   "theorems": [
    "SeisMIC.c228_rows_partial",
    "SeisMIC.c228_none",
    "SeisMIC.c228_refused",
    "SeisMIC.c228_single_violated"
   ],
   "note": "The code does not satisfy the full statement. C228 (violated). A correlation of a single sample is not refused but repeated over its whole row."
  },
  {
   "property": "C229",
   "status": "partial",
   "theorems": [
    "SeisMIC.c229_weights_partial",
    "SeisMIC.c229_each_partial",
    "SeisMIC.c229_refused",
    "SeisMIC.c229_zero",
    "SeisMIC.c229_two_samples_violated"
   ],
   "note": "The code does not satisfy the full statement. C229 (violated). Of two samples only the second one is tapered."
  },
  {
   "property": "C230",
   "status": "partial",
   "theorems": [
    "SeisMIC.c230_span_partial",
    "SeisMIC.c230_time_shift_violated",
    "SeisMIC.c230_empty_violated"
   ],
   "note": "The code does not satisfy the full statement. C230 (violated). For time shifts the processing is not shown: different processing, same summary. C230 (violated). A velocity change without times cannot be printed."
  }
 ]
}