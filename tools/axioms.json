{
"SeisMIC.Xcorr.c10_exchange_reverses": [
"Classical.choice",
"Quot.sound",
"propext"
],
"SeisMIC.Xcorr.c11_samples": [
"Classical.choice",
"Quot.sound",
"propext"
],
"SeisMIC.Xcorr.c11_window": [
"Classical.choice",
"Quot.sound",
"propext"
],
"SeisMIC.Xcorr.c11_zero_length_violated": [
"Classical.choice",
"Quot.sound",
"propext"
],
"SeisMIC.Xcorr.c12_between_samples_partial": [
"Classical.choice",
"Quot.sound",
"propext"
],
"SeisMIC.Xcorr.c12_fraction_violated": [
"Classical.choice",
"Quot.sound",
"propext"
],
"SeisMIC.Xcorr.c12_lag_and_no_wrap_partial": [
"Classical.choice",
"Quot.sound",
"propext"
],
"SeisMIC.Xcorr.c12_odd_length_violated": [
"Classical.choice",
"Quot.sound",
"propext"
],
"SeisMIC.Xcorr.c185_delay_partial": [
"Classical.choice",
"Quot.sound",
"propext"
],
"SeisMIC.Xcorr.c185_delay_violated": [
"Classical.choice",
"Quot.sound",
"propext"
],
"SeisMIC.Xcorr.c188_first": [
"Classical.choice",
"Quot.sound",
"propext"
],
"SeisMIC.Xcorr.c188_second": [
"Classical.choice",
"Quot.sound",
"propext"
],
"SeisMIC.Xcorr.c209_clock_shift": [
"Classical.choice",
"Quot.sound",
"propext"
],
"SeisMIC.Xcorr.c209_measure_partial": [
"Classical.choice",
"Quot.sound",
"propext"
],
"SeisMIC.Xcorr.c209_stretch": [
"Classical.choice",
"Quot.sound",
"propext"
],
"SeisMIC.Xcorr.c209_wider_violated": [
"Classical.choice",
"Quot.sound",
"propext"
],
"SeisMIC.Xcorr.c223_exchange": [
"Classical.choice",
"Quot.sound",
"propext"
],
"SeisMIC.Xcorr.c223_mirror": [
"Classical.choice",
"Quot.sound",
"propext"
],
"SeisMIC.Xcorr.c225_largest": [
"Classical.choice",
"Quot.sound",
"propext"
],
"SeisMIC.Xcorr.c225_symmetric": [
"Classical.choice",
"Quot.sound",
"propext"
],
"SeisMIC.Xcorr.c82_bounded": [
"Classical.choice",
"Quot.sound",
"propext"
],
"SeisMIC.Xcorr.c85_autocorrelation_peak_partial": [
"Classical.choice",
"Quot.sound",
"propext"
],
"SeisMIC.Xcorr.c85_autocorrelation_peak_violated": [
"Classical.choice",
"Quot.sound",
"propext"
],
"SeisMIC.c01_exactly_one_process": [
"Classical.choice",
"Quot.sound",
"propext"
],
"SeisMIC.c01_items_partition": [
"Classical.choice",
"Quot.sound",
"propext"
],
"SeisMIC.c01_windows_exactly_one_process": [
"Classical.choice",
"Quot.sound",
"propext"
],
"SeisMIC.c02_parallel_eq_serial": [
"Classical.choice",
"Quot.sound",
"propext"
],
"SeisMIC.c03_balanced": [
"Classical.choice",
"Quot.sound",
"propext"
],
"SeisMIC.c03_contiguous": [
"Classical.choice",
"Quot.sound",
"propext"
],
"SeisMIC.c04_empty_channel": [
"Classical.choice",
"Quot.sound",
"propext"
],
"SeisMIC.c04_exact": [
"Classical.choice",
"Quot.sound",
"propext"
],
"SeisMIC.c05_method_names": [
"Classical.choice",
"Quot.sound",
"propext"
],
"SeisMIC.c06_named_pair_selected": [
"Classical.choice",
"Quot.sound",
"propext"
],
"SeisMIC.c06_symmetric": [
"Quot.sound",
"propext"
],
"SeisMIC.c07_lookup_fails_violated": [
"propext"
],
"SeisMIC.c07_never_skips_missing": [
"Classical.choice",
"Quot.sound",
"propext"
],
"SeisMIC.c07_recognised_equal_length": [
"Classical.choice",
"Quot.sound",
"propext"
],
"SeisMIC.c07_recognised_partial": [
"Classical.choice",
"Quot.sound",
"propext"
],
"SeisMIC.c07_recognised_violated": [
"propext"
],
"SeisMIC.c08_codes_together": [
"Classical.choice",
"Quot.sound",
"propext"
],
"SeisMIC.c08_idempotent": [
"Classical.choice",
"Quot.sound",
"propext"
],
"SeisMIC.c08_order_independent_equal_length": [
"Classical.choice",
"Quot.sound",
"propext"
],
"SeisMIC.c08_order_independent_partial": [
"Classical.choice",
"Quot.sound",
"propext"
],
"SeisMIC.c08_order_independent_violated": [],
"SeisMIC.c09_either_order": [
"Classical.choice",
"Quot.sound",
"propext"
],
"SeisMIC.c09_found_equal_length": [
"Classical.choice",
"Quot.sound",
"propext"
],
"SeisMIC.c09_found_partial": [
"Classical.choice",
"Quot.sound",
"propext"
],
"SeisMIC.c09_found_violated": [
"propext"
],
"SeisMIC.c100_posterior": [
"Classical.choice",
"Quot.sound",
"propext"
],
"SeisMIC.c101_exact_partial": [
"Classical.choice",
"Quot.sound",
"propext"
],
"SeisMIC.c101_header_partial": [
"Classical.choice",
"Quot.sound",
"propext"
],
"SeisMIC.c101_precision_violated": [
"propext"
],
"SeisMIC.c101_round_trip_partial": [
"Classical.choice",
"Quot.sound",
"propext"
],
"SeisMIC.c102_names_partial": [
"Classical.choice",
"Quot.sound",
"propext"
],
"SeisMIC.c102_names_violated": [],
"SeisMIC.c102_order": [
"Classical.choice",
"Quot.sound",
"propext"
],
"SeisMIC.c103_detrend_partial": [
"Classical.choice",
"Quot.sound",
"propext"
],
"SeisMIC.c103_detrend_violated": [],
"SeisMIC.c103_moved": [
"Classical.choice",
"Quot.sound",
"propext"
],
"SeisMIC.c103_stream": [
"Quot.sound",
"propext"
],
"SeisMIC.c104_filter": [
"Classical.choice",
"Quot.sound",
"propext"
],
"SeisMIC.c105_gap_handler_partial": [
"Classical.choice",
"Quot.sound",
"propext"
],
"SeisMIC.c105_gap_handler_violated": [
"Classical.choice",
"Quot.sound",
"propext"
],
"SeisMIC.c106_polarity_partial": [
"Classical.choice",
"Quot.sound",
"propext"
],
"SeisMIC.c106_polarity_violated": [
"Quot.sound",
"propext"
],
"SeisMIC.c107_hundred_violated": [
"Classical.choice",
"Quot.sound",
"propext"
],
"SeisMIC.c107_identical_violated": [
"Classical.choice",
"Quot.sound",
"propext"
],
"SeisMIC.c107_mean": [
"Classical.choice",
"Quot.sound",
"propext"
],
"SeisMIC.c107_median": [
"Classical.choice",
"Quot.sound",
"propext"
],
"SeisMIC.c107_norm_mean": [
"Classical.choice",
"Quot.sound",
"propext"
],
"SeisMIC.c107_norm_mean_scale": [
"Classical.choice",
"Quot.sound",
"propext"
],
"SeisMIC.c107_order": [
"Classical.choice",
"Quot.sound",
"propext"
],
"SeisMIC.c107_similarity_partial": [
"Classical.choice",
"Quot.sound",
"propext"
],
"SeisMIC.c107_unknown": [
"Classical.choice",
"Quot.sound",
"propext"
],
"SeisMIC.c108_cover": [
"Classical.choice",
"Quot.sound",
"propext"
],
"SeisMIC.c108_gap_partial": [
"Classical.choice",
"Quot.sound",
"propext"
],
"SeisMIC.c108_gap_violated": [
"Classical.choice",
"Quot.sound",
"propext"
],
"SeisMIC.c108_list": [
"Classical.choice",
"Quot.sound",
"propext"
],
"SeisMIC.c108_negative": [
"Classical.choice",
"Quot.sound",
"propext"
],
"SeisMIC.c108_windows": [
"Classical.choice",
"Quot.sound",
"propext"
],
"SeisMIC.c108_zero": [
"Classical.choice",
"Quot.sound",
"propext"
],
"SeisMIC.c109_constant": [
"Classical.choice",
"Quot.sound",
"propext"
],
"SeisMIC.c109_failed_violated": [
"Classical.choice",
"Quot.sound",
"propext"
],
"SeisMIC.c109_full_violated": [
"Classical.choice",
"Quot.sound",
"propext"
],
"SeisMIC.c109_interior": [
"Classical.choice",
"Quot.sound",
"propext"
],
"SeisMIC.c109_lag_axis": [
"Classical.choice",
"Quot.sound",
"propext"
],
"SeisMIC.c109_linear": [
"Classical.choice",
"Quot.sound",
"propext"
],
"SeisMIC.c109_rejected": [
"Classical.choice",
"Quot.sound",
"propext"
],
"SeisMIC.c109_shapes": [
"Classical.choice",
"Quot.sound",
"propext"
],
"SeisMIC.c109_time_axis": [
"Classical.choice",
"Quot.sound",
"propext"
],
"SeisMIC.c109_trend_partial": [
"Classical.choice",
"Quot.sound",
"propext"
],
"SeisMIC.c109_trend_violated": [
"Classical.choice",
"Quot.sound",
"propext"
],
"SeisMIC.c10_alphabetical": [
"Classical.choice",
"Quot.sound",
"propext"
],
"SeisMIC.c10_exchange_partial": [
"Classical.choice",
"Quot.sound",
"propext"
],
"SeisMIC.c10_inner_partial": [
"Classical.choice",
"Quot.sound",
"propext"
],
"SeisMIC.c10_inner_violated": [
"Classical.choice",
"Quot.sound",
"propext"
],
"SeisMIC.c10_lags": [
"Classical.choice",
"Quot.sound",
"propext"
],
"SeisMIC.c10_same_codes_violated": [
"Classical.choice",
"Quot.sound",
"propext"
],
"SeisMIC.c110_accepted": [
"Classical.choice",
"Quot.sound",
"propext"
],
"SeisMIC.c110_asymmetric_violated": [
"Classical.choice",
"Quot.sound",
"propext"
],
"SeisMIC.c110_average": [
"Classical.choice",
"Quot.sound",
"propext"
],
"SeisMIC.c110_best": [
"Classical.choice",
"Quot.sound",
"propext"
],
"SeisMIC.c110_bounded": [
"Classical.choice",
"Quot.sound",
"propext"
],
"SeisMIC.c110_default_violated": [
"Classical.choice",
"Quot.sound",
"propext"
],
"SeisMIC.c110_end_violated": [
"Classical.choice",
"Quot.sound",
"propext"
],
"SeisMIC.c110_local": [
"Classical.choice",
"Quot.sound",
"propext"
],
"SeisMIC.c110_offgrid_violated": [
"Classical.choice",
"Quot.sound",
"propext"
],
"SeisMIC.c110_one_step_violated": [
"Classical.choice",
"Quot.sound",
"propext"
],
"SeisMIC.c110_recover": [
"Classical.choice",
"Quot.sound",
"propext"
],
"SeisMIC.c110_rejected": [
"Classical.choice",
"Quot.sound",
"propext"
],
"SeisMIC.c110_tested": [
"Classical.choice",
"Quot.sound",
"propext"
],
"SeisMIC.c110_windows_accepted": [
"Classical.choice",
"Quot.sound",
"propext"
],
"SeisMIC.c110_windows_partial": [
"Classical.choice",
"Quot.sound",
"propext"
],
"SeisMIC.c110_zero_violated": [
"Classical.choice",
"Quot.sound",
"propext"
],
"SeisMIC.c111_atomic_violated": [
"Classical.choice",
"Quot.sound",
"propext"
],
"SeisMIC.c111_excess_violated": [
"Classical.choice",
"Quot.sound",
"propext"
],
"SeisMIC.c111_gap_violated": [
"Classical.choice",
"Quot.sound",
"propext"
],
"SeisMIC.c111_nan": [
"Classical.choice",
"Quot.sound",
"propext"
],
"SeisMIC.c111_shift": [
"Classical.choice",
"Quot.sound",
"propext"
],
"SeisMIC.c111_single_violated": [
"Classical.choice",
"Quot.sound",
"propext"
],
"SeisMIC.c111_zero": [
"Classical.choice",
"Quot.sound",
"propext"
],
"SeisMIC.c112_copy": [
"Classical.choice",
"Quot.sound",
"propext"
],
"SeisMIC.c112_interleaved": [
"Classical.choice",
"Quot.sound",
"propext"
],
"SeisMIC.c112_part_partial": [
"Classical.choice",
"Quot.sound",
"propext"
],
"SeisMIC.c112_part_violated": [
"Classical.choice",
"Quot.sound",
"propext"
],
"SeisMIC.c112_result_violated": [
"Quot.sound",
"propext"
],
"SeisMIC.c112_slice": [
"Classical.choice",
"Quot.sound",
"propext"
],
"SeisMIC.c112_trace_violated": [
"Classical.choice",
"Quot.sound",
"propext"
],
"SeisMIC.c112_traces": [
"Classical.choice",
"Quot.sound",
"propext"
],
"SeisMIC.c112_two_parts": [
"Classical.choice",
"Quot.sound",
"propext"
],
"SeisMIC.c113_asymmetric_violated": [
"Classical.choice",
"Quot.sound",
"propext"
],
"SeisMIC.c113_clock_shift_partial": [
"Classical.choice",
"Quot.sound",
"propext"
],
"SeisMIC.c113_measure_shift": [
"Classical.choice",
"Quot.sound",
"propext"
],
"SeisMIC.c113_refused_violated": [
"Classical.choice",
"Quot.sound",
"propext"
],
"SeisMIC.c113_single_violated": [
"Classical.choice",
"Quot.sound",
"propext"
],
"SeisMIC.c113_symmetric_partial": [
"Classical.choice",
"Quot.sound",
"propext"
],
"SeisMIC.c114_copy": [
"Classical.choice",
"Quot.sound",
"propext"
],
"SeisMIC.c114_history": [
"Classical.choice",
"Quot.sound",
"propext"
],
"SeisMIC.c114_part_violated": [
"Classical.choice",
"Quot.sound",
"propext"
],
"SeisMIC.c115_aligned_partial": [
"Classical.choice",
"Quot.sound",
"propext"
],
"SeisMIC.c115_no_data_violated": [
"Classical.choice",
"Quot.sound",
"propext"
],
"SeisMIC.c115_odd_violated": [
"Classical.choice",
"Quot.sound",
"propext"
],
"SeisMIC.c115_one_time_violated": [
"Classical.choice",
"Quot.sound",
"propext"
],
"SeisMIC.c115_refused": [
"Classical.choice",
"Quot.sound",
"propext"
],
"SeisMIC.c116_best": [
"Classical.choice",
"Quot.sound",
"propext"
],
"SeisMIC.c116_best_single_partial": [
"Classical.choice",
"Quot.sound",
"propext"
],
"SeisMIC.c116_default_violated": [
"Classical.choice",
"Quot.sound",
"propext"
],
"SeisMIC.c116_found": [
"Classical.choice",
"Quot.sound",
"propext"
],
"SeisMIC.c116_late_violated": [
"Classical.choice",
"Quot.sound",
"propext"
],
"SeisMIC.c116_no_header_violated": [
"Classical.choice",
"Quot.sound",
"propext"
],
"SeisMIC.c116_single_value_violated": [
"Classical.choice",
"Quot.sound",
"propext"
],
"SeisMIC.c116_single_violated": [
"Classical.choice",
"Quot.sound",
"propext"
],
"SeisMIC.c116_windows_violated": [
"Classical.choice",
"Quot.sound",
"propext"
],
"SeisMIC.c117_one_trace_violated": [
"Classical.choice",
"Quot.sound",
"propext"
],
"SeisMIC.c117_refused": [
"Classical.choice",
"Quot.sound",
"propext"
],
"SeisMIC.c117_remeasured_partial": [
"Classical.choice",
"Quot.sound",
"propext"
],
"SeisMIC.c117_restored_partial": [
"Classical.choice",
"Quot.sound",
"propext"
],
"SeisMIC.c117_undefined": [
"Classical.choice",
"Quot.sound",
"propext"
],
"SeisMIC.c117_zero": [
"Classical.choice",
"Quot.sound",
"propext"
],
"SeisMIC.c118_found_partial": [
"Classical.choice",
"Quot.sound",
"propext"
],
"SeisMIC.c118_message_violated": [
"Classical.choice",
"Quot.sound",
"propext"
],
"SeisMIC.c118_none_violated": [
"Classical.choice",
"Quot.sound",
"propext"
],
"SeisMIC.c118_one_trace_violated": [
"Classical.choice",
"Quot.sound",
"propext"
],
"SeisMIC.c118_refused_partial": [
"Classical.choice",
"Quot.sound",
"propext"
],
"SeisMIC.c118_result_partial": [
"Classical.choice",
"Quot.sound",
"propext"
],
"SeisMIC.c118_single_violated": [
"Classical.choice",
"Quot.sound",
"propext"
],
"SeisMIC.c118_unchanged_partial": [
"Classical.choice",
"Quot.sound",
"propext"
],
"SeisMIC.c119_bounded": [
"Classical.choice",
"Quot.sound",
"propext"
],
"SeisMIC.c119_names": [
"Classical.choice",
"Quot.sound",
"propext"
],
"SeisMIC.c119_short": [
"Classical.choice",
"Quot.sound",
"propext"
],
"SeisMIC.c119_stable": [
"Classical.choice",
"Quot.sound",
"propext"
],
"SeisMIC.c119_value": [
"Classical.choice",
"Quot.sound",
"propext"
],
"SeisMIC.c120_band_violated": [
"Classical.choice",
"Quot.sound",
"propext"
],
"SeisMIC.c120_mem_partial": [
"Classical.choice",
"Quot.sound",
"propext"
],
"SeisMIC.c120_options": [
"Classical.choice",
"Quot.sound",
"propext"
],
"SeisMIC.c120_refused": [
"Classical.choice",
"Quot.sound",
"propext"
],
"SeisMIC.c120_results_partial": [
"Classical.choice",
"Quot.sound",
"propext"
],
"SeisMIC.c120_save_violated": [
"Classical.choice",
"Quot.sound",
"propext"
],
"SeisMIC.c121_average_partial": [
"Classical.choice",
"Quot.sound",
"propext"
],
"SeisMIC.c121_failure_violated": [
"Classical.choice",
"Quot.sound",
"propext"
],
"SeisMIC.c121_groups_partial": [
"Classical.choice",
"Quot.sound",
"propext"
],
"SeisMIC.c121_order_partial": [
"Classical.choice",
"Quot.sound",
"propext"
],
"SeisMIC.c121_references_violated": [
"Classical.choice",
"Quot.sound",
"propext"
],
"SeisMIC.c121_refused": [
"Classical.choice",
"Quot.sound",
"propext"
],
"SeisMIC.c122_axes": [
"Classical.choice",
"Quot.sound",
"propext"
],
"SeisMIC.c122_cells_partial": [
"Classical.choice",
"Quot.sound",
"propext"
],
"SeisMIC.c122_centres_violated": [
"Classical.choice",
"Quot.sound",
"propext"
],
"SeisMIC.c123_argument_violated": [
"Classical.choice",
"Quot.sound",
"propext"
],
"SeisMIC.c123_constant": [
"Classical.choice",
"Quot.sound",
"propext"
],
"SeisMIC.c123_gap_violated": [
"Classical.choice",
"Quot.sound",
"propext"
],
"SeisMIC.c123_linear_partial": [
"Classical.choice",
"Quot.sound",
"propext"
],
"SeisMIC.c123_method_violated": [
"Classical.choice",
"Quot.sound",
"propext"
],
"SeisMIC.c123_mixed_partial": [
"Classical.choice",
"Quot.sound",
"propext"
],
"SeisMIC.c123_nan_violated": [
"Classical.choice",
"Quot.sound",
"propext"
],
"SeisMIC.c123_scipy_constant": [
"Classical.choice",
"Quot.sound",
"propext"
],
"SeisMIC.c123_scipy_gaps": [
"Classical.choice",
"Quot.sound",
"propext"
],
"SeisMIC.c123_scipy_partial": [
"Classical.choice",
"Quot.sound",
"propext"
],
"SeisMIC.c123_trend_partial": [
"Classical.choice",
"Quot.sound",
"propext"
],
"SeisMIC.c123_unknown": [
"Classical.choice",
"Quot.sound",
"propext"
],
"SeisMIC.c124_bounded": [
"Classical.choice",
"Quot.sound",
"propext"
],
"SeisMIC.c124_long_violated": [
"Classical.choice",
"Quot.sound",
"propext"
],
"SeisMIC.c124_nan_violated": [
"Classical.choice",
"Quot.sound",
"propext"
],
"SeisMIC.c124_refused": [
"Classical.choice",
"Quot.sound",
"propext"
],
"SeisMIC.c124_scale": [
"Classical.choice",
"Quot.sound",
"propext"
],
"SeisMIC.c124_sign": [
"Classical.choice",
"Quot.sound",
"propext"
],
"SeisMIC.c124_silent_violated": [
"Classical.choice",
"Quot.sound",
"propext"
],
"SeisMIC.c124_value_partial": [
"Classical.choice",
"Quot.sound",
"propext"
],
"SeisMIC.c125_again_partial": [
"Classical.choice",
"Quot.sound",
"propext"
],
"SeisMIC.c125_odd_violated": [
"Classical.choice",
"Quot.sound",
"propext"
],
"SeisMIC.c125_signs_partial": [
"Classical.choice",
"Quot.sound",
"propext"
],
"SeisMIC.c125_single": [
"Classical.choice",
"Quot.sound",
"propext"
],
"SeisMIC.c126_highpass_violated": [
"Classical.choice",
"Quot.sound",
"propext"
],
"SeisMIC.c126_lowpass_violated": [
"Classical.choice",
"Quot.sound",
"propext"
],
"SeisMIC.c126_outside_violated": [
"Classical.choice",
"Quot.sound",
"propext"
],
"SeisMIC.c126_weights_partial": [
"Classical.choice",
"Quot.sound",
"propext"
],
"SeisMIC.c127_refused": [
"Classical.choice",
"Quot.sound",
"propext"
],
"SeisMIC.c127_two_samples_violated": [
"Classical.choice",
"Quot.sound",
"propext"
],
"SeisMIC.c127_weights_partial": [
"Classical.choice",
"Quot.sound",
"propext"
],
"SeisMIC.c128_acausal_violated": [
"Classical.choice",
"Quot.sound",
"propext"
],
"SeisMIC.c128_between_violated": [
"Classical.choice",
"Quot.sound",
"propext"
],
"SeisMIC.c128_divides_partial": [
"Classical.choice",
"Quot.sound",
"propext"
],
"SeisMIC.c128_exact_partial": [
"Classical.choice",
"Quot.sound",
"propext"
],
"SeisMIC.c128_late_violated": [
"Classical.choice",
"Quot.sound",
"propext"
],
"SeisMIC.c128_scale": [
"Classical.choice",
"Quot.sound",
"propext"
],
"SeisMIC.c128_silent_violated": [
"Classical.choice",
"Quot.sound",
"propext"
],
"SeisMIC.c129_nan_violated": [
"Classical.choice",
"Quot.sound",
"propext"
],
"SeisMIC.c129_refused": [
"Classical.choice",
"Quot.sound",
"propext"
],
"SeisMIC.c129_reversal_violated": [
"Classical.choice",
"Quot.sound",
"propext"
],
"SeisMIC.c129_zero_phase_partial": [
"Classical.choice",
"Quot.sound",
"propext"
],
"SeisMIC.c130_bound_partial": [
"Classical.choice",
"Quot.sound",
"propext"
],
"SeisMIC.c130_nan_violated": [
"Classical.choice",
"Quot.sound",
"propext"
],
"SeisMIC.c130_scale": [
"Classical.choice",
"Quot.sound",
"propext"
],
"SeisMIC.c130_sinusoid": [
"Classical.choice",
"Quot.sound",
"propext"
],
"SeisMIC.c131_best": [
"Classical.choice",
"Quot.sound",
"propext"
],
"SeisMIC.c131_correction_violated": [
"Classical.choice",
"Quot.sound",
"propext"
],
"SeisMIC.c131_edge_violated": [
"Classical.choice",
"Quot.sound",
"propext"
],
"SeisMIC.c131_found_partial": [
"Classical.choice",
"Quot.sound",
"propext"
],
"SeisMIC.c131_refused": [
"Classical.choice",
"Quot.sound",
"propext"
],
"SeisMIC.c132_column": [
"Classical.choice",
"Quot.sound",
"propext"
],
"SeisMIC.c132_estimate_violated": [
"Classical.choice",
"Quot.sound",
"propext"
],
"SeisMIC.c132_fewer_violated": [
"Classical.choice",
"Quot.sound",
"propext"
],
"SeisMIC.c132_refused": [
"Classical.choice",
"Quot.sound",
"propext"
],
"SeisMIC.c132_shift_partial": [
"Classical.choice",
"Quot.sound",
"propext"
],
"SeisMIC.c132_varying": [
"Classical.choice",
"Quot.sound",
"propext"
],
"SeisMIC.c132_whole_partial": [
"Classical.choice",
"Quot.sound",
"propext"
],
"SeisMIC.c133_argument_violated": [
"Classical.choice",
"Quot.sound",
"propext"
],
"SeisMIC.c133_refused": [
"Classical.choice",
"Quot.sound",
"propext"
],
"SeisMIC.c133_restored_partial": [
"Classical.choice",
"Quot.sound",
"propext"
],
"SeisMIC.c133_sign_violated": [
"Classical.choice",
"Quot.sound",
"propext"
],
"SeisMIC.c133_values": [
"Classical.choice",
"Quot.sound",
"propext"
],
"SeisMIC.c134_best_partial": [
"Classical.choice",
"Quot.sound",
"propext"
],
"SeisMIC.c134_empty_violated": [
"Classical.choice",
"Quot.sound",
"propext"
],
"SeisMIC.c134_negative_violated": [
"Classical.choice",
"Quot.sound",
"propext"
],
"SeisMIC.c134_refused": [
"Classical.choice",
"Quot.sound",
"propext"
],
"SeisMIC.c134_smoothed": [
"Classical.choice",
"Quot.sound",
"propext"
],
"SeisMIC.c134_window_violated": [
"Classical.choice",
"Quot.sound",
"propext"
],
"SeisMIC.c135_existing_partial": [
"Classical.choice",
"Quot.sound",
"propext"
],
"SeisMIC.c135_existing_violated": [
"propext"
],
"SeisMIC.c135_interrupted_violated": [
"Classical.choice",
"Quot.sound",
"propext"
],
"SeisMIC.c135_only_partial": [
"Classical.choice",
"Quot.sound",
"propext"
],
"SeisMIC.c135_pairs": [
"Quot.sound",
"propext"
],
"SeisMIC.c135_prefix_violated": [
"Classical.choice",
"Quot.sound",
"propext"
],
"SeisMIC.c135_refused": [
"Quot.sound",
"propext"
],
"SeisMIC.c135_selected": [
"Classical.choice",
"Quot.sound",
"propext"
],
"SeisMIC.c136_end_violated": [
"Classical.choice",
"Quot.sound",
"propext"
],
"SeisMIC.c136_increment_violated": [],
"SeisMIC.c136_periods": [
"Classical.choice",
"Quot.sound",
"propext"
],
"SeisMIC.c136_refused": [],
"SeisMIC.c136_windows_partial": [
"Classical.choice",
"Quot.sound",
"propext"
],
"SeisMIC.c137_chain": [
"Classical.choice",
"Quot.sound",
"propext"
],
"SeisMIC.c137_failed": [
"Classical.choice",
"Quot.sound",
"propext"
],
"SeisMIC.c137_finishes": [
"Quot.sound",
"propext"
],
"SeisMIC.c137_mean": [
"Classical.choice",
"Quot.sound",
"propext"
],
"SeisMIC.c137_mean_time": [
"Classical.choice",
"Quot.sound",
"propext"
],
"SeisMIC.c137_predecessor": [
"Classical.choice",
"Quot.sound",
"propext"
],
"SeisMIC.c138_attributes": [
"Classical.choice",
"Quot.sound",
"propext"
],
"SeisMIC.c138_best_fit": [
"Classical.choice",
"Quot.sound",
"propext"
],
"SeisMIC.c138_covariance": [
"Classical.choice",
"Quot.sound",
"propext"
],
"SeisMIC.c138_history": [
"Classical.choice",
"Quot.sound",
"propext"
],
"SeisMIC.c138_joint": [
"Classical.choice",
"Quot.sound",
"propext"
],
"SeisMIC.c138_order_partial": [
"Classical.choice",
"Quot.sound",
"propext"
],
"SeisMIC.c138_order_violated": [
"Classical.choice",
"Quot.sound",
"propext"
],
"SeisMIC.c138_settings": [
"Classical.choice",
"Quot.sound",
"propext"
],
"SeisMIC.c138_stale_violated": [
"Classical.choice",
"Quot.sound",
"propext"
],
"SeisMIC.c138_succeeds": [
"Classical.choice",
"Quot.sound",
"propext"
],
"SeisMIC.c138_zero_violated": [
"Classical.choice",
"Quot.sound",
"propext"
],
"SeisMIC.c139_exact": [
"Classical.choice",
"Quot.sound",
"propext"
],
"SeisMIC.c139_least_squares": [
"Classical.choice",
"Quot.sound",
"propext"
],
"SeisMIC.c139_method": [
"Classical.choice",
"Quot.sound",
"propext"
],
"SeisMIC.c139_neglected": [
"Classical.choice",
"Quot.sound",
"propext"
],
"SeisMIC.c139_order": [
"Classical.choice",
"Quot.sound",
"propext"
],
"SeisMIC.c139_unique": [
"Classical.choice",
"Quot.sound",
"propext"
],
"SeisMIC.c13_first_write_wins": [
"Quot.sound",
"propext"
],
"SeisMIC.c13_never_overwritten": [
"Quot.sound",
"propext"
],
"SeisMIC.c13_options_kept": [],
"SeisMIC.c140_missing": [
"Classical.choice",
"Quot.sound",
"propext"
],
"SeisMIC.c140_name_violated": [
"Quot.sound",
"propext"
],
"SeisMIC.c140_pattern": [
"Quot.sound",
"propext"
],
"SeisMIC.c140_refused": [
"Quot.sound",
"propext"
],
"SeisMIC.c140_round_trip_partial": [
"Classical.choice",
"Quot.sound",
"propext"
],
"SeisMIC.c140_star_violated": [
"Quot.sound",
"propext"
],
"SeisMIC.c140_time_violated": [
"Quot.sound",
"propext"
],
"SeisMIC.c141_end_violated": [
"Classical.choice",
"Quot.sound",
"propext"
],
"SeisMIC.c141_inside": [
"propext"
],
"SeisMIC.c141_order_violated": [
"propext"
],
"SeisMIC.c141_period_partial": [
"Classical.choice",
"Quot.sound",
"propext"
],
"SeisMIC.c141_rates_violated": [
"Classical.choice",
"Quot.sound",
"propext"
],
"SeisMIC.c141_sds": [
"Classical.choice",
"Quot.sound",
"propext"
],
"SeisMIC.c141_select": [
"Classical.choice",
"Quot.sound",
"propext"
],
"SeisMIC.c141_start_violated": [
"Classical.choice",
"Quot.sound",
"propext"
],
"SeisMIC.c141_year_violated": [
"Classical.choice",
"Quot.sound",
"propext"
],
"SeisMIC.c142_again": [
"Classical.choice",
"Quot.sound",
"propext"
],
"SeisMIC.c142_complete_partial": [
"Classical.choice",
"Quot.sound",
"propext"
],
"SeisMIC.c142_files": [
"Classical.choice",
"Quot.sound",
"propext"
],
"SeisMIC.c142_incomplete_violated": [
"Classical.choice",
"Quot.sound",
"propext"
],
"SeisMIC.c142_kept": [],
"SeisMIC.c142_own_file": [
"Classical.choice",
"Quot.sound",
"propext"
],
"SeisMIC.c142_read_name": [
"Quot.sound",
"propext"
],
"SeisMIC.c142_read_only_violated": [
"Classical.choice",
"Quot.sound",
"propext"
],
"SeisMIC.c142_unaligned_violated": [
"Classical.choice",
"Quot.sound",
"propext"
],
"SeisMIC.c143_filter_after_mask": [
"Classical.choice",
"Quot.sound",
"propext"
],
"SeisMIC.c143_mask": [
"Classical.choice",
"Quot.sound",
"propext"
],
"SeisMIC.c143_masked_violated": [
"Classical.choice",
"Quot.sound",
"propext"
],
"SeisMIC.c143_merge_pad": [
"Quot.sound",
"propext"
],
"SeisMIC.c143_rows": [
"Classical.choice",
"Quot.sound",
"propext"
],
"SeisMIC.c143_too_long": [
"Quot.sound",
"propext"
],
"SeisMIC.c143_window_partial": [
"Classical.choice",
"Quot.sound",
"propext"
],
"SeisMIC.c144_failed": [
"Quot.sound",
"propext"
],
"SeisMIC.c144_name_violated": [],
"SeisMIC.c144_response_partial": [
"Classical.choice",
"Quot.sound",
"propext"
],
"SeisMIC.c144_samples_partial": [
"Classical.choice",
"Quot.sound",
"propext"
],
"SeisMIC.c144_station_violated": [
"Quot.sound",
"propext"
],
"SeisMIC.c144_steps_partial": [
"Quot.sound",
"propext"
],
"SeisMIC.c144_twice_violated": [
"Quot.sound",
"propext"
],
"SeisMIC.c144_window": [
"Classical.choice",
"Quot.sound",
"propext"
],
"SeisMIC.c145_results_partial": [
"Classical.choice",
"Quot.sound",
"propext"
],
"SeisMIC.c145_same_partial": [
"Classical.choice",
"Quot.sound",
"propext"
],
"SeisMIC.c145_two_files_violated": [
"Quot.sound",
"propext"
],
"SeisMIC.c146_kept_partial": [
"Classical.choice",
"Quot.sound",
"propext"
],
"SeisMIC.c146_not_requested_violated": [
"propext"
],
"SeisMIC.c146_overwritten_violated": [
"propext"
],
"SeisMIC.c146_read_only_violated": [
"propext"
],
"SeisMIC.c146_requested_once": [
"Classical.choice",
"Quot.sound",
"propext"
],
"SeisMIC.c146_same_client": [
"propext"
],
"SeisMIC.c147_clip": [
"Classical.choice",
"Quot.sound",
"propext"
],
"SeisMIC.c147_codes_partial": [
"Classical.choice",
"Quot.sound",
"propext"
],
"SeisMIC.c147_decay": [
"Classical.choice",
"Quot.sound",
"propext"
],
"SeisMIC.c147_envelope": [
"Classical.choice",
"Quot.sound",
"propext"
],
"SeisMIC.c147_filter": [
"Classical.choice",
"Quot.sound",
"propext"
],
"SeisMIC.c147_matrix": [
"Classical.choice",
"Quot.sound",
"propext"
],
"SeisMIC.c147_normalize": [
"Classical.choice",
"Quot.sound",
"propext"
],
"SeisMIC.c147_other_codes_violated": [
"Classical.choice",
"Quot.sound",
"propext"
],
"SeisMIC.c147_resample_violated": [
"Classical.choice",
"Quot.sound",
"propext"
],
"SeisMIC.c147_rows_kept": [
"Classical.choice",
"Quot.sound",
"propext"
],
"SeisMIC.c147_shift": [
"Classical.choice",
"Quot.sound",
"propext"
],
"SeisMIC.c147_smooth": [
"Classical.choice",
"Quot.sound",
"propext"
],
"SeisMIC.c147_stretch": [
"Classical.choice",
"Quot.sound",
"propext"
],
"SeisMIC.c147_taper": [
"Classical.choice",
"Quot.sound",
"propext"
],
"SeisMIC.c147_taper_center": [
"Classical.choice",
"Quot.sound",
"propext"
],
"SeisMIC.c148_energy_partial": [
"Classical.choice",
"Quot.sound",
"propext"
],
"SeisMIC.c148_energy_violated": [
"Classical.choice",
"Quot.sound",
"propext"
],
"SeisMIC.c148_scattered_all": [
"Classical.choice",
"Quot.sound",
"propext"
],
"SeisMIC.c148_scattered_le": [
"Classical.choice",
"Quot.sound",
"propext"
],
"SeisMIC.c148_scattered_partial": [
"Classical.choice",
"Quot.sound",
"propext"
],
"SeisMIC.c148_unit_violated": [
"Classical.choice",
"Quot.sound",
"propext"
],
"SeisMIC.c149_averages_violated": [
"Quot.sound",
"propext"
],
"SeisMIC.c149_completes": [
"Classical.choice",
"Quot.sound",
"propext"
],
"SeisMIC.c149_correlator": [
"Classical.choice",
"Quot.sound",
"propext"
],
"SeisMIC.c149_log_files": [
"Classical.choice",
"Quot.sound",
"propext"
],
"SeisMIC.c149_monitor": [
"Classical.choice",
"Quot.sound",
"propext"
],
"SeisMIC.c149_monitor_completes": [
"Classical.choice",
"Quot.sound",
"propext"
],
"SeisMIC.c149_wfc_completes": [
"Classical.choice",
"Quot.sound",
"propext"
],
"SeisMIC.c149_wfc_partial": [
"Classical.choice",
"Quot.sound",
"propext"
],
"SeisMIC.c149_wfc_violated": [
"Quot.sound",
"propext"
],
"SeisMIC.c14_missing": [
"Classical.choice",
"Quot.sound",
"propext"
],
"SeisMIC.c14_read_back": [
"Classical.choice",
"Quot.sound",
"propext"
],
"SeisMIC.c14_read_back_later": [
"Classical.choice",
"Quot.sound",
"propext"
],
"SeisMIC.c150_accepted_partial": [
"Classical.choice",
"Quot.sound",
"propext"
],
"SeisMIC.c150_overwritten_violated": [
"Classical.choice",
"Quot.sound",
"propext"
],
"SeisMIC.c150_recorded": [
"Classical.choice",
"Quot.sound",
"propext"
],
"SeisMIC.c150_times_violated": [
"Classical.choice",
"Quot.sound",
"propext"
],
"SeisMIC.c151_kinds": [
"Quot.sound",
"propext"
],
"SeisMIC.c151_missing": [
"Quot.sound",
"propext"
],
"SeisMIC.c151_names_violated": [
"Quot.sound",
"propext"
],
"SeisMIC.c151_other_damage_violated": [
"Quot.sound",
"propext"
],
"SeisMIC.c151_pattern_partial": [
"Quot.sound",
"propext"
],
"SeisMIC.c151_single": [
"Quot.sound",
"propext"
],
"SeisMIC.c152_alternate_violated": [
"Classical.choice",
"Quot.sound",
"propext"
],
"SeisMIC.c152_apart_partial": [
"Classical.choice",
"Quot.sound",
"propext"
],
"SeisMIC.c152_common_partial": [
"Classical.choice",
"Quot.sound",
"propext"
],
"SeisMIC.c152_gap": [
"Classical.choice",
"Quot.sound",
"propext"
],
"SeisMIC.c152_last_violated": [
"Classical.choice",
"Quot.sound",
"propext"
],
"SeisMIC.c152_median": [
"Classical.choice",
"Quot.sound",
"propext"
],
"SeisMIC.c152_method": [
"Classical.choice",
"Quot.sound",
"propext"
],
"SeisMIC.c152_middle": [
"Classical.choice",
"Quot.sound",
"propext"
],
"SeisMIC.c152_rest": [
"Classical.choice",
"Quot.sound",
"propext"
],
"SeisMIC.c153_joint_violated": [
"Classical.choice",
"Quot.sound",
"propext"
],
"SeisMIC.c153_silent_violated": [
"Classical.choice",
"Quot.sound",
"propext"
],
"SeisMIC.c153_whitening_partial": [
"Classical.choice",
"Quot.sound",
"propext"
],
"SeisMIC.c154_gain_partial": [
"Classical.choice",
"Quot.sound",
"propext"
],
"SeisMIC.c154_joint_violated": [
"Classical.choice",
"Quot.sound",
"propext"
],
"SeisMIC.c154_polarity_partial": [
"Classical.choice",
"Quot.sound",
"propext"
],
"SeisMIC.c154_threshold_violated": [
"Classical.choice",
"Quot.sound",
"propext"
],
"SeisMIC.c155_coherence": [
"Classical.choice",
"Quot.sound",
"propext"
],
"SeisMIC.c155_shift": [
"Classical.choice",
"Quot.sound",
"propext"
],
"SeisMIC.c155_shift_mean": [
"Classical.choice",
"Quot.sound",
"propext"
],
"SeisMIC.c155_stretch": [
"Classical.choice",
"Quot.sound",
"propext"
],
"SeisMIC.c155_stretch_mean": [
"Classical.choice",
"Quot.sound",
"propext"
],
"SeisMIC.c156_coherence": [
"Classical.choice",
"Quot.sound",
"propext"
],
"SeisMIC.c156_references_violated": [
"Classical.choice",
"Quot.sound",
"propext"
],
"SeisMIC.c156_shift": [
"Classical.choice",
"Quot.sound",
"propext"
],
"SeisMIC.c156_stretch": [
"Classical.choice",
"Quot.sound",
"propext"
],
"SeisMIC.c157_completes": [
"Classical.choice",
"Quot.sound",
"propext"
],
"SeisMIC.c157_database": [
"Classical.choice",
"Quot.sound",
"propext"
],
"SeisMIC.c157_killed": [
"Classical.choice",
"Quot.sound",
"propext"
],
"SeisMIC.c157_run": [
"Classical.choice",
"Quot.sound",
"propext"
],
"SeisMIC.c157_same": [
"Classical.choice",
"Quot.sound",
"propext"
],
"SeisMIC.c158_coherence": [
"Classical.choice",
"Quot.sound",
"propext"
],
"SeisMIC.c158_stretch": [
"Classical.choice",
"Quot.sound",
"propext"
],
"SeisMIC.c159_database": [
"Classical.choice",
"Quot.sound",
"propext"
],
"SeisMIC.c159_processes": [
"Classical.choice",
"Quot.sound",
"propext"
],
"SeisMIC.c159_traces": [
"Classical.choice",
"Quot.sound",
"propext"
],
"SeisMIC.c15_literal_exact": [
"Classical.choice",
"Quot.sound",
"propext"
],
"SeisMIC.c15_question_violated": [
"propext"
],
"SeisMIC.c15_star_exact_partial": [
"Classical.choice",
"Quot.sound",
"propext"
],
"SeisMIC.c15_star_missing": [
"propext"
],
"SeisMIC.c15_wildcard_codes_rejected": [
"Classical.choice",
"Quot.sound",
"propext"
],
"SeisMIC.c160_again": [
"Classical.choice",
"Quot.sound",
"propext"
],
"SeisMIC.c160_lookup": [
"Classical.choice",
"Quot.sound",
"propext"
],
"SeisMIC.c160_resume": [
"Classical.choice",
"Quot.sound",
"propext"
],
"SeisMIC.c161_axis": [
"Classical.choice",
"Quot.sound",
"propext"
],
"SeisMIC.c161_demean": [
"Classical.choice",
"Quot.sound",
"propext"
],
"SeisMIC.c161_detrend": [
"Classical.choice",
"Quot.sound",
"propext"
],
"SeisMIC.c161_mirror": [
"Classical.choice",
"Quot.sound",
"propext"
],
"SeisMIC.c161_normalise": [
"Classical.choice",
"Quot.sound",
"propext"
],
"SeisMIC.c161_resample": [
"Classical.choice",
"Quot.sound",
"propext"
],
"SeisMIC.c161_select": [
"Classical.choice",
"Quot.sound",
"propext"
],
"SeisMIC.c161_slice": [
"Classical.choice",
"Quot.sound",
"propext"
],
"SeisMIC.c161_td": [
"Classical.choice",
"Quot.sound",
"propext"
],
"SeisMIC.c161_trim": [
"Classical.choice",
"Quot.sound",
"propext"
],
"SeisMIC.c161_whitening": [
"Classical.choice",
"Quot.sound",
"propext"
],
"SeisMIC.c162_calls": [
"Classical.choice",
"Quot.sound",
"propext"
],
"SeisMIC.c162_correct": [
"Classical.choice",
"Quot.sound",
"propext"
],
"SeisMIC.c162_lags": [
"Classical.choice",
"Quot.sound",
"propext"
],
"SeisMIC.c162_measure": [
"Classical.choice",
"Quot.sound",
"propext"
],
"SeisMIC.c162_reference": [
"Classical.choice",
"Quot.sound",
"propext"
],
"SeisMIC.c162_smooth": [
"Classical.choice",
"Quot.sound",
"propext"
],
"SeisMIC.c162_td": [
"Classical.choice",
"Quot.sound",
"propext"
],
"SeisMIC.c162_values": [
"Classical.choice",
"Quot.sound",
"propext"
],
"SeisMIC.c163_calls": [
"Classical.choice",
"Quot.sound",
"propext"
],
"SeisMIC.c163_convert": [
"Classical.choice",
"Quot.sound",
"propext"
],
"SeisMIC.c163_select": [
"Classical.choice",
"Quot.sound",
"propext"
],
"SeisMIC.c163_shift": [
"Classical.choice",
"Quot.sound",
"propext"
],
"SeisMIC.c163_slide": [
"Classical.choice",
"Quot.sound",
"propext"
],
"SeisMIC.c163_stack": [
"Classical.choice",
"Quot.sound",
"propext"
],
"SeisMIC.c163_timeofday": [
"propext"
],
"SeisMIC.c163_times": [
"Classical.choice",
"Quot.sound",
"propext"
],
"SeisMIC.c164_alone_partial": [
"Classical.choice",
"Quot.sound",
"propext"
],
"SeisMIC.c164_pairs": [
"Classical.choice",
"Quot.sound",
"propext"
],
"SeisMIC.c164_response_violated": [
"Classical.choice",
"Quot.sound",
"propext"
],
"SeisMIC.c164_run": [
"Classical.choice",
"Quot.sound",
"propext"
],
"SeisMIC.c164_silent_violated": [
"Classical.choice",
"Quot.sound",
"propext"
],
"SeisMIC.c164_values_partial": [
"Classical.choice",
"Quot.sound",
"propext"
],
"SeisMIC.c165_end_violated": [
"Classical.choice",
"Quot.sound",
"propext"
],
"SeisMIC.c165_matrix_partial": [
"Classical.choice",
"Quot.sound",
"propext"
],
"SeisMIC.c165_part": [
"Classical.choice",
"Quot.sound",
"propext"
],
"SeisMIC.c165_single_violated": [
"Classical.choice",
"Quot.sound",
"propext"
],
"SeisMIC.c165_trace": [
"Classical.choice",
"Quot.sound",
"propext"
],
"SeisMIC.c166_function": [
"Quot.sound",
"propext"
],
"SeisMIC.c166_missing": [
"Quot.sound",
"propext"
],
"SeisMIC.c167_compare": [
"propext"
],
"SeisMIC.c168_coherence": [
"Classical.choice",
"Quot.sound",
"propext"
],
"SeisMIC.c168_run": [
"Classical.choice",
"Quot.sound",
"propext"
],
"SeisMIC.c168_shift": [
"Classical.choice",
"Quot.sound",
"propext"
],
"SeisMIC.c168_shift_mean": [
"Classical.choice",
"Quot.sound",
"propext"
],
"SeisMIC.c168_stretch": [
"Classical.choice",
"Quot.sound",
"propext"
],
"SeisMIC.c168_stretch_mean": [
"Classical.choice",
"Quot.sound",
"propext"
],
"SeisMIC.c169_order": [
"Classical.choice",
"Quot.sound",
"propext"
],
"SeisMIC.c16_different_refused": [
"Classical.choice",
"Quot.sound",
"propext"
],
"SeisMIC.c16_equal_accepted_partial": [
"Classical.choice",
"Quot.sound",
"propext"
],
"SeisMIC.c16_equal_accepted_violated": [
"Classical.choice",
"Quot.sound",
"propext"
],
"SeisMIC.c16_otherwise": [
"propext"
],
"SeisMIC.c16_stored_options_stay": [
"propext"
],
"SeisMIC.c170_any_order": [
"Classical.choice",
"Quot.sound",
"propext"
],
"SeisMIC.c170_parts": [
"Classical.choice",
"Quot.sound",
"propext"
],
"SeisMIC.c171_reference": [
"Classical.choice",
"Quot.sound",
"propext"
],
"SeisMIC.c171_velocity": [
"Classical.choice",
"Quot.sound",
"propext"
],
"SeisMIC.c172_filled": [
"Classical.choice",
"Quot.sound",
"propext"
],
"SeisMIC.c172_no_number": [
"Classical.choice",
"Quot.sound",
"propext"
],
"SeisMIC.c173_stream": [
"Classical.choice",
"Quot.sound",
"propext"
],
"SeisMIC.c173_trace": [
"Classical.choice",
"Quot.sound",
"propext"
],
"SeisMIC.c174_nearest": [
"Classical.choice",
"Quot.sound",
"propext"
],
"SeisMIC.c174_order": [
"Classical.choice",
"Quot.sound",
"propext"
],
"SeisMIC.c175_limits": [
"Classical.choice",
"Quot.sound",
"propext"
],
"SeisMIC.c175_publication": [
"Classical.choice",
"Quot.sound",
"propext"
],
"SeisMIC.c175_technical": [
"Classical.choice",
"Quot.sound",
"propext"
],
"SeisMIC.c175_technical_limits": [
"Classical.choice",
"Quot.sound",
"propext"
],
"SeisMIC.c176_normalize_partial": [
"Classical.choice",
"Quot.sound",
"propext"
],
"SeisMIC.c176_normalize_violated": [
"Classical.choice",
"Quot.sound",
"propext"
],
"SeisMIC.c176_pixel": [
"Classical.choice",
"Quot.sound",
"propext"
],
"SeisMIC.c177_default_violated": [
"Classical.choice",
"Quot.sound",
"propext"
],
"SeisMIC.c177_extension": [
"Classical.choice",
"Quot.sound",
"propext"
],
"SeisMIC.c177_fresh_partial": [
"Classical.choice",
"Quot.sound",
"propext"
],
"SeisMIC.c177_others": [
"Classical.choice",
"Quot.sound",
"propext"
],
"SeisMIC.c178_curves_partial": [
"Classical.choice",
"Quot.sound",
"propext"
],
"SeisMIC.c178_damaged_violated": [
"Classical.choice",
"Quot.sound",
"propext"
],
"SeisMIC.c178_filters_violated": [
"Classical.choice",
"Quot.sound",
"propext"
],
"SeisMIC.c178_median_partial": [
"Classical.choice",
"Quot.sound",
"propext"
],
"SeisMIC.c178_plain": [
"Classical.choice",
"Quot.sound",
"propext"
],
"SeisMIC.c178_selected": [
"Quot.sound",
"propext"
],
"SeisMIC.c178_times_violated": [
"Classical.choice",
"Quot.sound",
"propext"
],
"SeisMIC.c179_axis_partial": [
"Classical.choice",
"Quot.sound",
"propext"
],
"SeisMIC.c179_axis_violated": [
"Classical.choice",
"Quot.sound",
"propext"
],
"SeisMIC.c179_distance_partial": [
"Classical.choice",
"Quot.sound",
"propext"
],
"SeisMIC.c179_lags_violated": [
"Classical.choice",
"Quot.sound",
"propext"
],
"SeisMIC.c179_ragged": [
"Quot.sound",
"propext"
],
"SeisMIC.c179_section": [
"Classical.choice",
"Quot.sound",
"propext"
],
"SeisMIC.c179_section_time": [
"Classical.choice",
"Quot.sound",
"propext"
],
"SeisMIC.c179_time_partial": [
"Classical.choice",
"Quot.sound",
"propext"
],
"SeisMIC.c179_west_violated": [
"Classical.choice",
"Quot.sound",
"propext"
],
"SeisMIC.c17_idempotent_partial": [
"Classical.choice",
"Quot.sound",
"propext"
],
"SeisMIC.c17_idempotent_violated": [
"propext"
],
"SeisMIC.c17_what_is_stored": [
"Classical.choice",
"Quot.sound",
"propext"
],
"SeisMIC.c180_pixel": [
"Classical.choice",
"Quot.sound",
"propext"
],
"SeisMIC.c180_regular": [
"Classical.choice",
"Quot.sound",
"propext"
],
"SeisMIC.c181_frequency_gain": [
"Classical.choice",
"Quot.sound",
"propext"
],
"SeisMIC.c181_frequency_limits": [
"Classical.choice",
"Quot.sound",
"propext"
],
"SeisMIC.c181_one": [
"Classical.choice",
"Quot.sound",
"propext"
],
"SeisMIC.c181_time_gain": [
"Classical.choice",
"Quot.sound",
"propext"
],
"SeisMIC.c181_time_limits_partial": [
"Classical.choice",
"Quot.sound",
"propext"
],
"SeisMIC.c181_time_limits_violated": [
"Classical.choice",
"Quot.sound",
"propext"
],
"SeisMIC.c181_unit": [
"Classical.choice",
"Quot.sound",
"propext"
],
"SeisMIC.c181_unknown": [
"Classical.choice",
"Quot.sound",
"propext"
],
"SeisMIC.c182_again": [
"Classical.choice",
"Quot.sound",
"propext"
],
"SeisMIC.c182_default": [
"Classical.choice",
"Quot.sound",
"propext"
],
"SeisMIC.c182_failed_violated": [
"Quot.sound",
"propext"
],
"SeisMIC.c182_history": [
"Classical.choice",
"Quot.sound",
"propext"
],
"SeisMIC.c182_kept": [
"Classical.choice",
"Quot.sound",
"propext"
],
"SeisMIC.c182_others": [
"Classical.choice",
"Quot.sound",
"propext"
],
"SeisMIC.c183_extract": [
"Classical.choice",
"Quot.sound",
"propext"
],
"SeisMIC.c183_history": [
"Classical.choice",
"Quot.sound",
"propext"
],
"SeisMIC.c183_new": [
"Classical.choice",
"Quot.sound",
"propext"
],
"SeisMIC.c183_stale_violated": [
"Classical.choice",
"Quot.sound",
"propext"
],
"SeisMIC.c183_used": [
"Classical.choice",
"Quot.sound",
"propext"
],
"SeisMIC.c184_closed": [
"propext"
],
"SeisMIC.c184_crash": [
"Quot.sound",
"propext"
],
"SeisMIC.c184_emptied_violated": [
"propext"
],
"SeisMIC.c184_history": [
"Quot.sound",
"propext"
],
"SeisMIC.c184_leak_violated": [
"propext"
],
"SeisMIC.c184_others": [
"propext"
],
"SeisMIC.c184_read_back": [
"Quot.sound",
"propext"
],
"SeisMIC.c184_readonly": [
"Quot.sound",
"propext"
],
"SeisMIC.c184_refused": [
"Quot.sound",
"propext"
],
"SeisMIC.c184_silent_violated": [
"propext"
],
"SeisMIC.c186_before": [
"Classical.choice",
"Quot.sound",
"propext"
],
"SeisMIC.c186_map": [
"Classical.choice",
"Quot.sound",
"propext"
],
"SeisMIC.c186_station_violated": [
"Classical.choice",
"Quot.sound",
"propext"
],
"SeisMIC.c187_files_partial": [
"Classical.choice",
"Quot.sound",
"propext"
],
"SeisMIC.c187_files_violated": [
"Classical.choice",
"Quot.sound",
"propext"
],
"SeisMIC.c187_line_partial": [
"Classical.choice",
"Quot.sound",
"propext"
],
"SeisMIC.c187_name": [
"propext"
],
"SeisMIC.c187_visible_violated": [
"Classical.choice",
"Quot.sound",
"propext"
],
"SeisMIC.c189_again_partial": [
"Classical.choice",
"Quot.sound",
"propext"
],
"SeisMIC.c189_files_partial": [
"Classical.choice",
"Quot.sound",
"propext"
],
"SeisMIC.c189_methods_partial": [
"Classical.choice",
"Quot.sound",
"propext"
],
"SeisMIC.c189_run_partial": [
"Classical.choice",
"Quot.sound",
"propext"
],
"SeisMIC.c189_stale_violated": [
"propext"
],
"SeisMIC.c18_file_name": [
"Classical.choice",
"Quot.sound",
"propext"
],
"SeisMIC.c18_mode": [
"Classical.choice",
"Quot.sound",
"propext"
],
"SeisMIC.c190_after_plots": [
"Quot.sound",
"propext"
],
"SeisMIC.c190_distinct_starts": [
"Classical.choice",
"Quot.sound",
"propext"
],
"SeisMIC.c190_nothing_lost": [
"propext"
],
"SeisMIC.c190_rows_violated": [
"Classical.choice",
"Quot.sound",
"propext"
],
"SeisMIC.c190_same_answers": [
"Classical.choice",
"Quot.sound",
"propext"
],
"SeisMIC.c190_stack_all": [
"Classical.choice",
"Quot.sound",
"propext"
],
"SeisMIC.c190_windows": [
"Quot.sound",
"propext"
],
"SeisMIC.c191_columns": [
"Classical.choice",
"Quot.sound",
"propext"
],
"SeisMIC.c191_init": [
"propext"
],
"SeisMIC.c191_lines": [
"Classical.choice",
"Quot.sound",
"propext"
],
"SeisMIC.c191_rate_violated": [
"Classical.choice",
"Quot.sound",
"propext"
],
"SeisMIC.c191_short": [
"Classical.choice",
"Quot.sound",
"propext"
],
"SeisMIC.c191_tells": [
"Classical.choice",
"Quot.sound",
"propext"
],
"SeisMIC.c192_distribution": [
"Classical.choice",
"Quot.sound",
"propext"
],
"SeisMIC.c192_same_items": [
"Classical.choice",
"Quot.sound",
"propext"
],
"SeisMIC.c192_same_process": [
"Classical.choice",
"Quot.sound",
"propext"
],
"SeisMIC.c193_error": [
"Classical.choice",
"Quot.sound",
"propext"
],
"SeisMIC.c193_exact_partial": [
"Classical.choice",
"Quot.sound",
"propext"
],
"SeisMIC.c193_exact_violated": [
"Classical.choice",
"Quot.sound",
"propext"
],
"SeisMIC.c193_nearest": [
"Classical.choice",
"Quot.sound",
"propext"
],
"SeisMIC.c193_offset_partial": [
"Classical.choice",
"Quot.sound",
"propext"
],
"SeisMIC.c193_saved": [
"Classical.choice",
"Quot.sound",
"propext"
],
"SeisMIC.c193_saved_violated": [
"Classical.choice",
"Quot.sound",
"propext"
],
"SeisMIC.c193_whole_partial": [
"Classical.choice",
"Quot.sound",
"propext"
],
"SeisMIC.c194_index": [
"Classical.choice",
"Quot.sound",
"propext"
],
"SeisMIC.c194_mirror_partial": [
"Classical.choice",
"Quot.sound",
"propext"
],
"SeisMIC.c194_mirror_violated": [
"Classical.choice",
"Quot.sound",
"propext"
],
"SeisMIC.c194_taper_length": [
"Classical.choice",
"Quot.sound",
"propext"
],
"SeisMIC.c194_taper_partial": [
"Classical.choice",
"Quot.sound",
"propext"
],
"SeisMIC.c194_taper_violated": [
"Classical.choice",
"Quot.sound",
"propext"
],
"SeisMIC.c194_trim_partial": [
"Classical.choice",
"Quot.sound",
"propext"
],
"SeisMIC.c194_trim_violated": [
"Classical.choice",
"Quot.sound",
"propext"
],
"SeisMIC.c194_trim_whole_partial": [
"Classical.choice",
"Quot.sound",
"propext"
],
"SeisMIC.c195_decimal_violated": [
"Classical.choice",
"Quot.sound",
"propext"
],
"SeisMIC.c195_interval": [
"Classical.choice",
"Quot.sound",
"propext"
],
"SeisMIC.c195_interval_violated": [
"Classical.choice",
"Quot.sound",
"propext"
],
"SeisMIC.c195_multiple": [
"Classical.choice",
"Quot.sound",
"propext"
],
"SeisMIC.c195_only": [
"Classical.choice",
"Quot.sound",
"propext"
],
"SeisMIC.c195_whole_partial": [
"Classical.choice",
"Quot.sound",
"propext"
],
"SeisMIC.c196_decimal_violated": [
"Classical.choice",
"Quot.sound",
"propext"
],
"SeisMIC.c196_dyadic": [
"Classical.choice",
"Quot.sound",
"propext"
],
"SeisMIC.c196_error": [
"Classical.choice",
"Quot.sound",
"propext"
],
"SeisMIC.c196_whole": [
"Classical.choice",
"Quot.sound",
"propext"
],
"SeisMIC.c197_close": [
"Classical.choice",
"Quot.sound",
"propext"
],
"SeisMIC.c197_decimal_violated": [
"Classical.choice",
"Quot.sound",
"propext"
],
"SeisMIC.c197_duration_partial": [
"Classical.choice",
"Quot.sound",
"propext"
],
"SeisMIC.c197_lengths_partial": [
"Classical.choice",
"Quot.sound",
"propext"
],
"SeisMIC.c197_lost_violated": [
"Classical.choice",
"Quot.sound",
"propext"
],
"SeisMIC.c197_resampled_partial": [
"Classical.choice",
"Quot.sound",
"propext"
],
"SeisMIC.c197_resampled_violated": [
"Classical.choice",
"Quot.sound",
"propext"
],
"SeisMIC.c197_search": [
"Classical.choice",
"Quot.sound",
"propext"
],
"SeisMIC.c197_whole_partial": [
"Classical.choice",
"Quot.sound",
"propext"
],
"SeisMIC.c198_all": [
"Classical.choice",
"Quot.sound",
"propext"
],
"SeisMIC.c198_single": [
"Classical.choice",
"Quot.sound",
"propext"
],
"SeisMIC.c199_chronological": [
"Classical.choice",
"Quot.sound",
"propext"
],
"SeisMIC.c199_order": [
"Classical.choice",
"Quot.sound",
"propext"
],
"SeisMIC.c19_accepted_is_valid": [
"Classical.choice",
"Quot.sound",
"propext"
],
"SeisMIC.c19_level": [
"Classical.choice",
"Quot.sound",
"propext"
],
"SeisMIC.c19_method_and_level": [
"Classical.choice",
"Quot.sound",
"propext"
],
"SeisMIC.c19_no_level": [
"propext"
],
"SeisMIC.c19_number": [
"Classical.choice",
"Quot.sound",
"propext"
],
"SeisMIC.c19_other_rejected_violated": [
"propext"
],
"SeisMIC.c200_close": [
"Classical.choice",
"Quot.sound",
"propext"
],
"SeisMIC.c200_ends": [
"Classical.choice",
"Quot.sound",
"propext"
],
"SeisMIC.c200_increasing": [
"Classical.choice",
"Quot.sound",
"propext"
],
"SeisMIC.c200_zero_partial": [
"Classical.choice",
"Quot.sound",
"propext"
],
"SeisMIC.c200_zero_violated": [
"Classical.choice",
"Quot.sound",
"propext"
],
"SeisMIC.c201_mask": [
"Classical.choice",
"Quot.sound",
"propext"
],
"SeisMIC.c201_roll": [
"Classical.choice",
"Quot.sound",
"propext"
],
"SeisMIC.c201_taper": [
"Classical.choice",
"Quot.sound",
"propext"
],
"SeisMIC.c201_windows_partial": [
"Classical.choice",
"Quot.sound",
"propext"
],
"SeisMIC.c201_windows_violated": [
"Classical.choice",
"Quot.sound",
"propext"
],
"SeisMIC.c202_complete_partial": [
"Classical.choice",
"Quot.sound",
"propext"
],
"SeisMIC.c202_gap_violated": [
"Classical.choice",
"Quot.sound",
"propext"
],
"SeisMIC.c202_plain": [
"Classical.choice",
"Quot.sound",
"propext"
],
"SeisMIC.c202_subdiv_partial": [
"Classical.choice",
"Quot.sound",
"propext"
],
"SeisMIC.c203_correlations_partial": [
"Classical.choice",
"Quot.sound",
"propext"
],
"SeisMIC.c203_first_violated": [
"propext"
],
"SeisMIC.c203_gap_violated": [
"propext"
],
"SeisMIC.c203_late_violated": [
"propext"
],
"SeisMIC.c203_preprocessed": [
"Quot.sound",
"propext"
],
"SeisMIC.c203_processes_partial": [
"Classical.choice",
"Quot.sound",
"propext"
],
"SeisMIC.c203_samples_partial": [
"Classical.choice",
"Quot.sound",
"propext"
],
"SeisMIC.c203_windows_partial": [
"Classical.choice",
"Quot.sound",
"propext"
],
"SeisMIC.c204_assign": [
"Classical.choice",
"Quot.sound",
"propext"
],
"SeisMIC.c204_bulk_partial": [
"Classical.choice",
"Quot.sound",
"propext"
],
"SeisMIC.c204_end": [
"Classical.choice",
"Quot.sound",
"propext"
],
"SeisMIC.c204_history": [
"Classical.choice",
"Quot.sound",
"propext"
],
"SeisMIC.c204_kept": [
"Classical.choice",
"Quot.sound",
"propext"
],
"SeisMIC.c204_once": [
"Classical.choice",
"Quot.sound",
"propext"
],
"SeisMIC.c204_set_violated": [
"Classical.choice",
"Quot.sound",
"propext"
],
"SeisMIC.c205_low_violated": [
"Classical.choice",
"Quot.sound",
"propext"
],
"SeisMIC.c205_mixed_violated": [
"Classical.choice",
"Quot.sound",
"propext"
],
"SeisMIC.c205_processes_violated": [
"Classical.choice",
"Quot.sound",
"propext"
],
"SeisMIC.c205_rate_partial": [
"Classical.choice",
"Quot.sound",
"propext"
],
"SeisMIC.c206_coordinates_violated": [
"Classical.choice",
"Quot.sound",
"propext"
],
"SeisMIC.c206_history_partial": [
"Classical.choice",
"Quot.sound",
"propext"
],
"SeisMIC.c206_inventory_partial": [
"Classical.choice",
"Quot.sound",
"propext"
],
"SeisMIC.c206_once": [
"Classical.choice",
"Quot.sound",
"propext"
],
"SeisMIC.c206_rate_partial": [
"Classical.choice",
"Quot.sound",
"propext"
],
"SeisMIC.c206_rate_violated": [
"Classical.choice",
"Quot.sound",
"propext"
],
"SeisMIC.c207_between_samples_violated": [
"Classical.choice",
"Quot.sound",
"propext"
],
"SeisMIC.c207_close": [
"Classical.choice",
"Quot.sound",
"propext"
],
"SeisMIC.c207_whole_partial": [
"Classical.choice",
"Quot.sound",
"propext"
],
"SeisMIC.c208_ends_violated": [
"Classical.choice",
"Quot.sound",
"propext"
],
"SeisMIC.c208_one_violated": [
"Classical.choice",
"Quot.sound",
"propext"
],
"SeisMIC.c208_powers_partial": [
"Classical.choice",
"Quot.sound",
"propext"
],
"SeisMIC.c208_quiet_partial": [
"Classical.choice",
"Quot.sound",
"propext"
],
"SeisMIC.c208_rounding_exact_partial": [
"Classical.choice",
"Quot.sound",
"propext"
],
"SeisMIC.c208_rounding_violated": [
"Classical.choice",
"Quot.sound",
"propext"
],
"SeisMIC.c20_complete_partial": [
"Classical.choice",
"Quot.sound",
"propext"
],
"SeisMIC.c20_inner_wildcard_violated": [
"Classical.choice",
"Quot.sound",
"propext"
],
"SeisMIC.c20_levels_exact": [
"Classical.choice",
"Quot.sound",
"propext"
],
"SeisMIC.c20_options_dataset_violated": [
"propext"
],
"SeisMIC.c20_overmatch_violated": [
"Classical.choice",
"Quot.sound",
"propext"
],
"SeisMIC.c20_stored": [
"Quot.sound",
"propext"
],
"SeisMIC.c20_times_exact": [
"Classical.choice",
"Quot.sound",
"propext"
],
"SeisMIC.c210_gap_violated": [
"Classical.choice",
"Quot.sound",
"propext"
],
"SeisMIC.c210_length_partial": [
"Classical.choice",
"Quot.sound",
"propext"
],
"SeisMIC.c210_mean_partial": [
"Classical.choice",
"Quot.sound",
"propext"
],
"SeisMIC.c210_norm_violated": [
"Classical.choice",
"Quot.sound",
"propext"
],
"SeisMIC.c210_prior_violated": [
"Classical.choice",
"Quot.sound",
"propext"
],
"SeisMIC.c210_sizes_violated": [
"Classical.choice",
"Quot.sound",
"propext"
],
"SeisMIC.c211_cut_partial": [
"Classical.choice",
"Quot.sound",
"propext"
],
"SeisMIC.c211_cut_violated": [
"Classical.choice",
"Quot.sound",
"propext"
],
"SeisMIC.c211_daytime": [
"Classical.choice",
"Quot.sound",
"propext"
],
"SeisMIC.c211_disjoint_violated": [
"Classical.choice",
"Quot.sound",
"propext"
],
"SeisMIC.c211_drop": [
"Quot.sound",
"propext"
],
"SeisMIC.c211_parts_partial": [
"Classical.choice",
"Quot.sound",
"propext"
],
"SeisMIC.c211_parts_violated": [
"Classical.choice",
"Quot.sound",
"propext"
],
"SeisMIC.c211_time_partial": [
"Classical.choice",
"Quot.sound",
"propext"
],
"SeisMIC.c212_fraction_violated": [
"Classical.choice",
"Quot.sound",
"propext"
],
"SeisMIC.c212_nanoseconds_violated": [
"Classical.choice",
"Quot.sound",
"propext"
],
"SeisMIC.c212_windows_partial": [
"Classical.choice",
"Quot.sound",
"propext"
],
"SeisMIC.c213_axis_partial": [
"Classical.choice",
"Quot.sound",
"propext"
],
"SeisMIC.c213_extent_violated": [
"Classical.choice",
"Quot.sound",
"propext"
],
"SeisMIC.c213_interval_violated": [
"Classical.choice",
"Quot.sound",
"propext"
],
"SeisMIC.c213_kernels_partial": [
"Classical.choice",
"Quot.sound",
"propext"
],
"SeisMIC.c213_resolution_violated": [
"Classical.choice",
"Quot.sound",
"propext"
],
"SeisMIC.c214_channel_violated": [
"propext"
],
"SeisMIC.c214_series": [
"Quot.sound",
"propext"
],
"SeisMIC.c214_spectrum_partial": [
"Classical.choice",
"Quot.sound",
"propext"
],
"SeisMIC.c215_correct": [
"Classical.choice",
"Quot.sound",
"propext"
],
"SeisMIC.c215_processing": [
"Classical.choice",
"Quot.sound",
"propext"
],
"SeisMIC.c215_shift": [
"Classical.choice",
"Quot.sound",
"propext"
],
"SeisMIC.c215_stretch": [
"Classical.choice",
"Quot.sound",
"propext"
],
"SeisMIC.c216_axes": [
"Classical.choice",
"Quot.sound",
"propext"
],
"SeisMIC.c216_length_partial": [
"Classical.choice",
"Quot.sound",
"propext"
],
"SeisMIC.c216_length_violated": [
"Classical.choice",
"Quot.sound",
"propext"
],
"SeisMIC.c216_moved": [
"Classical.choice",
"Quot.sound",
"propext"
],
"SeisMIC.c216_time": [
"Classical.choice",
"Quot.sound",
"propext"
],
"SeisMIC.c217_superposition": [
"Classical.choice",
"Quot.sound",
"propext"
],
"SeisMIC.c217_units": [
"Classical.choice",
"Quot.sound",
"propext"
],
"SeisMIC.c218_coords_partial": [
"Classical.choice",
"Quot.sound",
"propext"
],
"SeisMIC.c218_copies": [
"Classical.choice",
"Quot.sound",
"propext"
],
"SeisMIC.c218_mem_save_partial": [
"Classical.choice",
"Quot.sound",
"propext"
],
"SeisMIC.c218_order_partial": [
"Classical.choice",
"Quot.sound",
"propext"
],
"SeisMIC.c218_order_violated": [
"Classical.choice",
"Quot.sound",
"propext"
],
"SeisMIC.c219_constant": [
"Classical.choice",
"Quot.sound",
"propext"
],
"SeisMIC.c219_linear": [
"Classical.choice",
"Quot.sound",
"propext"
],
"SeisMIC.c219_velocity": [
"Classical.choice",
"Quot.sound",
"propext"
],
"SeisMIC.c21_consistent": [
"Classical.choice",
"Quot.sound",
"propext"
],
"SeisMIC.c21_from_dictionary": [
"Classical.choice",
"Quot.sound",
"propext"
],
"SeisMIC.c21_last_lag": [
"Classical.choice",
"Quot.sound",
"propext"
],
"SeisMIC.c21_preserved": [
"Classical.choice",
"Quot.sound",
"propext"
],
"SeisMIC.c220_even_violated": [
"Classical.choice",
"Quot.sound",
"propext"
],
"SeisMIC.c220_one_violated": [
"Classical.choice",
"Quot.sound",
"propext"
],
"SeisMIC.c220_shift": [
"Classical.choice",
"Quot.sound",
"propext"
],
"SeisMIC.c220_stretch_partial": [
"Classical.choice",
"Quot.sound",
"propext"
],
"SeisMIC.c221_reference_violated": [
"Classical.choice",
"Quot.sound",
"propext"
],
"SeisMIC.c221_stretch": [
"Classical.choice",
"Quot.sound",
"propext"
],
"SeisMIC.c221_trim_partial": [
"Classical.choice",
"Quot.sound",
"propext"
],
"SeisMIC.c222_domains_partial": [
"Classical.choice",
"Quot.sound",
"propext"
],
"SeisMIC.c222_odd_violated": [
"Classical.choice",
"Quot.sound",
"propext"
],
"SeisMIC.c224_response": [
"Classical.choice",
"Quot.sound",
"propext"
],
"SeisMIC.c226_mirror": [
"Classical.choice",
"Quot.sound",
"propext"
],
"SeisMIC.c226_resample": [
"Classical.choice",
"Quot.sound",
"propext"
],
"SeisMIC.c226_smooth_partial": [
"Classical.choice",
"Quot.sound",
"propext"
],
"SeisMIC.c226_smooth_violated": [
"Classical.choice",
"Quot.sound",
"propext"
],
"SeisMIC.c227_gap_violated": [
"Classical.choice",
"Quot.sound",
"propext"
],
"SeisMIC.c227_kept_partial": [
"Classical.choice",
"Quot.sound",
"propext"
],
"SeisMIC.c227_stored": [
"Classical.choice",
"Quot.sound",
"propext"
],
"SeisMIC.c227_threshold_violated": [
"Classical.choice",
"Quot.sound",
"propext"
],
"SeisMIC.c228_none": [
"Classical.choice",
"Quot.sound",
"propext"
],
"SeisMIC.c228_refused": [
"Classical.choice",
"Quot.sound",
"propext"
],
"SeisMIC.c228_rows_partial": [
"Classical.choice",
"Quot.sound",
"propext"
],
"SeisMIC.c228_single_violated": [
"Classical.choice",
"Quot.sound",
"propext"
],
"SeisMIC.c229_each_partial": [
"Classical.choice",
"Quot.sound",
"propext"
],
"SeisMIC.c229_refused": [
"Classical.choice",
"Quot.sound",
"propext"
],
"SeisMIC.c229_two_samples_violated": [
"Classical.choice",
"Quot.sound",
"propext"
],
"SeisMIC.c229_weights_partial": [
"Classical.choice",
"Quot.sound",
"propext"
],
"SeisMIC.c229_zero": [
"Classical.choice",
"Quot.sound",
"propext"
],
"SeisMIC.c22_only_derived": [
"Classical.choice",
"Quot.sound",
"propext"
],
"SeisMIC.c22_read_only": [
"Classical.choice",
"Quot.sound",
"propext"
],
"SeisMIC.c230_empty_violated": [],
"SeisMIC.c230_span_partial": [
"Quot.sound",
"propext"
],
"SeisMIC.c230_time_shift_violated": [
"Quot.sound",
"propext"
],
"SeisMIC.c23_select_exact": [
"Classical.choice",
"Quot.sound",
"propext"
],
"SeisMIC.c24_pop_exact": [
"Quot.sound",
"propext"
],
"SeisMIC.c25_duplicates_partial": [
"Quot.sound",
"propext"
],
"SeisMIC.c25_nan_violated": [
"Classical.choice",
"Quot.sound",
"propext"
],
"SeisMIC.c25_sublist": [
"Quot.sound",
"propext"
],
"SeisMIC.c26_midnight_violated": [
"Classical.choice",
"Quot.sound",
"propext"
],
"SeisMIC.c26_nanoseconds_partial": [
"Classical.choice",
"Quot.sound",
"propext"
],
"SeisMIC.c26_partition": [
"propext"
],
"SeisMIC.c26_same_day_partial": [
"Classical.choice",
"Quot.sound",
"propext"
],
"SeisMIC.c27_daily": [
"Classical.choice",
"Quot.sound",
"propext"
],
"SeisMIC.c27_default_partial": [
"Classical.choice",
"Quot.sound",
"propext"
],
"SeisMIC.c27_default_violated": [
"Classical.choice",
"Quot.sound",
"propext"
],
"SeisMIC.c27_nanoseconds": [
"Classical.choice",
"Quot.sound",
"propext"
],
"SeisMIC.c27_slide": [
"Classical.choice",
"Quot.sound",
"propext"
],
"SeisMIC.c27_windows_partition": [
"Classical.choice",
"Quot.sound",
"propext"
],
"SeisMIC.c28_groups": [
"Classical.choice",
"Quot.sound",
"propext"
],
"SeisMIC.c28_total": [
"Classical.choice",
"Quot.sound",
"propext"
],
"SeisMIC.c29_copies": [
"Classical.choice",
"Quot.sound",
"propext"
],
"SeisMIC.c29_copies_weighted_partial": [
"Classical.choice",
"Quot.sound",
"propext"
],
"SeisMIC.c29_copies_weighted_violated": [
"Classical.choice",
"Quot.sound",
"propext"
],
"SeisMIC.c29_covers_partial": [
"Classical.choice",
"Quot.sound",
"propext"
],
"SeisMIC.c29_covers_violated": [
"Classical.choice",
"Quot.sound",
"propext"
],
"SeisMIC.c29_header": [
"Classical.choice",
"Quot.sound",
"propext"
],
"SeisMIC.c29_mean_bounded": [
"Classical.choice",
"Quot.sound",
"propext"
],
"SeisMIC.c29_normalised": [
"Classical.choice",
"Quot.sound",
"propext"
],
"SeisMIC.c29_start": [
"Classical.choice",
"Quot.sound",
"propext"
],
"SeisMIC.c29_weighted_bounded_partial": [
"Classical.choice",
"Quot.sound",
"propext"
],
"SeisMIC.c29_weighted_nan_violated": [
"Classical.choice",
"Quot.sound",
"propext"
],
"SeisMIC.c30_extra_violated": [
"Classical.choice",
"Quot.sound",
"propext"
],
"SeisMIC.c30_rejects": [
"Quot.sound",
"propext"
],
"SeisMIC.c30_round_trip_partial": [
"Classical.choice",
"Quot.sound",
"propext"
],
"SeisMIC.c30_rows": [
"Quot.sound",
"propext"
],
"SeisMIC.c31_fields": [
"propext"
],
"SeisMIC.c31_iff": [
"Quot.sound",
"propext"
],
"SeisMIC.c31_missing_coordinates_violated": [
"Quot.sound",
"propext"
],
"SeisMIC.c31_pairwise": [
"Quot.sound",
"propext"
],
"SeisMIC.c32_index_slice": [
"Quot.sound",
"propext"
],
"SeisMIC.c32_item": [
"Classical.choice",
"Quot.sound",
"propext"
],
"SeisMIC.c32_ntrcs_violated": [
"Quot.sound",
"propext"
],
"SeisMIC.c32_range_error": [],
"SeisMIC.c32_single_row_violated": [
"Quot.sound",
"propext"
],
"SeisMIC.c32_slice_partial": [
"Classical.choice",
"Quot.sound",
"propext"
],
"SeisMIC.c33_written_once": [
"Quot.sound",
"propext"
],
"SeisMIC.c34_actual": [
"Quot.sound",
"propext"
],
"SeisMIC.c34_partial": [
"Quot.sound",
"propext"
],
"SeisMIC.c34_violated": [],
"SeisMIC.c35_failure_violated": [],
"SeisMIC.c35_offset_violated": [],
"SeisMIC.c35_partial": [
"Classical.choice",
"Quot.sound",
"propext"
],
"SeisMIC.c35_short_violated": [],
"SeisMIC.c36_keeps": [
"Classical.choice",
"Quot.sound",
"propext"
],
"SeisMIC.c36_restart_violated": [
"Classical.choice",
"Quot.sound",
"propext"
],
"SeisMIC.c36_resume_partial": [
"Classical.choice",
"Quot.sound",
"propext"
],
"SeisMIC.c36_skipping": [
"Classical.choice",
"Quot.sound",
"propext"
],
"SeisMIC.c37_disjoint": [
"Classical.choice",
"Quot.sound",
"propext"
],
"SeisMIC.c38_header_partial": [
"Classical.choice",
"Quot.sound",
"propext"
],
"SeisMIC.c38_header_violated": [
"Classical.choice",
"Quot.sound",
"propext"
],
"SeisMIC.c38_outside": [
"Classical.choice",
"Quot.sound",
"propext"
],
"SeisMIC.c38_trim": [
"Classical.choice",
"Quot.sound",
"propext"
],
"SeisMIC.c39_bins": [
"Classical.choice",
"Quot.sound",
"propext"
],
"SeisMIC.c39_one_bin": [
"Classical.choice",
"Quot.sound",
"propext"
],
"SeisMIC.c40_rejects": [
"Quot.sound",
"propext"
],
"SeisMIC.c40_times": [
"Classical.choice",
"Quot.sound",
"propext"
],
"SeisMIC.c41_between_samples_violated": [
"Classical.choice",
"Quot.sound",
"propext"
],
"SeisMIC.c41_mirror": [
"Classical.choice",
"Quot.sound",
"propext"
],
"SeisMIC.c41_one_sided": [
"Classical.choice",
"Quot.sound",
"propext"
],
"SeisMIC.c42_begin_violated": [
"Classical.choice",
"Quot.sound",
"propext"
],
"SeisMIC.c42_end_violated": [
"Classical.choice",
"Quot.sound",
"propext"
],
"SeisMIC.c42_rejects": [
"Classical.choice",
"Quot.sound",
"propext"
],
"SeisMIC.c42_taper_partial": [
"Classical.choice",
"Quot.sound",
"propext"
],
"SeisMIC.c42_zero": [
"Classical.choice",
"Quot.sound",
"propext"
],
"SeisMIC.c43_choice": [
"Classical.choice",
"Quot.sound",
"propext"
],
"SeisMIC.c43_decimate_partial": [
"Classical.choice",
"Quot.sound",
"propext"
],
"SeisMIC.c43_factor": [
"Classical.choice",
"Quot.sound",
"propext"
],
"SeisMIC.c43_last_violated": [
"Classical.choice",
"Quot.sound",
"propext"
],
"SeisMIC.c44_durations": [
"Classical.choice",
"Quot.sound",
"propext"
],
"SeisMIC.c44_failure": [
"Classical.choice",
"Quot.sound",
"propext"
],
"SeisMIC.c44_header": [
"Classical.choice",
"Quot.sound",
"propext"
],
"SeisMIC.c44_terminates": [
"Classical.choice",
"Quot.sound",
"propext"
],
"SeisMIC.c45_empty_violated": [
"Classical.choice",
"Quot.sound",
"propext"
],
"SeisMIC.c45_max_violated": [
"Classical.choice",
"Quot.sound",
"propext"
],
"SeisMIC.c45_normalize_partial": [
"Classical.choice",
"Quot.sound",
"propext"
],
"SeisMIC.c45_outside": [
"Classical.choice",
"Quot.sound",
"propext"
],
"SeisMIC.c45_unknown": [
"Classical.choice",
"Quot.sound",
"propext"
],
"SeisMIC.c46_clip": [
"Classical.choice",
"Quot.sound",
"propext"
],
"SeisMIC.c46_same_level": [
"Classical.choice",
"Quot.sound",
"propext"
],
"SeisMIC.c46_second_call": [
"Classical.choice",
"Quot.sound",
"propext"
],
"SeisMIC.c46_td_clip": [
"Classical.choice",
"Quot.sound",
"propext"
],
"SeisMIC.c47_best": [
"Classical.choice",
"Quot.sound",
"propext"
],
"SeisMIC.c47_coherence": [
"Classical.choice",
"Quot.sound",
"propext"
],
"SeisMIC.c47_nan_row": [
"Classical.choice",
"Quot.sound",
"propext"
],
"SeisMIC.c47_numbers": [
"Classical.choice",
"Quot.sound",
"propext"
],
"SeisMIC.c47_single_violated": [
"Classical.choice",
"Quot.sound",
"propext"
],
"SeisMIC.c47_undefined_violated": [
"Classical.choice",
"Quot.sound",
"propext"
],
"SeisMIC.c48_creation": [
"Classical.choice",
"Quot.sound",
"propext"
],
"SeisMIC.c48_rejected": [
"Quot.sound",
"propext"
],
"SeisMIC.c48_window_partial": [
"Classical.choice",
"Quot.sound",
"propext"
],
"SeisMIC.c48_wrap_violated": [],
"SeisMIC.c49_centred": [
"Classical.choice",
"Quot.sound",
"propext"
],
"SeisMIC.c49_consistent": [
"Classical.choice",
"Quot.sound",
"propext"
],
"SeisMIC.c49_differences": [
"Classical.choice",
"Quot.sound",
"propext"
],
"SeisMIC.c50_coherence_partial": [
"Classical.choice",
"Quot.sound",
"propext"
],
"SeisMIC.c50_mean_partial": [
"Classical.choice",
"Quot.sound",
"propext"
],
"SeisMIC.c50_negative_violated": [
"Classical.choice",
"Quot.sound",
"propext"
],
"SeisMIC.c50_perfect_violated": [
"Classical.choice",
"Quot.sound",
"propext"
],
"SeisMIC.c50_weight": [
"Classical.choice",
"Quot.sound",
"propext"
],
"SeisMIC.c51_best_partial": [
"Classical.choice",
"Quot.sound",
"propext"
],
"SeisMIC.c51_best_violated": [
"Classical.choice",
"Quot.sound",
"propext"
],
"SeisMIC.c51_code_violated": [
"Classical.choice",
"Quot.sound",
"propext"
],
"SeisMIC.c51_codes": [
"Classical.choice",
"Quot.sound",
"propext"
],
"SeisMIC.c51_count": [
"Classical.choice",
"Quot.sound",
"propext"
],
"SeisMIC.c51_mean": [
"Classical.choice",
"Quot.sound",
"propext"
],
"SeisMIC.c51_methods": [
"Classical.choice",
"Quot.sound",
"propext"
],
"SeisMIC.c51_shape": [
"Classical.choice",
"Quot.sound",
"propext"
],
"SeisMIC.c51_sizes": [
"Classical.choice",
"Quot.sound",
"propext"
],
"SeisMIC.c52_equal_partial": [
"Classical.choice",
"Quot.sound",
"propext"
],
"SeisMIC.c52_first_violated": [
"Classical.choice",
"Quot.sound",
"propext"
],
"SeisMIC.c52_nan_violated": [
"Classical.choice",
"Quot.sound",
"propext"
],
"SeisMIC.c52_none_violated": [
"Classical.choice",
"Quot.sound",
"propext"
],
"SeisMIC.c53_constant": [
"Classical.choice",
"Quot.sound",
"propext"
],
"SeisMIC.c53_leak_violated": [
"Classical.choice",
"Quot.sound",
"propext"
],
"SeisMIC.c53_missing_violated": [
"Quot.sound",
"propext"
],
"SeisMIC.c53_same_time_partial": [
"Classical.choice",
"Quot.sound",
"propext"
],
"SeisMIC.c53_single_violated": [
"Classical.choice",
"Quot.sound",
"propext"
],
"SeisMIC.c53_value": [
"Classical.choice",
"Quot.sound",
"propext"
],
"SeisMIC.c53_window_partial": [
"Classical.choice",
"Quot.sound",
"propext"
],
"SeisMIC.c54_from_directory": [
"Quot.sound",
"propext"
],
"SeisMIC.c54_lists_violated": [
"Classical.choice",
"Quot.sound",
"propext"
],
"SeisMIC.c54_mixed_violated": [
"propext"
],
"SeisMIC.c54_selected_partial": [
"Classical.choice",
"Quot.sound",
"propext"
],
"SeisMIC.c54_single": [
"Classical.choice",
"Quot.sound",
"propext"
],
"SeisMIC.c55_groups_partial": [
"Classical.choice",
"Quot.sound",
"propext"
],
"SeisMIC.c55_loop_violated": [
"propext"
],
"SeisMIC.c55_path_violated": [
"propext"
],
"SeisMIC.c55_prefix_violated": [
"propext"
],
"SeisMIC.c55_selected": [
"propext"
],
"SeisMIC.c55_terminates_partial": [
"Classical.choice",
"Quot.sound",
"propext"
],
"SeisMIC.c56_aligned_violated": [
"Quot.sound",
"propext"
],
"SeisMIC.c56_all_or_nothing": [
"Quot.sound",
"propext"
],
"SeisMIC.c56_average_violated": [
"Quot.sound",
"propext"
],
"SeisMIC.c56_bulk_partial": [
"Quot.sound",
"propext"
],
"SeisMIC.c56_data_refused": [
"propext"
],
"SeisMIC.c56_dv_partial": [
"Quot.sound",
"propext"
],
"SeisMIC.c56_no_processing": [
"Quot.sound",
"propext"
],
"SeisMIC.c56_object_violated": [
"Quot.sound",
"propext"
],
"SeisMIC.c56_processing": [
"Quot.sound",
"propext"
],
"SeisMIC.c56_processing_violated": [
"Quot.sound",
"propext"
],
"SeisMIC.c56_single_violated": [
"propext"
],
"SeisMIC.c57_cache": [
"Quot.sound",
"propext"
],
"SeisMIC.c58_inversion": [
"Classical.choice",
"Quot.sound",
"propext"
],
"SeisMIC.c58_stations": [
"Classical.choice",
"Quot.sound",
"propext"
],
"SeisMIC.c59_mean_partial": [
"Classical.choice",
"Quot.sound",
"propext"
],
"SeisMIC.c59_missing_violated": [
"Classical.choice",
"Quot.sound",
"propext"
],
"SeisMIC.c59_shift": [
"Classical.choice",
"Quot.sound",
"propext"
],
"SeisMIC.c60_first": [
"Classical.choice",
"Quot.sound",
"propext"
],
"SeisMIC.c60_once": [
"Classical.choice",
"Quot.sound",
"propext"
],
"SeisMIC.c60_others": [
"Classical.choice",
"Quot.sound",
"propext"
],
"SeisMIC.c60_own_value_partial": [
"Classical.choice",
"Quot.sound",
"propext"
],
"SeisMIC.c60_shifted_violated": [
"Classical.choice",
"Quot.sound",
"propext"
],
"SeisMIC.c60_window_violated": [
"Classical.choice",
"Quot.sound",
"propext"
],
"SeisMIC.c61_array_partial": [
"Classical.choice",
"Quot.sound",
"propext"
],
"SeisMIC.c61_array_violated": [
"Classical.choice",
"Quot.sound",
"propext"
],
"SeisMIC.c61_axis": [
"Classical.choice",
"Quot.sound",
"propext"
],
"SeisMIC.c61_closest": [
"Classical.choice",
"Quot.sound",
"propext"
],
"SeisMIC.c61_closest_array": [
"Classical.choice",
"Quot.sound",
"propext"
],
"SeisMIC.c61_grid": [
"Classical.choice",
"Quot.sound",
"propext"
],
"SeisMIC.c61_north_violated": [
"Classical.choice",
"Quot.sound",
"propext"
],
"SeisMIC.c61_rejected_partial": [
"Classical.choice",
"Quot.sound",
"propext"
],
"SeisMIC.c62_none": [
"Classical.choice",
"Quot.sound",
"propext"
],
"SeisMIC.c62_succeeds": [
"Classical.choice",
"Quot.sound",
"propext"
],
"SeisMIC.c62_used": [
"Classical.choice",
"Quot.sound",
"propext"
],
"SeisMIC.c63_fresh": [
"Classical.choice",
"Quot.sound",
"propext"
],
"SeisMIC.c63_gap_violated": [
"propext"
],
"SeisMIC.c63_holes": [
"Classical.choice",
"Quot.sound",
"propext"
],
"SeisMIC.c63_last_partial": [
"Classical.choice",
"Quot.sound",
"propext"
],
"SeisMIC.c63_last_violated": [
"Classical.choice",
"Quot.sound",
"propext"
],
"SeisMIC.c63_samples_partial": [
"Classical.choice",
"Quot.sound",
"propext"
],
"SeisMIC.c63_single_violated": [
"propext"
],
"SeisMIC.c63_stored_partial": [
"Classical.choice",
"Quot.sound",
"propext"
],
"SeisMIC.c63_stream_partial": [
"Classical.choice",
"Quot.sound",
"propext"
],
"SeisMIC.c63_terminates": [
"Classical.choice",
"Quot.sound",
"propext"
],
"SeisMIC.c64_empty_violated": [
"Classical.choice",
"Quot.sound",
"propext"
],
"SeisMIC.c64_names_partial": [
"Classical.choice",
"Quot.sound",
"propext"
],
"SeisMIC.c64_names_violated": [
"propext"
],
"SeisMIC.c64_times_partial": [
"Classical.choice",
"Quot.sound",
"propext"
],
"SeisMIC.c64_unavailable": [
"Classical.choice",
"Quot.sound",
"propext"
],
"SeisMIC.c65_built_partial": [
"Classical.choice",
"Quot.sound",
"propext"
],
"SeisMIC.c65_month_violated": [
"propext"
],
"SeisMIC.c65_moved_partial": [
"Classical.choice",
"Quot.sound",
"propext"
],
"SeisMIC.c65_order_violated": [
"propext"
],
"SeisMIC.c65_unbound_violated": [
"Quot.sound",
"propext"
],
"SeisMIC.c65_year_violated": [
"Classical.choice",
"Quot.sound",
"propext"
],
"SeisMIC.c66_elements_partial": [
"Quot.sound",
"propext"
],
"SeisMIC.c66_replacement_violated": [
"Quot.sound",
"propext"
],
"SeisMIC.c66_sds": [
"Quot.sound",
"propext"
],
"SeisMIC.c66_short": [
"Quot.sound",
"propext"
],
"SeisMIC.c67_wildcards_violated": [
"Quot.sound",
"propext"
],
"SeisMIC.c68_axis_violated": [],
"SeisMIC.c68_duplicate_violated": [
"Classical.choice",
"Quot.sound",
"propext"
],
"SeisMIC.c68_first_violated": [
"Quot.sound",
"propext"
],
"SeisMIC.c68_processes_violated": [],
"SeisMIC.c68_series_partial": [
"Classical.choice",
"Quot.sound",
"propext"
],
"SeisMIC.c68_size_partial": [
"Classical.choice",
"Quot.sound",
"propext"
],
"SeisMIC.c69_local_partial": [
"Quot.sound",
"propext"
],
"SeisMIC.c69_nested_violated": [
"propext"
],
"SeisMIC.c69_source": [
"Quot.sound",
"propext"
],
"SeisMIC.c70_discard_short": [
"Classical.choice",
"Quot.sound",
"propext"
],
"SeisMIC.c71_valid_traces": [
"Classical.choice",
"Quot.sound",
"propext"
],
"SeisMIC.c72_moving_average": [
"Classical.choice",
"Quot.sound",
"propext"
],
"SeisMIC.c72_rows": [
"Classical.choice",
"Quot.sound",
"propext"
],
"SeisMIC.c73_all_masked_violated": [
"Classical.choice",
"Quot.sound",
"propext"
],
"SeisMIC.c73_between": [
"Classical.choice",
"Quot.sound",
"propext"
],
"SeisMIC.c73_interpolate_partial": [
"Classical.choice",
"Quot.sound",
"propext"
],
"SeisMIC.c74_flatten": [
"Classical.choice",
"Quot.sound",
"propext"
],
"SeisMIC.c75_stream": [
"Classical.choice",
"Quot.sound",
"propext"
],
"SeisMIC.c75_trace": [
"Classical.choice",
"Quot.sound",
"propext"
],
"SeisMIC.c76_actual": [
"Classical.choice",
"Quot.sound",
"propext"
],
"SeisMIC.c76_arguments": [
"Classical.choice",
"Quot.sound",
"propext"
],
"SeisMIC.c76_cover_violated": [
"Classical.choice",
"Quot.sound",
"propext"
],
"SeisMIC.c76_edge_violated": [
"Classical.choice",
"Quot.sound",
"propext"
],
"SeisMIC.c76_intervals": [
"Classical.choice",
"Quot.sound",
"propext"
],
"SeisMIC.c76_mask_partial": [
"Classical.choice",
"Quot.sound",
"propext"
],
"SeisMIC.c77_block_violated": [
"Classical.choice",
"Quot.sound",
"propext"
],
"SeisMIC.c77_joint_mean_partial": [
"Classical.choice",
"Quot.sound",
"propext"
],
"SeisMIC.c77_joint_partial": [
"Classical.choice",
"Quot.sound",
"propext"
],
"SeisMIC.c77_joint_rejects": [
"Classical.choice",
"Quot.sound",
"propext"
],
"SeisMIC.c77_whitening_partial": [
"Classical.choice",
"Quot.sound",
"propext"
],
"SeisMIC.c77_zero_sample": [
"Classical.choice",
"Quot.sound",
"propext"
],
"SeisMIC.c77_zero_violated": [
"Classical.choice",
"Quot.sound",
"propext"
],
"SeisMIC.c78_even_violated": [
"Classical.choice",
"Quot.sound",
"propext"
],
"SeisMIC.c78_mute_partial": [
"Classical.choice",
"Quot.sound",
"propext"
],
"SeisMIC.c78_short": [
"Classical.choice",
"Quot.sound",
"propext"
],
"SeisMIC.c78_threshold": [
"Classical.choice",
"Quot.sound",
"propext"
],
"SeisMIC.c79_integer_violated": [
"Classical.choice",
"Quot.sound",
"propext"
],
"SeisMIC.c79_masked_partial": [
"Classical.choice",
"Quot.sound",
"propext"
],
"SeisMIC.c79_masked_violated": [
"Classical.choice",
"Quot.sound",
"propext"
],
"SeisMIC.c79_stream_masked_partial": [
"Classical.choice",
"Quot.sound",
"propext"
],
"SeisMIC.c79_taper_partial": [
"Classical.choice",
"Quot.sound",
"propext"
],
"SeisMIC.c79_weights": [
"Classical.choice",
"Quot.sound",
"propext"
],
"SeisMIC.c80_available": [
"Classical.choice",
"Quot.sound",
"propext"
],
"SeisMIC.c80_rejected": [
"propext"
],
"SeisMIC.c80_single": [
"propext"
],
"SeisMIC.c81_only_requested_pairs_partial": [
"Classical.choice",
"Quot.sound",
"propext"
],
"SeisMIC.c81_only_requested_pairs_violated": [
"propext"
],
"SeisMIC.c83_combined_header": [
"Classical.choice",
"Quot.sound",
"propext"
],
"SeisMIC.c83_common_entries": [
"Classical.choice",
"Quot.sound",
"propext"
],
"SeisMIC.c83_geometry": [
"Classical.choice",
"Quot.sound",
"propext"
],
"SeisMIC.c84_component": [
"Classical.choice",
"Quot.sound",
"propext"
],
"SeisMIC.c84_component_violated": [
"Classical.choice",
"Quot.sound",
"propext"
],
"SeisMIC.c84_length": [
"Classical.choice",
"Quot.sound",
"propext"
],
"SeisMIC.c86_case_violated": [
"propext"
],
"SeisMIC.c86_own_file_partial": [
"Classical.choice",
"Quot.sound",
"propext"
],
"SeisMIC.c87_pruning": [
"Classical.choice",
"Quot.sound",
"propext"
],
"SeisMIC.c88_constant": [
"Classical.choice",
"Quot.sound",
"propext"
],
"SeisMIC.c88_sign_bit": [
"Classical.choice",
"Quot.sound",
"propext"
],
"SeisMIC.c88_std": [
"Classical.choice",
"Quot.sound",
"propext"
],
"SeisMIC.c89_combinations": [
"Classical.choice",
"Quot.sound",
"propext"
],
"SeisMIC.c89_requested": [
"Quot.sound",
"propext"
],
"SeisMIC.c89_requested_violated": [
"propext"
],
"SeisMIC.c90_all_kept": [
"propext"
],
"SeisMIC.c90_channels_violated": [
"propext"
],
"SeisMIC.c90_kept_partial": [
"Classical.choice",
"Quot.sound",
"propext"
],
"SeisMIC.c91_options_partial": [
"propext"
],
"SeisMIC.c91_options_violated": [
"Classical.choice",
"Quot.sound",
"propext"
],
"SeisMIC.c92_additions": [
"Classical.choice",
"Quot.sound",
"propext"
],
"SeisMIC.c92_channels": [
"Classical.choice",
"Quot.sound",
"propext"
],
"SeisMIC.c92_emptied_violated": [
"propext"
],
"SeisMIC.c92_history_partial": [
"Classical.choice",
"Quot.sound",
"propext"
],
"SeisMIC.c92_question_violated": [
"propext"
],
"SeisMIC.c92_times_history": [
"Classical.choice",
"Quot.sound",
"propext"
],
"SeisMIC.c92_times_partial": [
"Classical.choice",
"Quot.sound",
"propext"
],
"SeisMIC.c93_selection": [
"Classical.choice",
"Quot.sound",
"propext"
],
"SeisMIC.c94_month_partial": [
"Classical.choice",
"Quot.sound",
"propext"
],
"SeisMIC.c94_month_violated": [
"Quot.sound",
"propext"
],
"SeisMIC.c94_read_partial": [
"Classical.choice",
"Quot.sound",
"propext"
],
"SeisMIC.c94_week_violated": [
"propext"
],
"SeisMIC.c94_year_violated": [
"Classical.choice",
"Quot.sound",
"propext"
],
"SeisMIC.c95_nonneg": [
"Classical.choice",
"Quot.sound",
"propext"
],
"SeisMIC.c95_range": [
"Classical.choice",
"Quot.sound",
"propext"
],
"SeisMIC.c95_reciprocal_partial": [
"Classical.choice",
"Quot.sound",
"propext"
],
"SeisMIC.c95_reciprocal_violated": [
"Classical.choice",
"Quot.sound",
"propext"
],
"SeisMIC.c95_shape": [
"Classical.choice",
"Quot.sound",
"propext"
],
"SeisMIC.c96_computed_partial": [
"Classical.choice",
"Quot.sound",
"propext"
],
"SeisMIC.c96_lapse_violated": [
"Classical.choice",
"Quot.sound",
"propext"
],
"SeisMIC.c96_uneven": [
"Classical.choice",
"Quot.sound",
"propext"
],
"SeisMIC.c97_all_models": [
"Classical.choice",
"Quot.sound",
"propext"
],
"SeisMIC.c97_inversion": [
"Classical.choice",
"Quot.sound",
"propext"
],
"SeisMIC.c98_rejected": [
"Classical.choice",
"Quot.sound",
"propext"
],
"SeisMIC.c98_variance": [
"Classical.choice",
"Quot.sound",
"propext"
],
"SeisMIC.c99_resolution": [
"Classical.choice",
"Quot.sound",
"propext"
]
}