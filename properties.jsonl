{"id": "C01", "title": "Every work item is processed by exactly one MPI process", "statement": "When n work items (traces to read, traces to preprocess, station pairs to correlate, files to write, dv jobs) are distributed over any number of MPI processes, each item is worked on by exactly one process, and that process exists.", "quantifier": "all item counts n, all communicator sizes p >= 1, all items", "why_tests_cant": "depends on the arithmetic of every (n, p) pair; a test fixes a few", "anchors": ["src/seismic/correlate/correlate.py: Correlator._write, Correlator._generate_data, Correlator._pxcorr_matrix", "src/seismic/monitor/monitor.py: Monitor.compute_velocity_change_bulk, Monitor.compute_waveform_coherence_bulk"]}
{"id": "C02", "title": "Parallel correlation equals serial correlation", "statement": "The matrix of preprocessed spectra and the matrix of correlations assembled over all processes is the same as the one a single process computes, on every process, for every number of processes.", "quantifier": "all matrices, all per-row operations, all combination lists, all communicator sizes", "why_tests_cant": "needs every process count and every input matrix", "anchors": ["src/seismic/correlate/correlate.py: Correlator._pxcorr_matrix"]}
{"id": "C03", "title": "Load is contiguous and balanced", "statement": "Each process receives a contiguous block of the work items in order, and the numbers of items of any two processes differ by at most one.", "quantifier": "all n, all p >= 1, all pairs of processes", "why_tests_cant": "arithmetical statement over two unbounded integers", "anchors": ["src/seismic/correlate/correlate.py: Correlator._generate_data, Correlator._pxcorr_matrix, Correlator._write"]}
{"id": "C04", "title": "Combination methods select exactly the documented pairs", "statement": "For each of the five combination methods, the returned pairs are exactly those pairs of traces the documentation describes (different station or network; same station and different component; each trace with itself; every unordered pair once; every ordered pair), minus the pairs that already exist and (betweenStations) those not requested, each pair once.", "quantifier": "all streams of traces, all existing-data dictionaries, all request lists, all five methods", "why_tests_cant": "set equality over arbitrary streams", "anchors": ["src/seismic/correlate/correlate.py: calc_cross_combis, _compare_existing_data, is_in_xcombis"]}
{"id": "C05", "title": "Unknown combination method is rejected", "statement": "Any method name other than the five documented ones raises ValueError, in the trace-level and in the station-level computation, and no documented one does.", "quantifier": "all method strings", "why_tests_cant": "infinitely many strings", "anchors": ["src/seismic/correlate/correlate.py: calc_cross_combis, compute_network_station_combinations"]}
{"id": "C06", "title": "Requested station combinations are order independent", "statement": "Whether a pair of traces is in the list of requested combinations does not depend on the order in which the two traces are given, and a request naming the pair in either order (with or without channels, wildcards allowed) selects it.", "quantifier": "all pairs of trace ids, all request lists", "why_tests_cant": "all strings and patterns", "anchors": ["src/seismic/correlate/correlate.py: is_in_xcombis"]}
{"id": "C07", "title": "Existing correlations are recognised, so nothing is computed twice", "statement": "A correlation that has been written to the database under its combination name is recognised by a later run as existing and is not computed again; a correlation that is not in the database is never skipped.", "quantifier": "all pairs of traces, all databases", "why_tests_cant": "depends on the relation of all station/channel code strings to each other", "anchors": ["src/seismic/correlate/correlate.py: Correlator.find_existing_times, compute_network_station_combinations, _compare_existing_data, sort_comb_name_alphabetically"]}
{"id": "C08", "title": "Combination names are independent of argument order", "statement": "Sorting the codes of two stations gives the same combination name whichever station is passed first, keeps network, station and channel of one station together, and is idempotent.", "quantifier": "all network, station and channel code strings", "why_tests_cant": "all strings", "anchors": ["src/seismic/correlate/correlate.py: sort_comb_name_alphabetically"]}
{"id": "C09", "title": "Stored correlations can be looked up by their codes in either order", "statement": "A correlation written under the combination name that the correlator produced is found again by get_data and removed by remove_data when they are called with the codes of the two stations in either order.", "quantifier": "all code strings", "why_tests_cant": "the two modules sort by different keys; only all strings reveal a disagreement", "anchors": ["src/seismic/db/corr_hdf5.py: DBHandler.get_data, DBHandler.remove_data", "src/seismic/correlate/correlate.py: sort_comb_name_alphabetically", "src/seismic/correlate/stream.py: alphabetical_correlation"]}
{"id": "C10", "title": "Exchanging the two stations mirrors the correlation function", "statement": "The correlation trace stored for a pair of stations does not depend on which station came first: swapping the inputs and time-reversing the data gives the same header, the same samples and each sample keeps its lag time (with opposite sign under reversal).", "quantifier": "all headers, all data, all start lags and sampling rates", "why_tests_cant": "all data and headers", "anchors": ["src/seismic/correlate/stream.py: CorrTrace.__init__, alphabetical_correlation, combine_stats", "src/seismic/correlate/correlate.py: Correlator._pxcorr_inner"]}
{"id": "C11", "title": "The saved lag window is centred on zero lag", "statement": "The saved part of the correlation contains exactly the lags -s..s in increasing order, with zero lag in the middle, s being the smallest number of samples that covers lengthToSave, and the start lag in the header is the lag of the first sample.", "quantifier": "all correlation lengths, all lengthToSave, all sampling rates", "why_tests_cant": "index arithmetic over unbounded sizes", "anchors": ["src/seismic/correlate/correlate.py: Correlator._pxcorr_matrix"]}
{"id": "C12", "title": "Zero padding avoids wrap-around", "statement": "With the zero padding applied before the Fourier transform, every saved lag of the circular correlation equals the linear (non-periodic) correlation at that lag, and the inverse transform has the length of the padded trace.", "quantifier": "all pairs of traces, all lengths, all lags that are saved", "why_tests_cant": "algebraic identity for all traces", "anchors": ["src/seismic/correlate/preprocessing_td.py: zeroPadding", "src/seismic/correlate/correlate.py: Correlator._pxcorr_matrix"]}
{"id": "C13", "title": "Correlations in the database are never overwritten", "statement": "Adding correlations to a database never changes or removes a correlation that is already stored: the first one written for a tag, station pair, channel pair and time window wins, for every sequence of additions.", "quantifier": "all databases, all sequences of additions", "why_tests_cant": "history property", "anchors": ["src/seismic/db/corr_hdf5.py: DBHandler.add_correlation"]}
{"id": "C14", "title": "What was added can be read back", "statement": "After adding a correlation trace whose place in the database was free, reading with its tag, codes and time window returns exactly this trace; reading with codes or time windows that were never written raises KeyError or returns nothing.", "quantifier": "all databases, all traces", "why_tests_cant": "all histories and keys", "anchors": ["src/seismic/db/corr_hdf5.py: DBHandler.add_correlation, DBHandler.get_data"]}
{"id": "C15", "title": "Removing data removes exactly the addressed data", "statement": "remove_data without wildcards removes exactly the correlations of the given tag, codes and start time; with a wildcard in the start time it removes exactly those whose start time matches; everything else stays; wildcards in the codes are rejected.", "quantifier": "all databases, all arguments", "why_tests_cant": "all databases and patterns", "anchors": ["src/seismic/db/corr_hdf5.py: DBHandler.remove_data"]}
{"id": "C16", "title": "Mixing correlations computed with different options is refused", "statement": "Opening an existing database for writing with options that differ from the stored ones (in anything that influences the correlations) raises PermissionError unless forced; with equal options it never does; a new database stores the options.", "quantifier": "all stored and given options", "why_tests_cant": "all option dictionaries", "anchors": ["src/seismic/db/corr_hdf5.py: DBHandler.__init__, co_to_hdf5"]}
{"id": "C17", "title": "Storing options is idempotent and ignores what does not influence the correlations", "statement": "Converting options for storage twice is the same as once, so re-opening a database with the options it was created with always succeeds; masking steps and reading parameters are removed from the stored options.", "quantifier": "all option dictionaries", "why_tests_cant": "all lists of processing steps", "anchors": ["src/seismic/db/corr_hdf5.py: co_to_hdf5, DBHandler.get_corr_options, DBHandler.add_corr_options"]}
{"id": "C18", "title": "Databases opened without options are opened read-only", "statement": "Opening without correlation options and without force always opens in read mode; with options or force the requested mode is kept; the file name always ends in .h5 and an existing suffix is not doubled.", "quantifier": "all paths, modes, flags", "why_tests_cant": "all strings", "anchors": ["src/seismic/db/corr_hdf5.py: CorrelationDataBase.__init__"]}
{"id": "C19", "title": "Compression option is validated", "statement": "A compression string other than gzip with a level is rejected; the effective level is always between 1 and 9 and is the closest valid one to the requested level.", "quantifier": "all compression strings", "why_tests_cant": "all integers/strings", "anchors": ["src/seismic/db/corr_hdf5.py: DBHandler.__init__"]}
{"id": "C20", "title": "Wildcard reads return exactly the matching correlations", "statement": "Reading with wildcards returns exactly the stored correlations whose place in the hierarchy matches the pattern, each once.", "quantifier": "all databases, all patterns", "why_tests_cant": "all trees and patterns", "anchors": ["src/seismic/db/corr_hdf5.py: DBHandler.get_data, all_traces_recursive"]}
{"id": "C21", "title": "Lag and time header fields stay consistent under any sequence of assignments", "statement": "After any sequence of assignments to a correlation header, sampling_rate * delta = 1 (or both are zero), end_lag = start_lag + (npts-1)*delta, and starttime/endtime equal corr_start/corr_end.", "quantifier": "all sequences of assignments", "why_tests_cant": "history property", "anchors": ["src/seismic/correlate/stats.py: CorrStats.__setitem__"]}
{"id": "C22", "title": "Derived header fields are read only", "statement": "Assigning directly to starttime, endtime or end_lag is always refused and leaves the header unchanged.", "quantifier": "all headers and values", "why_tests_cant": "history property", "anchors": ["src/seismic/correlate/stats.py: CorrStats.readonly, CorrStats.__setitem__"]}
{"id": "C23", "title": "Selecting correlations by time is exact", "statement": "select_corr_time returns exactly the correlations whose window lies in the requested interval (or, with include_partially_selected, those that end after its start and not after its end), each as often as it is in the stream, in order of start time; correlations with equal start keep their order.", "quantifier": "all streams, all intervals", "why_tests_cant": "all multisets of windows", "anchors": ["src/seismic/correlate/stream.py: CorrStream.select_corr_time"]}
{"id": "C24", "title": "Dropping correlations at given times is exact", "statement": "pop_at_utcs removes exactly those correlations whose window strictly contains one of the given times and keeps all others in order.", "quantifier": "all streams, all lists of times", "why_tests_cant": "all lists", "anchors": ["src/seismic/correlate/stream.py: CorrStream.pop_at_utcs"]}
{"id": "C25", "title": "Removing duplicates keeps one of each", "statement": "After remove_duplicates no two correlations of the stream are equal, every correlation that was present is still present once, and no new one appears.", "quantifier": "all streams", "why_tests_cant": "all lists with arbitrary repetition", "anchors": ["src/seismic/correlate/stream.py: CorrStream.remove_duplicates"]}
{"id": "C26", "title": "Time of day selection", "statement": "select_time keeps exactly the correlations lying inside the daily time interval (or, with exclude, exactly the others); the two choices partition the stream.", "quantifier": "all streams, all times of day", "why_tests_cant": "all lists", "anchors": ["src/seismic/correlate/stream.py: CorrStream.select_time"]}
{"id": "C27", "title": "Stacking windows partition the stream", "statement": "When a stream is stacked in windows of fixed length (or days), every correlation that ends after the first start time contributes to exactly one window, and windows without data produce no stack. With the default start and end times this covers every correlation of the stream.", "quantifier": "all streams, all window lengths at least as long as one correlation", "why_tests_cant": "every configuration of windows", "anchors": ["src/seismic/correlate/stream.py: CorrStream.slide, CorrStream.stack, CorrStream.select_corr_time"]}
{"id": "C28", "title": "Stacking groups only equal codes", "statement": "A stack only combines correlations with the same network, station, channel (and location if regarded) codes; there is one stack per code, and every correlation belongs to exactly one group.", "quantifier": "all streams", "why_tests_cant": "all lists", "anchors": ["src/seismic/correlate/stream.py: stack_st_by_group, compare_tr_id"]}
{"id": "C29", "title": "A stack is bounded by and covers its members", "statement": "Each sample of a stack that is not normalised lies between the minimum and the maximum of the stacked samples that are not nan; normalisation divides it by its largest absolute value. Stacking copies of one trace gives this trace. The time window in the header of the stack covers the windows of all its members.", "quantifier": "all lists of traces", "why_tests_cant": "all lists of samples", "anchors": ["src/seismic/correlate/stream.py: stack_st"]}
{"id": "C30", "title": "Bulk and stream conversion round trip", "statement": "Converting a homogeneous stream to a matrix and back gives the same traces with the same time windows in the same order; traces of another sampling rate are left out.", "quantifier": "all streams", "why_tests_cant": "all lists", "anchors": ["src/seismic/correlate/stream.py: CorrStream.create_corr_bulk, CorrStream._to_matrix, CorrBulk.create_corr_stream, convert_statlist_to_bulk_stats"]}
{"id": "C31", "title": "Bulk headers are built only from consistent traces", "statement": "Building a bulk header succeeds iff all fields that must not vary (coordinates only where present) are equal in all traces (ValueError otherwise); varying fields become lists with one entry per trace in order.", "quantifier": "all header lists", "why_tests_cant": "all lists", "anchors": ["src/seismic/correlate/stream.py: convert_statlist_to_bulk_stats"]}
{"id": "C32", "title": "Slicing a bulk keeps data and header aligned", "statement": "Selecting a time range (or an index range, or a single index) from a bulk keeps exactly the rows in the range, the list fields of the header keep the entries of exactly these rows, and the number of traces in the header is the number of rows.", "quantifier": "all matrices and headers", "why_tests_cant": "all index patterns", "anchors": ["src/seismic/correlate/stream.py: CorrBulk.slice, CorrBulk._find_slice_index, CorrBulk.select_corr_time"]}
{"id": "C33", "title": "Every computed correlation is written exactly once", "statement": "In a complete run every correlation that was computed is handed to the writer exactly once, in order, and nothing remains in memory, for any number of read increments, windows per increment and gaps.", "quantifier": "all sequences of windows", "why_tests_cant": "all schedules", "anchors": ["src/seismic/correlate/correlate.py: Correlator.pxcorr, Correlator._generate_data"]}
{"id": "C34", "title": "Correlations are written and stacked per read increment", "statement": "The correlations handed to one write (and thus recombined into one stack of length read_len) are exactly those of one read increment.", "quantifier": "all sequences of increments and windows", "why_tests_cant": "all schedules", "anchors": ["src/seismic/correlate/correlate.py: Correlator.pxcorr, Correlator._generate_data, Correlator._write"]}
{"id": "C35", "title": "All processes pass the same number of collective calls", "statement": "For every read increment all processes loop over the same number of correlation windows, so that the collective gathers always match and the program cannot deadlock.", "quantifier": "all distributions of data over processes, all window parameters", "why_tests_cant": "schedules over all processes", "anchors": ["src/seismic/correlate/correlate.py: generate_corr_inc, Correlator._generate_data"]}
{"id": "C36", "title": "A crashed run can be resumed", "statement": "If a run is aborted at any point and started again, the set of single-window correlations in the database after the second run is the one an uninterrupted run would have produced, and nothing written before the crash was changed.", "quantifier": "all crash points", "why_tests_cant": "all crash points", "anchors": ["src/seismic/correlate/correlate.py: Correlator.pxcorr, Correlator._write, Correlator._generate_data, calc_cross_combis", "src/seismic/db/corr_hdf5.py: DBHandler.add_correlation"]}
{"id": "C37", "title": "Different processes never write to the same file", "statement": "During one write the sets of files written by two different processes are disjoint and together cover all station pairs.", "quantifier": "all streams, all communicator sizes", "why_tests_cant": "all schedules", "anchors": ["src/seismic/correlate/correlate.py: Correlator._write"]}
{"id": "C38", "title": "Trimming keeps exactly the requested lag window", "statement": "Trimming a correlation matrix to a lag window inside the trace returns exactly the samples between the sample at or before the start and the sample at or before the end, and the header describes the returned samples; a window that exceeds the trace leaves data and header unchanged.", "quantifier": "all matrices, lag windows, rates", "why_tests_cant": "floor arithmetic over all reals", "anchors": ["src/seismic/monitor/trim.py: corr_mat_trim"]}
{"id": "C39", "title": "Resampling in time averages exactly the correlations of each bin", "statement": "Each row of the resampled matrix is the NaN-ignoring mean of exactly the correlations whose start time falls into the half-open bin, and NaN if there is none; for contiguous bins every correlation inside the range contributes to exactly one bin.", "quantifier": "all matrices, start times, bins", "why_tests_cant": "all lists", "anchors": ["src/seismic/monitor/post_corr_process.py: corr_mat_resample"]}
{"id": "C40", "title": "The list of monitoring times is complete", "statement": "The start times are start, start+inc, ... for all multiples below end, the end times are exactly win_len later; non-positive increments or lengths and start >= end raise ValueError.", "quantifier": "all start, end, increments, lengths", "why_tests_cant": "all values", "anchors": ["src/seismic/monitor/monitor.py: make_time_list"]}
{"id": "C41", "title": "Mirroring averages causal and acausal sides", "statement": "Each sample of the mirrored correlation is the mean of the samples at lag +t and -t where both exist and the existing one otherwise; the header starts at lag zero and has the number of samples of the longer side.", "quantifier": "all matrices, all positions of zero lag", "why_tests_cant": "all sizes", "anchors": ["src/seismic/monitor/post_corr_process.py: corr_mat_mirror"]}
{"id": "C42", "title": "Central taper works for every admissible width", "statement": "For every width that is not negative and not longer than the trace, the central taper multiplies exactly the samples around zero lag and leaves all others unchanged; negative or too long widths raise ValueError.", "quantifier": "all widths, sizes, zero positions", "why_tests_cant": "all index configurations", "anchors": ["src/seismic/monitor/post_corr_process.py: corr_mat_taper_center"]}
{"id": "C43", "title": "Decimation keeps every factor-th sample", "statement": "Decimating by an integer factor returns samples 0, f, 2f, ... of the filtered trace and the header reports their number and the reduced rate; factors below one are rejected and factor one is the identity.", "quantifier": "all sizes and factors", "why_tests_cant": "all sizes", "anchors": ["src/seismic/monitor/post_corr_process.py: corr_mat_decimate, corr_mat_resample_or_decimate"]}
{"id": "C44", "title": "Lag resampling finds a common length or fails", "statement": "The search for a common length terminates for every pair of sampling rates; if it succeeds the padded durations before and after resampling agree exactly, otherwise TypeError is raised.", "quantifier": "all rates and lengths", "why_tests_cant": "termination for all inputs", "anchors": ["src/seismic/monitor/post_corr_process.py: corr_mat_resample_time"]}
{"id": "C45", "title": "Normalisation bounds amplitudes", "statement": "After absmax normalisation over the whole trace every row has maximum absolute value one, rows that are identically zero stay zero, and the shape of each trace is kept up to a positive factor.", "quantifier": "all matrices", "why_tests_cant": "all reals", "anchors": ["src/seismic/monitor/post_corr_process.py: corr_mat_normalize"]}
{"id": "C46", "title": "Clipping bounds amplitudes and changes nothing else", "statement": "After clipping no sample exceeds the threshold in absolute value and samples within the threshold are unchanged; clipping twice at the same level is the same as once.", "quantifier": "all data, thresholds", "why_tests_cant": "all reals", "anchors": ["src/seismic/monitor/post_corr_process.py: corr_mat_clip", "src/seismic/correlate/preprocessing_td.py: clip"]}
{"id": "C47", "title": "The reported velocity change is the best match", "statement": "The reported correlation is the maximum of the similarity over all tested stretches, the reported value is a tested stretch at which this maximum is attained, and the value is NaN exactly when the similarity is undefined; similarities are bounded by one in absolute value.", "quantifier": "all data, references, stretch vectors", "why_tests_cant": "all reals", "anchors": ["src/seismic/monitor/stretch_mod.py: velocity_change_estimate, compare_with_modified_reference"]}
{"id": "C48", "title": "Lag windows are symmetric and inside the trace", "statement": "For sides both/left/right/single the samples used are exactly the ones of the window on the requested side(s) of zero lag, mirrored around the central sample, and no sample outside the trace is used.", "quantifier": "all trace lengths, all windows", "why_tests_cant": "all index sets", "anchors": ["src/seismic/monitor/stretch_mod.py: velocity_change_estimate, compute_wfc, time_windows_creation"]}
{"id": "C49", "title": "Multi-reference alignment is consistent", "statement": "For any set of reference offsets, the linear system set up for the alignment of several references expresses exactly the pairwise differences, so consistent pairwise shifts are solved by the true offsets.", "quantifier": "all numbers of references, all offsets", "why_tests_cant": "all sizes", "anchors": ["src/seismic/monitor/stretch_mod.py: _create_G, estimate_reftr_shifts_from_dt_corr"]}
{"id": "C50", "title": "Only usable points enter the shift between references", "statement": "The shift between two velocity curves is the weighted mean of their differences with weights from the coherence; points with non-positive coherence do not contribute.", "quantifier": "all curves", "why_tests_cant": "all reals", "anchors": ["src/seismic/monitor/stretch_mod.py: est_shift_from_dt_corr"]}
{"id": "C51", "title": "Averaging components averages the similarity matrices", "statement": "The averaged similarity at each time and stretch is the NaN-ignoring mean over the usable inputs; the reported correlation is its maximum and the reported value is where the maximum is attained; averaged inputs are never averaged again; different methods raise TypeError.", "quantifier": "all lists of results", "why_tests_cant": "all reals and NaN patterns", "anchors": ["src/seismic/monitor/monitor.py: average_components"]}
{"id": "C52", "title": "Memory saving average equals the normal average", "statement": "average_components_mem_save returns the same result as average_components for the same inputs.", "quantifier": "all lists of results", "why_tests_cant": "all reals and NaN patterns", "anchors": ["src/seismic/monitor/monitor.py: average_components, average_components_mem_save"]}
{"id": "C53", "title": "Shift correction moves each time step along the stretch axis only", "statement": "Correcting the shift of a velocity curve changes, for each time, only the position on the stretch axis: the similarities of one time never enter another time.", "quantifier": "all matrices and shifts", "why_tests_cant": "all index pairs", "anchors": ["src/seismic/monitor/monitor.py: correct_dv_shift"]}
{"id": "C54", "title": "Only requested correlation files are processed", "statement": "The files selected for monitoring are exactly those of which both networks match one of the requested networks and both stations match one of the requested stations.", "quantifier": "all file lists, all requests", "why_tests_cant": "all strings and patterns", "anchors": ["src/seismic/monitor/monitor.py: corr_find_filter"]}
{"id": "C55", "title": "Component averaging terminates and only groups one station pair", "statement": "The averaging loop terminates for every directory content, considers every result file, and every average combines only results of one network and station pair that are selected by the method.", "quantifier": "all file lists, all methods", "why_tests_cant": "termination and grouping for all strings", "anchors": ["src/seismic/monitor/monitor.py: Monitor.compute_components_average"]}
{"id": "C56", "title": "Results survive saving and reading", "statement": "Saving a result to file and reading it again gives the same header values (list fields stay lists, times are exact) and data.", "quantifier": "all headers", "why_tests_cant": "all headers", "anchors": ["src/seismic/utils/miic_utils.py: save_header_to_np_array, load_header_from_np_array, convert_utc_to_timestamp, convert_timestamp_to_utcdt", "src/seismic/monitor/dv.py: DV.save, read_dv"]}
{"id": "C57", "title": "Cached kernels are transparent", "statement": "Any sequence of kernel requests on a grid returns the same kernels that a fresh computation returns, in the order of the request.", "quantifier": "all sequences of requests", "why_tests_cant": "history property", "anchors": ["src/seismic/monitor/spatial.py: DVGrid._compute_sensitivity_kernels, DVGrid._compute_dist_matrix"]}
{"id": "C58", "title": "Station coordinates are collected without duplicates", "statement": "After any sequence of inversions the grid knows exactly the coordinates of all stations used, each once.", "quantifier": "all sequences of additions", "why_tests_cant": "history property", "anchors": ["src/seismic/monitor/spatial.py: DVGrid._add_stations"]}
{"id": "C59", "title": "Alignment sets the local mean", "statement": "After aligning a curve to a value at a time, the coherence-weighted mean around this time equals the value, and all points are shifted by the same amount.", "quantifier": "all curves", "why_tests_cant": "all reals", "anchors": ["src/seismic/monitor/spatial.py: align_dv_curves"]}
{"id": "C60", "title": "Each curve is aligned with its own forward value, once", "statement": "When curves are aligned to the grid, every curve that starts at the time is shifted by the forward-modelled value of its own station pair, and curves that were aligned before are not shifted again.", "quantifier": "all lists of curves", "why_tests_cant": "all availability patterns", "anchors": ["src/seismic/monitor/spatial.py: DVGrid.align_dvs_to_grid, dv_starts, DVGrid._extract_info_dvs"]}
{"id": "C61", "title": "Coordinates outside the grid are rejected", "statement": "Looking up a coordinate returns the index of the closest grid point and raises ValueError iff the point is farther than one cell from the grid in either direction, for scalars and arrays.", "quantifier": "all grids and points", "why_tests_cant": "all reals", "anchors": ["src/seismic/monitor/spatial.py: DVGrid._find_coord"]}
{"id": "C62", "title": "Only valid data enter the inversion", "statement": "The values used for an inversion are, for each curve covering the time, the value at the closest start time; curves that do not cover the time or have an invalid value or coherence are left out; if none remains IndexError is raised.", "quantifier": "all lists of curves", "why_tests_cant": "all NaN patterns", "anchors": ["src/seismic/monitor/spatial.py: DVGrid._extract_info_dvs"]}
{"id": "C63", "title": "Downloaded data are stored completely", "statement": "Every sample of a downloaded trace is written to the file of the day it belongs to, for traces of any length and start time, and the splitting terminates.", "quantifier": "all traces", "why_tests_cant": "all start times and lengths", "anchors": ["src/seismic/trace_data/waveform.py: Store_Client._write_local_data, Store_Client._sds_write"]}
{"id": "C64", "title": "First and last available day", "statement": "The reported first/last time of a station are the start of the earliest and the end of the latest day for which a file exists; without any file the station is reported as unavailable.", "quantifier": "all directory contents", "why_tests_cant": "all lists of names", "anchors": ["src/seismic/trace_data/waveform.py: get_day_in_folder, Store_Client._get_times"]}
{"id": "C65", "title": "Adjacent files are searched in the requested direction", "statement": "When data for an interval continue in the next (previous) file, the time used to build the file name of the neighbouring file is later (earlier) by one unit of the finest time element in the structure.", "quantifier": "all times, all structures", "why_tests_cant": "all dates", "anchors": ["src/seismic/trace_data/waveform.py: _adjacent_filepattern"]}
{"id": "C66", "title": "File structure descriptors are translated as documented", "statement": "Each element of a descriptor is replaced by the documented part of the id (upper or lower case), by the time element, or left unchanged, and a replacement given in parentheses is applied.", "quantifier": "all descriptors and ids", "why_tests_cant": "all strings", "anchors": ["src/seismic/trace_data/waveform.py: _fs_translate, _current_filepattern"]}
{"id": "C67", "title": "Wildcards in single channel requests are rejected", "statement": "Requesting waveforms with a wildcard in any code is rejected.", "quantifier": "all codes", "why_tests_cant": "all strings", "anchors": ["src/seismic/trace_data/waveform.py: Store_Client.get_waveforms"]}
{"id": "C68", "title": "Spectrograms do not depend on the number of processes", "statement": "The spectrogram and its time axis are sorted in time, contain every window for which a spectrum could be computed once, and are the same for every number of processes.", "quantifier": "all data, all communicator sizes", "why_tests_cant": "all schedules", "anchors": ["src/seismic/utils/raw_analysis.py: spct_series_welch"]}
{"id": "C69", "title": "Local data are used iff they cover the request", "statement": "With time checking, local data are returned iff the archive holds data reaching from at most one sample after the requested start to at least one sample before the requested end; otherwise data are requested remotely and stored unless read-only.", "quantifier": "all archives, all requests", "why_tests_cant": "all time relations", "anchors": ["src/seismic/trace_data/waveform.py: Store_Client._load_local, Store_Client.get_waveforms, Store_Client._load_remote"]}
{"id": "C70", "title": "Discarding short traces is exact", "statement": "After discarding short traces, no trace of at most the given length remains, and all longer traces remain in order.", "quantifier": "all streams, all lengths", "why_tests_cant": "all arrangements", "anchors": ["src/seismic/utils/miic_utils.py: discard_short_traces"]}
{"id": "C71", "title": "Discarding empty traces is exact", "statement": "After discarding traces without valid samples only traces with at least one valid sample remain, and all of these remain in order.", "quantifier": "all streams", "why_tests_cant": "all arrangements", "anchors": ["src/seismic/utils/miic_utils.py: get_valid_traces"]}
{"id": "C72", "title": "Moving average uses the symmetric window", "statement": "Each output sample of the NaN-aware moving average is the mean of the non-NaN input samples within half the window length on both sides, cut at the edges; the length is unchanged.", "quantifier": "all data, window lengths", "why_tests_cant": "all lengths and NaN patterns", "anchors": ["src/seismic/utils/miic_utils.py: nan_moving_av"]}
{"id": "C73", "title": "Only short gaps are interpolated", "statement": "Gap interpolation fills exactly the masked runs that are not longer than the maximum length and lie between valid samples, by values between the neighbouring samples; all valid samples and all longer gaps are unchanged.", "quantifier": "all masked arrays, all lengths", "why_tests_cant": "all mask patterns", "anchors": ["src/seismic/utils/miic_utils.py: interpolate_gaps"]}
{"id": "C74", "title": "Nested lists are flattened completely", "statement": "Flattening any nested list returns all leaves in order and nothing else.", "quantifier": "all nested lists", "why_tests_cant": "all depths", "anchors": ["src/seismic/utils/io.py: flatten"]}
{"id": "C75", "title": "Downsampling never raises the sampling rate", "statement": "Requesting a rate above the rate of the data raises ValueError (streams: leaves the trace and warns or raises); an equal rate leaves the data unchanged; an integer ratio is decimated, any other is resampled, and the resulting rate is the requested one.", "quantifier": "all rates", "why_tests_cant": "all rate pairs", "anchors": ["src/seismic/utils/miic_utils.py: resample_or_decimate"]}
{"id": "C76", "title": "Masked time intervals are masked completely", "statement": "After masking, every sample of a trace inside one of the given intervals is masked, and every sample more than one sample away from all intervals is not (vice versa for reverse).", "quantifier": "all traces, all interval lists", "why_tests_cant": "all relations of intervals to the trace", "anchors": ["src/seismic/correlate/preprocessing_stream.py: trace_mask_at_utc, stream_mask_at_utc"]}
{"id": "C77", "title": "Whitened spectra have unit amplitude", "statement": "After spectral whitening every non-zero spectral sample except at frequency zero has amplitude one, and the zero frequency is zero.", "quantifier": "all spectra", "why_tests_cant": "all zero patterns", "anchors": ["src/seismic/correlate/preprocessing_fd.py: spectralWhitening"]}
{"id": "C78", "title": "Muting sets large amplitudes to zero and keeps the shape", "statement": "Traces not longer than the taper become zero, a zero taper length is rejected, and with extend_gaps every sample above the threshold is multiplied by zero weight.", "quantifier": "all data", "why_tests_cant": "all reals", "anchors": ["src/seismic/correlate/preprocessing_td.py: mute"]}
{"id": "C79", "title": "Tapers only touch the ends", "statement": "Tapering a trace changes at most the given number of samples on each side, never increases an amplitude, and a trace shorter than two tapers is left unchanged with a warning.", "quantifier": "all traces, taper lengths", "why_tests_cant": "all sizes", "anchors": ["src/seismic/correlate/preprocessing_stream.py: cos_taper, cos_taper_st"]}
{"id": "C80", "title": "Station requests are normalised as documented", "statement": "Every admissible combination of network and station request (strings, lists of equal length, wildcard, one network with a list) yields the documented list of network-station pairs, all others raise ValueError, and the list of available data has no duplicates.", "quantifier": "all requests", "why_tests_cant": "all lists and strings", "anchors": ["src/seismic/correlate/correlate.py: Correlator.__init__, Correlator._filter_by_rcombis"]}
{"id": "C81", "title": "Only requested pairs are computed", "statement": "If a list of requested combinations is given, every station pair that is correlated with the method betweenStations is one of the requested ones (in either order).", "quantifier": "all station lists and all lists of requested combinations", "why_tests_cant": "The comparison is a substring search over arbitrary codes; a test only sees a few codes.", "anchors": ["src/seismic/correlate/correlate.py: is_in_xcombis, calc_cross_combis, compute_network_station_combinations"]}
{"id": "C82", "title": "Normalised correlations are bounded by one", "statement": "With normalize_correlation every saved sample of a correlation has absolute value at most one, whatever processing was applied to the spectra.", "quantifier": "all spectra, lengths, start times, sampling rates and numbers of saved lags", "why_tests_cant": "An inequality over all spectra (Cauchy-Schwarz); tests see a few signals.", "anchors": ["src/seismic/correlate/correlate.py: Correlator._pxcorr_matrix"]}
{"id": "C83", "title": "The header of a correlation describes both traces", "statement": "The combined header has the intersection of both time windows, the codes of both traces joined with a dash, the given start lag, the coordinates of both stations with distance, azimuth and back azimuth, and of all other entries exactly those that are equal in both headers.", "quantifier": "all pairs of headers", "why_tests_cant": "arbitrary dictionaries and times", "anchors": ["src/seismic/correlate/stream.py: combine_stats"]}
{"id": "C84", "title": "Component access", "statement": "Setting the component of a correlation header to X-Y replaces the last letters of both channel codes and reading the component returns X-Y; anything that is not a pair of components is refused.", "quantifier": "all channel codes and all strings", "why_tests_cant": "all strings", "anchors": ["src/seismic/correlate/stats.py: CorrStats.__setitem__, CorrStats.__getitem__"]}
{"id": "C85", "title": "The normalised auto-correlation is one at zero lag", "statement": "The normalised auto-correlation of any trace with nonzero energy has the value one at zero lag.", "quantifier": "all traces", "why_tests_cant": "all real vectors", "anchors": ["src/seismic/correlate/correlate.py: Correlator._pxcorr_matrix"]}
{"id": "C86", "title": "Each correlation is written by one process to the file of its pair", "statement": "When a stream of correlations is written by any number of processes, exactly one process writes each correlation, to the file named after its networks and stations (and channels if components are separated), and no file receives a correlation of another pair.", "quantifier": "all streams of correlations, all communicator sizes, both file layouts", "why_tests_cant": "all code combinations and all process counts", "anchors": ["src/seismic/correlate/correlate.py: Correlator._write"]}
{"id": "C87", "title": "Dropping unused traces does not change what is correlated", "statement": "Removing the traces of a window that are in no combination and recomputing the combinations for the remaining ones yields the same pairs of traces in the same order as the combinations of the complete window.", "quantifier": "all windows, existing data, methods and request lists", "why_tests_cant": "index arithmetic over all windows and all sets of existing data", "anchors": ["src/seismic/correlate/correlate.py: Correlator._generate_data, calc_cross_combis"]}
{"id": "C88", "title": "One-bit and standard-deviation normalisation", "statement": "Dividing a trace by its standard deviation gives standard deviation one, and leaves constant traces unchanged. One-bit normalisation returns the sign of each sample, is idempotent and does not depend on the amplitude of the trace.", "quantifier": "all traces of real samples, all positive scale factors", "why_tests_cant": "A test checks a few traces; the statement is about every trace including constant ones and every scale.", "anchors": ["src/seismic/correlate/preprocessing_td.py: normalizeStandardDeviation, signBitNormalization"]}
{"id": "C89", "title": "Existing data are looked up for every combination of stations", "statement": "The list of station combinations, for which existing results are looked up, consists of exactly the alphabetical names of the station pairs that the method combines; with a list of requested combinations it contains every pair that is correlated.", "quantifier": "all lists of stations, methods and request lists", "why_tests_cant": "all lists and strings", "anchors": ["src/seismic/correlate/correlate.py: compute_network_station_combinations, find_existing_times"]}
{"id": "C90", "title": "Stations of requested combinations are kept", "statement": "With a list of requested combinations exactly the stations that are named in a request are read; without it, or for other methods, all stations are read.", "quantifier": "all lists of stations and requests", "why_tests_cant": "pattern matching over all strings", "anchors": ["src/seismic/correlate/correlate.py: Correlator._filter_by_rcombis"]}
{"id": "C91", "title": "The options passed by the user are not modified", "statement": "Creating a Correlator does not change the network and station options, so the same options can be used again with the same result.", "quantifier": "all options", "why_tests_cant": "depends on the history of the options object", "anchors": ["src/seismic/correlate/correlate.py: Correlator.__init__"]}
{"id": "C92", "title": "Listings show what is stored", "statement": "The listed channels of a station combination are exactly those with a stored correlation, and the start times listed for a channel are exactly those of its stored correlations, each once; wildcards in the channel are honoured.", "quantifier": "every database content and every request", "why_tests_cant": "depends on every possible content of the file and every pattern", "anchors": ["src/seismic/db/corr_hdf5.py: DBHandler.get_available_starttimes, DBHandler.get_available_channels"]}
{"id": "C93", "title": "Averages by coordinates use exactly the results inside the bounds", "statement": "average_dvs_by_coords averages exactly those velocity-change results that are not themselves averages and whose two stations both lie within all given latitude, longitude and (if given) elevation bounds; if no result qualifies it raises a ValueError instead of returning an average.", "quantifier": "for every list of results with any station coordinates and every choice of bounds", "why_tests_cant": "tests try a few coordinates and bounds; the selection must be exact for every combination of station positions and bounds", "anchors": ["src/seismic/monitor/monitor.py: average_dvs_by_coords"]}
{"id": "C94", "title": "All files of the requested interval are read", "statement": "Reading data from a described file structure ends after finitely many files; unless the data found reach the end of the request before, the file of every moment of the request is read.", "quantifier": "all structures, all intervals, all contents of the files", "why_tests_cant": "the loop over the files depends on the calendar and on the content of the files", "anchors": ["src/seismic/trace_data/waveform.py: read_from_filesystem, _adjacent_filepattern"]}
{"id": "C95", "title": "Sensitivity kernels are non-negative and reciprocal", "statement": "The sensitivity kernel of a station pair has one row for each y value and one column for each x value of the grid. All its values are non-negative, and a cell that the energy cannot reach on a path between the two stations within the lapse time has the value zero. Exchanging the two stations does not change the kernel.", "quantifier": "all grids, station positions, lapse times, velocities, mean free paths and integration steps", "why_tests_cant": "Positivity and reciprocity are statements about all positions and lapse times. Tests use a handful of grids, for which the lapse time is a multiple of the integration step.", "anchors": ["src/seismic/monitor/spatial.py::sensitivity_kernel", "src/seismic/monitor/spatial.py::probability"]}
{"id": "C96", "title": "A kernel is computed whenever energy reaches the second station", "statement": "If the lapse time is later than the arrival of the direct wave, the sensitivity kernel is computed and no error is raised, whatever the integration step.", "quantifier": "all lapse times, integration steps, station pairs and grids", "why_tests_cant": "Whether the intensity at the lapse time itself is found depends on the rounding of the lapse time to the integration axis; tests use lapse times that lie on the axis.", "anchors": ["src/seismic/monitor/spatial.py::sensitivity_kernel"]}
{"id": "C97", "title": "The inverted grid is the least-squares optimum", "statement": "For data with coherences between zero and one the inversion onto the grid always succeeds. The returned grid minimises the weighted misfit of the data plus the a-priori cost of the model, and it is the only minimum. On a grid of distinct cells this minimum is among all models.", "quantifier": "all kernels, grids, data, coherences, windows, frequency bands, correlation lengths and a-priori deviations", "why_tests_cant": "That a matrix can be inverted for every grid and that a value is the minimum among all models cannot be sampled: it needs the positive definiteness of the exponential covariance for every set of cells.", "anchors": ["src/seismic/monitor/spatial.py::DVGrid.compute_dv_grid", "src/seismic/monitor/spatial.py::compute_cm", "src/seismic/monitor/spatial.py::data_variance"]}
{"id": "C98", "title": "More coherent data get a smaller variance", "statement": "The variance of a datum is positive for coherences between zero and one and strictly decreases with the coherence. Negative or empty lapse windows and non-positive bandwidths or frequencies are rejected with a ValueError.", "quantifier": "all coherences, lapse windows, bandwidths and frequencies", "why_tests_cant": "Monotonicity is a statement about all pairs of coherences.", "anchors": ["src/seismic/monitor/spatial.py::data_variance"]}
{"id": "C99", "title": "The resolution is the image of a uniform model", "statement": "The resolution of the grid is the grid that the inversion recovers from the data that the forward model predicts for a uniform velocity change of one; it fails exactly if that inversion fails.", "quantifier": "all kernels and covariance matrices", "why_tests_cant": "An identity between two matrix expressions for all matrices.", "anchors": ["src/seismic/monitor/spatial.py::DVGrid.compute_resolution", "src/seismic/monitor/spatial.py::DVGrid.forward_model"]}
{"id": "C100", "title": "Data never increase the uncertainty", "statement": "On a grid of distinct cells the posterior covariance exists. It is positive definite and no combination of cells has a larger posterior than a-priori variance. The inverted grid is the posterior covariance times the weighted data, so both results belong to the same posterior.", "quantifier": "all kernels, grids, data, coherences, windows, frequency bands, correlation lengths and a-priori deviations", "why_tests_cant": "An inequality between covariances for all combinations of cells, and the existence of three inverses.", "anchors": ["src/seismic/monitor/spatial.py::DVGrid.compute_posterior_covariance"]}
{"id": "C101", "title": "Headers of correlations survive storage", "statement": "The header of a correlation that is written to a database is read back unchanged, including its start and end times.", "quantifier": "all headers and all times of the years 1 to 9999", "why_tests_cant": "The conversion of times to strings and back has to be right for every time; an old version of obspy fails only on one day of the year.", "anchors": ["src/seismic/db/corr_hdf5.py::convert_header_to_hdf5", "src/seismic/db/corr_hdf5.py::read_hdf5_header"]}
{"id": "C102", "title": "Names of time windows are unique and in order of time", "statement": "Correlations of different time windows get different names in the database, and the alphabetical order of the names is the order in time.", "quantifier": "all pairs of times of the years 1 to 9999", "why_tests_cant": "A statement about all pairs of times, across changes of the day, the year and leap years.", "anchors": ["src/seismic/db/corr_hdf5.py::DBHandler.add_correlation"]}
{"id": "C103", "title": "Detrending treats gaps correctly", "statement": "Detrending a stream with gaps removes the trend of each contiguous part on its own; every sample stays at its time, missing samples stay missing and the number of samples does not change.", "quantifier": "all streams, numbers, positions and lengths of gaps (also at the ends of a trace), all detrending operations that keep the length", "why_tests_cant": "Any pattern of gaps is possible; tests use a few patterns.", "anchors": ["src/seismic/correlate/preprocessing_stream.py: detrend_st"]}
{"id": "C104", "title": "Filtering a stream does not mix data across gaps", "statement": "stream_filter filters each contiguous part of each trace on its own and leaves it at its times; missing samples stay missing. Traces without any sample are dropped; the order of the other traces is kept, and each reaches from its first to its last present sample.", "quantifier": "all streams, patterns of gaps and filters that keep the length", "why_tests_cant": "Any pattern of gaps is possible; tests use a few patterns.", "anchors": ["src/seismic/correlate/preprocessing_stream.py: stream_filter"]}
{"id": "C105", "title": "Gap handling keeps samples in place", "statement": "gap_handler interpolates gaps up to the given length, removes the contiguous parts that are then not longer than retain_len, and multiplies the others by weights between 0 and 1 that are 1 away from their ends. Samples stay at their times and longer gaps stay gaps.", "quantifier": "all traces, patterns of gaps, interpolation lengths, retain lengths and taper lengths", "why_tests_cant": "The result depends on the pattern of gaps and on three lengths; tests cover few combinations.", "anchors": ["src/seismic/utils/miic_utils.py: gap_handler, interpolate_gaps, discard_short_traces", "src/seismic/correlate/preprocessing_stream.py: cos_taper_st"]}
{"id": "C106", "title": "Polarity correction changes exactly the reversed vertical traces", "statement": "correct_polarity multiplies the traces of vertical channels whose dip in the inventory is positive by -1 and changes no other trace.", "quantifier": "all streams and inventories, including inventories without an entry for some of the traces", "why_tests_cant": "Combinations of channels and of known and unknown orientations are unbounded.", "anchors": ["src/seismic/utils/miic_utils.py: correct_polarity", "src/seismic/correlate/correlate.py: preprocess_stream"]}
{"id": "C107", "title": "Reference traces represent the matrix they are extracted from", "statement": "The reference trace extracted from a correlation matrix with method mean (median) has at each lag the mean (a median) of the values there that are not NaN, and is NaN exactly where there is no value. norm_mean is the mean of the traces divided by their largest absolute value and so independent of the amplitudes of the traces. similarity_percentile averages the requested share of the traces that are most similar to the mean trace. No method depends on the order of the traces; other methods are rejected with ValueError.", "quantifier": "all matrices with NaN anywhere, all lags, all percentiles, all positive factors per trace and all orders of the traces", "why_tests_cant": "The claims are about every matrix and every permutation or rescaling of its rows; the failure of similarity_percentile (nothing is averaged if all traces are equally similar) only appears for ties.", "anchors": ["src/seismic/monitor/post_corr_process.py: corr_mat_extract_trace", "src/seismic/monitor/post_corr_process.py: corr_mat_normalize", "src/seismic/correlate/stream.py: CorrBulk.extract_trace"]}
{"id": "C108", "title": "Several reference traces cover the whole time span", "statement": "With a constant increment there is one reference trace per increment from the first start to the last end of the correlations; each is extracted from exactly the traces that touch the increment extended by half an increment on both sides, and every trace goes into at least one reference. A list of increments gives one reference per element. Increment 0 gives the single reference of the whole matrix, negative increments are rejected, a window without traces gives a reference of NaN.", "quantifier": "all start and end times, increments, lists of increments and methods", "why_tests_cant": "Number and content of the windows depend on arbitrary start times, gaps and increments; coverage is a statement about all traces at once.", "anchors": ["src/seismic/correlate/stream.py: CorrBulk.extract_multi_trace", "src/seismic/correlate/stream.py: CorrBulk._find_slice_index"]}
{"id": "C109", "title": "Smoothing of a correlation matrix is a moving weighted mean along the chosen axis", "statement": "Smoothing with a window of L samples replaces each sample by the weighted mean of the samples in the window around it, so the result stays between the smallest and largest of them, is linear in the data, and keeps constants (and, for odd L, linear trends) up to the ends of the signal. Each trace (axis 0) or each lag (axis 1) is smoothed on its own. Windows longer than the signal and unknown windows are rejected, and a rejected call leaves the data as it is.", "quantifier": "all matrices, window lengths, window types and axes", "why_tests_cant": "The claim is about every sample of every signal for all window lengths, including the samples at the ends and windows as long as the signal.", "anchors": ["src/seismic/monitor/post_corr_process.py: _smooth", "src/seismic/monitor/post_corr_process.py: corr_mat_smooth", "src/seismic/correlate/stream.py: CorrBulk.smooth"]}
{"id": "C110", "title": "Measuring a time shift reports the best tested shift", "statement": "For each trace measure_shift reports the tested shift for which the correlation coefficient with the shifted reference, averaged over the given time windows, is largest, and this coefficient. The coefficient is taken over the lags of the window (and the mirrored lags for both sides), lies between -1 and 1, and depends on no other sample of the trace. Without windows, one window with the full range of lags less the largest shift is used; without a reference, the average trace. Shifts are tested symmetrically around zero, zero included. A trace that is the reference shifted by a tested number of samples has coefficient one. Windows that reach beyond the trace, an even number of steps, unknown sides, negative windows for both sides and a reference of another length are rejected.", "quantifier": "all matrices, references (given, or the average of the traces), time windows on and off the sampling grid and the default window, shift ranges, numbers of steps and splines", "why_tests_cant": "The best shift is a maximum over all tested shifts of sums over windows, for every trace and window; index arithmetic between lags and samples must be right for all start lags.", "anchors": ["src/seismic/monitor/post_corr_process.py: measure_shift", "src/seismic/monitor/stretch_mod.py: create_shifted_ref_mat", "src/seismic/monitor/stretch_mod.py: compare_with_modified_reference", "src/seismic/correlate/stream.py: CorrBulk.measure_shift"]}
{"id": "C111", "title": "Correcting measured shifts restores the traces", "statement": "correct_shift moves each trace by the negative of its measured shift: a trace that is the reference shifted by a whole number of samples becomes the reference again as far as the trace reaches, a shift of zero leaves the trace as it is, and a trace without a measured shift becomes NaN without effect on the others. This holds for one trace as for several, for traces with gaps, and a failed correction leaves the data unchanged.", "quantifier": "all matrices, numbers of traces, shifts and gaps", "why_tests_cant": "The claim concerns every sample of every trace for all shifts, and failures after part of the traces were changed.", "anchors": ["src/seismic/monitor/post_corr_process.py: apply_shift", "src/seismic/correlate/stream.py: CorrBulk.correct_shift"]}
{"id": "C112", "title": "Copies, parts and results of a bulk are independent of it", "statement": "After CorrBulk.copy, CorrBulk.slice, bulk[a:b], create_corr_stream or a measurement, the new object has the corresponding values, and any sequence of processing methods, called in any order on the new object and on the original, gives each the values that its own calls give: what is done to one never shows in the data or header of the other.", "quantifier": "all bulks (including views of shared arrays), all interleavings of any number of processing calls on the two objects", "why_tests_cant": "Sharing of arrays and headers only shows for particular orders of particular methods; the claim concerns all interleavings.", "anchors": ["src/seismic/correlate/stream.py: CorrBulk.copy, slice, __getitem__, create_corr_stream, stretch, normalize, trim, ...", "src/seismic/monitor/post_corr_process.py", "src/seismic/monitor/trim.py: corr_mat_trim"]}
{"id": "C113", "title": "A measurement does not change what it measures", "statement": "CorrBulk.stretch, find_clock_shift and measure_shift leave data and header of the bulk as they are, whether they succeed or fail, so that the same measurement made twice compares the same lags.", "quantifier": "all matrices, sampling rates, ranges of lags and choices of sides", "why_tests_cant": "The header is changed only for some sides and ranges of lags; the claim concerns all of them and repeated calls.", "anchors": ["src/seismic/monitor/post_corr_process.py: corr_mat_stretch, corr_mat_shift, measure_shift", "src/seismic/monitor/trim.py: corr_mat_trim", "src/seismic/correlate/stream.py: CorrBulk.stretch, find_clock_shift, measure_shift"]}
{"id": "C114", "title": "The history lists all processing in order", "statement": "The header of a bulk lists the methods called on it in the order of the calls, for any sequence of calls; copies and parts of the bulk keep the list.", "quantifier": "all bulks and all sequences of processing calls", "why_tests_cant": "The claim is an invariant over all sequences of calls.", "anchors": ["src/seismic/correlate/stream.py: CorrBulk (processing_bulk), copy, slice, __getitem__"]}
{"id": "C115", "title": "Several references are combined without loss", "statement": "When velocity changes are measured with several reference traces, the similarities are aligned to a common reference before they are averaged: if the measurements with the references agree up to constant offsets, the combined value is the mean of the individual values, and the combined correlation is that of the individual measurements. Times without data have no combined value, and the result exists for any number of times.", "quantifier": "all numbers of references and times, all tested stretches, all similarity matrices that are displaced versions of one function, all displacements", "why_tests_cant": "The offsets are the solution of a weighted least squares problem in the number of references, rounded to whole steps, and the matrices are rolled cyclically; tests use one or two references with fixed offsets.", "anchors": ["src/seismic/monitor/stretch_mod.py:estimate_reftr_shifts_from_dt_corr", "src/seismic/monitor/stretch_mod.py:est_shift_from_dt_corr", "src/seismic/monitor/stretch_mod.py:multi_ref_vchange_and_align"]}
{"id": "C116", "title": "The measured stretch is the best match about zero lag", "statement": "For every trace the result of a stretch measurement is the tested stretch for which the correlation coefficient, on the lags of the time window, of the trace with the reference stretched about zero lag is largest, and that coefficient. A trace that is the reference stretched by a tested amount is given that amount, with correlation one. This holds for all sides, with and without a time window and with several time windows.", "quantifier": "all bulks, lag ranges, references, time windows, sides, ranges and numbers of tested stretches", "why_tests_cant": "The claim is about the maximum over all tested stretches for all data; tests use one synthetic trace with a fixed geometry.", "anchors": ["src/seismic/monitor/post_corr_process.py:corr_mat_stretch", "src/seismic/monitor/stretch_mod.py:time_stretch_estimate", "src/seismic/monitor/stretch_mod.py:multi_ref_vchange_and_align", "src/seismic/correlate/stream.py:CorrBulk.stretch"]}
{"id": "C117", "title": "Correcting a measured stretch undoes it", "statement": "If each trace of a bulk is a function stretched by the value given for it, correcting the bulk restores the function at all lags the trace reaches, and sets the others to zero; measuring the corrected bulk gives no stretch. A zero stretch changes nothing. Changes of another kind or with too few values are refused.", "quantifier": "all bulks with any number of traces, all lag ranges, sampling rates and values", "why_tests_cant": "The claim is an inverse law for all functions that the interpolation reproduces, all stretches and numbers of traces.", "anchors": ["src/seismic/monitor/post_corr_process.py:apply_stretch", "src/seismic/correlate/stream.py:CorrBulk.correct_stretch", "src/seismic/correlate/stream.py:CorrBulk.stretch"]}
{"id": "C118", "title": "The velocity change of a station combination uses the requested window", "statement": "The velocity change of a combination of stations is the best match of the stacked traces with the reference made of the traces corrected in a first pass (or with the given reference), on the lags from the start to the end of the requested time window, on the requested sides. Traces that do not change give no velocity change; traces that are the given reference stretched by a tested amount give this amount. Windows that end after the correlation are refused with an explanation; without a length of the window the rest of the coda is used.", "quantifier": "all numbers of traces, lag ranges, sampling rates, windows, sides, tested stretches, ways to make a reference", "why_tests_cant": "The claim is about two measurements and a correction in a row for all data, and about headers that are changed on the way; tests replace these steps by mocks.", "anchors": ["src/seismic/monitor/monitor.py:Monitor.compute_velocity_change"]}
{"id": "C119", "title": "Waveform coherence is the mean correlation with the references", "statement": "The waveform coherence of a lapse time window is, for each reference and each stacked trace, their correlation coefficient at the lags of the window on both sides of zero; times without data have none. The average for a reference is the mean over the valid traces, the mean is the mean of these averages. All are between -1 and 1, and traces that do not change in shape give one.", "quantifier": "all traces (also with missing data), references, windows, sampling rates", "why_tests_cant": "The claim is about all traces and windows; tests use a few arrays.", "anchors": ["src/seismic/monitor/wfc.py:WFC.compute_average", "src/seismic/monitor/stretch_mod.py:wfc_multi_reftr", "src/seismic/monitor/stretch_mod.py:compute_wfc", "src/seismic/correlate/stream.py:CorrBulk.wfc", "src/seismic/monitor/monitor.py:Monitor.compute_waveform_coherence"]}
{"id": "C120", "title": "Every requested band and window yields its own waveform coherence", "statement": "For a combination of stations there is one waveform coherence for each combination of a requested frequency band and a requested lapse time window that can be computed. Each is computed from the unfiltered stacked traces, independently of the other bands and windows; a failure of one does not affect the others. Single numbers and lists are accepted, with one length for all windows if it is a number; lists of different lengths are refused. A second combination of stations is treated in the same way.", "quantifier": "all numbers of bands and windows, options as numbers or lists, filters and preprocessing", "why_tests_cant": "The claim is about all lists of bands and windows and about what is left behind for the next one.", "anchors": ["src/seismic/monitor/monitor.py:Monitor.compute_waveform_coherence"]}
{"id": "C121", "title": "Waveform coherences are averaged over the components of a station combination", "statement": "After all processes have finished, there is one averaged waveform coherence for each combination of stations, band and window that occurs. It is the mean of the valid values of all components, for each reference and time, whichever process computed them and in whatever order. Different bands or windows are never mixed. A failure for one combination of stations does not affect the others.", "quantifier": "all numbers of processes, jobs, components, references, times, missing values", "why_tests_cant": "The claim is about all distributions over processes and all orders of the components.", "anchors": ["src/seismic/monitor/monitor.py:Monitor.compute_waveform_coherence_bulk", "src/seismic/monitor/monitor.py:average_components_wfc"]}
{"id": "C122", "title": "The coherence grid shows every waveform coherence at its place", "statement": "The grid of the waveform coherences against lapse time and frequency has as axes the centre frequencies and centre lapse times that occur, in increasing order. At the centres of each waveform coherence it has its mean, computed if it is not available, and nothing elsewhere.", "quantifier": "all lists of waveform coherences in any order", "why_tests_cant": "The claim is about all lists and orders.", "anchors": ["src/seismic/monitor/wfc.py:WFCBulk"]}
{"id": "C123", "title": "Detrending removes exactly the trend of every trace", "statement": "Detrending subtracts from each trace the straight line (or, for the type constant, the mean) that fits its available samples best: the result has mean zero and no linear trend, lines added to the input have no effect, doing it twice is the same as once, missing samples stay missing and the available samples are still processed. Both methods give the same result. Unknown methods and types are refused, and the argument is not changed.", "quantifier": "all matrices of traces of at least two samples with or without missing samples, all arguments", "why_tests_cant": "The claim is about all traces, gaps and trends, and about optimality among all lines.", "anchors": ["src/seismic/correlate/preprocessing_td.py:detrend", "src/seismic/correlate/preprocessing_td.py:detrendqr", "src/seismic/correlate/preprocessing_td.py:detrend_scipy", "src/seismic/correlate/preprocessing_td.py:demean"]}
{"id": "C124", "title": "Running normalisation in time makes the amplitude uniform and keeps the signs", "statement": "Time normalisation divides each trace by the root of its power, smoothed with a moving window. The result does not depend on the amplitude of the trace, has the same signs as the trace, is finite for every finite trace and any positive window length, and without a filter no sample exceeds the number of samples in the window. Windows without length are refused.", "quantifier": "all matrices of traces, sampling rates, window lengths and (linear) filters", "why_tests_cant": "The claim is about all traces, all scale factors and all windows.", "anchors": ["src/seismic/correlate/preprocessing_td.py:TDnormalization"]}
{"id": "C125", "title": "One-bit normalisation in the frequency domain gives the spectra of the signs", "statement": "Sign bit normalisation of spectra returns the spectra of the signs of the samples of the traces. It does not depend on amplitudes and a second application changes nothing.", "quantifier": "all traces of any length, all positive factors", "why_tests_cant": "The claim is about all traces and all lengths, even and odd.", "anchors": ["src/seismic/correlate/preprocessing_fd.py:FDsignBitNormalization"]}
{"id": "C126", "title": "The frequency domain filter passes the pass band and stops outside of the corners", "statement": "Filtering spectra multiplies each coefficient with a weight from zero to one that depends on its frequency only: one between the inner corner frequencies, zero at and outside of the outer corner frequencies.", "quantifier": "all spectra, increasing frequencies and ordered corner frequencies", "why_tests_cant": "The claim is about all grids of frequencies and all corners, including those that are between or outside of the frequencies.", "anchors": ["src/seismic/correlate/preprocessing_fd.py:FDfilter"]}
{"id": "C127", "title": "Tapering correlations changes their ends only", "statement": "Tapering multiplies all correlations with the same weights between zero and one: one at all samples that are farther than the given width from both ends, rising monotonically from zero within the width. A width of zero changes nothing; widths of more than half of the correlation and negative ones are refused. NaN stay NaN.", "quantifier": "all matrices of correlations, sampling rates, numbers of samples and widths", "why_tests_cant": "The claim is about every width, also widths that are no multiple of the sampling interval, and every number of samples.", "anchors": ["src/seismic/monitor/post_corr_process.py:corr_mat_taper"]}
{"id": "C128", "title": "The correction of the decay removes the exponential that fits best", "statement": "Correcting the decay divides all correlations by the same function A exp(K |lag|) that fits the logarithm of their mean envelope best. A decay that is exactly exponential is removed exactly, and the result does not depend on the amplitude of the correlations.", "quantifier": "all matrices of correlations, lag axes and positive factors", "why_tests_cant": "The claim that a fit is the best one is about all other lines, and the claims hold for all correlations and lag axes.", "anchors": ["src/seismic/monitor/post_corr_process.py:corr_mat_correct_decay"]}
{"id": "C129", "title": "Filtering correlations shifts nothing in time", "statement": "The filter of correlations is a linear zero phase filter: it acts on all correlations alike, what lag i gets from an impulse at lag k is what lag k gets from an impulse at lag i, no frequency changes its sign, correlations that are symmetric in lag stay symmetric, and missing samples do not destroy the others. Anything but two frequencies is refused.", "quantifier": "all matrices of correlations, all recursive filters (in particular all bands and orders)", "why_tests_cant": "The claim is about all filters and all correlations; a test sees a few impulses.", "anchors": ["src/seismic/monitor/post_corr_process.py:corr_mat_filter"]}
{"id": "C130", "title": "The envelope bounds the correlation and is the amplitude of an oscillation", "statement": "The envelope of a correlation has the same shape, is at least its absolute value at each lag, is multiplied by |c| if the correlation is multiplied by c, and equals the amplitude, at all lags, for an oscillation with a whole number of periods. Missing samples stay local.", "quantifier": "all matrices of correlations of any length, all frequencies below the Nyquist frequency, amplitudes, phases and factors", "why_tests_cant": "The claim is about every length, even and odd, every frequency and every phase.", "anchors": ["src/seismic/monitor/post_corr_process.py:corr_mat_envelope"]}
{"id": "C131", "title": "The clock shift is the tested delay with the best correlation", "statement": "For each correlation, the measured clock shift is the first tested delay at which its correlation coefficient with the delayed reference on the time window is largest, the coefficient is returned with it, a trace that is a delayed reference gets exactly its delay, and correcting the measured shift removes it.", "quantifier": "all matrices of correlations, references, time windows, sides, ranges and numbers of tested shifts", "why_tests_cant": "The claim is a maximum over all tested shifts for every trace; tests use one synthetic delay on two sides.", "anchors": ["src/seismic/correlate/stream.py:CorrBulk.find_clock_shift", "src/seismic/monitor/post_corr_process.py:corr_mat_shift", "src/seismic/monitor/stretch_mod.py:time_shift_estimate"]}
{"id": "C132", "title": "Applying shifts moves samples by exactly the shift", "statement": "After applying a shift of v samples to a trace, sample k is the value of the trace at k - v, linearly interpolated and zero outside of the trace; each trace (and, with a matrix of shifts, each sample) has its own shift; shifts that do not fit are refused; applying the estimated shift removes it.", "quantifier": "all matrices of traces and all vectors or matrices of shifts, whole or fractional, of either sign", "why_tests_cant": "The claim is about every sample and every real shift, including those at the edges of the trace.", "anchors": ["src/seismic/monitor/stretch_mod.py:time_shift_apply"]}
{"id": "C133", "title": "Applying a stretch evaluates the trace at stretched lags", "statement": "Applying stretches evaluates each trace at its lags times the exponential of its stretch, so that the stretch that was measured for a trace can be removed from it; the traces of the caller are not changed; stretches that do not fit are refused.", "quantifier": "all matrices of traces, all stretches, with one or two sides", "why_tests_cant": "The claim is about every stretch and every trace; a test compares a few samples of one trace with a tolerance.", "anchors": ["src/seismic/monitor/stretch_mod.py:time_stretch_apply"]}
{"id": "C134", "title": "Smoothing a similarity matrix averages times and finds the best stretch again", "statement": "Smoothing replaces each similarity by the mean of the similarities of the same stretch in the window around its time, without missing ones and those below the threshold; afterwards correlation and value of each time are the largest smoothed similarity and its stretch, and a time without similarities has neither.", "quantifier": "all similarity matrices with any pattern of missing values, window lengths and thresholds", "why_tests_cant": "Which values are missing or excluded, and the signs of the similarities, decide which branch of the maximum search is right.", "anchors": ["src/seismic/monitor/dv.py:DV.smooth_sim_mat", "src/seismic/utils/miic_utils.py:nan_moving_av"]}
{"id": "C135", "title": "A distance limit selects exactly the pairs of near stations", "statement": "Limiting the distance between stations requests exactly the combinations of stations of the list whose distance is at most the limit; remote inventories are asked for at most once per station and only if no local inventory file has the station; exactly the traces of such pairs are correlated and their existing correlations are recognised; an interrupted search can be repeated; methods other than betweenStations and combinations that were requested before are refused.", "quantifier": "all station lists, positions, distance functions, inventory files, answers of the remote service and limits", "why_tests_cant": "The claim is about every geometry and every set of codes; a test has a few stations whose codes do not collide.", "anchors": ["src/seismic/correlate/correlate.py:Correlator.find_interstat_dist", "src/seismic/trace_data/waveform.py:Store_Client.select_inventory_or_load_remote", "src/seismic/trace_data/waveform.py:Store_Client._write_inventory", "src/seismic/trace_data/waveform.py:Store_Client.read_inventory", "src/seismic/utils/miic_utils.py:filter_stat_dist", "src/seismic/utils/miic_utils.py:inv_calc_az_baz_dist"]}
{"id": "C136", "title": "The spectra of a spectrogram cover the requested period once", "statement": "The periods that are read follow each other without gap or overlap from the start and contain each requested time once; the windows of the spectrogram follow each other from the start to the end whatever the reading increment is; an increment shorter than the window is refused.", "quantifier": "all starts, ends, window lengths and reading increments", "why_tests_cant": "Increments that are no multiple of the window length or do not divide the period lose or add windows; a test uses increments that fit.", "anchors": ["src/seismic/trace_data/waveform.py:Store_Client._generate_time_windows", "src/seismic/trace_data/waveform.py:Store_Client.compute_spectrogram"]}
{"id": "C137", "title": "Stitching velocity change curves shifts each to its corrected predecessor", "statement": "Correcting several curves leaves the earliest curves and those without values as they are, and shifts each other curve once, against the already shifted first curve of the latest time before its own, or leaves it if that shift can not be measured; the number and order of the curves stay; the correction never fails for curves with values, and with a correction that always fails nothing changes.", "quantifier": "all lists of curves in any order, with equal times and missing values, and any overlap", "why_tests_cant": "The order in which curves are shifted depends on all their times; a test has two or three curves in order.", "anchors": ["src/seismic/monitor/monitor.py:correct_time_shift_several", "src/seismic/monitor/monitor.py:correct_dv_shift"]}
{"id": "C138", "title": "Grid inversions depend on the call only, and keep the object consistent", "statement": "A velocity change grid answers each request (inversion, resolution, posterior covariance, truncated inversion) as a new grid would, whatever was requested before. An inversion with resolution gives the resolution a separate request gives. A failed request leaves the stored velocity changes and resolution unchanged. The order of the curves does not matter, and arguments that are given are used.", "quantifier": "all grids, histories of requests (successful or not), arguments, times and lists of curves", "why_tests_cant": "The grid object keeps kernels, stations and results between requests; independence of all histories cannot be sampled.", "anchors": ["src/seismic/monitor/spatial.py:DVGrid.compute_dv_grid", "src/seismic/monitor/spatial.py:DVGrid.compute_resolution", "src/seismic/monitor/spatial.py:DVGrid.compute_posterior_covariance", "src/seismic/monitor/spatial.py:DVGrid.compute_dv_tsvd"]}
{"id": "C139", "title": "The truncated inversion returns the smallest least squares model", "statement": "The model returned by the truncated singular value inversion fits the velocity changes at the requested time, with the kernels without singular values below the cutoff, at least as well as any other model, and is the smallest of all models that fit as well. The neglected part changes the predictions by at most the cutoff, data of a model are reproduced if nothing is neglected, and the result depends neither on the decomposition found nor on the order of the curves.", "quantifier": "all grids, kernels, cutoffs, histories, data and competing models", "why_tests_cant": "Optimality compares the result with every other model, and singular value decompositions are not unique.", "anchors": ["src/seismic/monitor/spatial.py:DVGrid.compute_dv_tsvd"]}
{"id": "C140", "title": "Waveform coherences survive saving and reading", "statement": "A waveform coherence that is saved and read again has the same coherences for each reference trace, the same averages and mean, the same lapse window and frequency band and the same header. A path with a wildcard is read as the list of all matching files. A header whose field names collide with the names of other parts of the file is refused. A file that lacks the mean, the window or the band is refused.", "quantifier": "all coherences with any number of reference traces, with and without averages, all headers and all directories", "why_tests_cant": "The parts of a file are told apart by the names of its arrays only, and headers can hold any fields.", "anchors": ["src/seismic/monitor/wfc.py:WFC.save", "src/seismic/monitor/wfc.py:read_wfc"]}
{"id": "C141", "title": "A period is read completely from the file system", "statement": "Reading a period from an archive of files described by a file structure returns, for every channel the requested id matches, one trace with exactly the samples of the period that the archive contains, whatever the files they are in. It always terminates and fails only if the archive cannot be read.", "quantifier": "all archives with hourly, daily or other equally long files, any number of traces per file and gaps, all ids, all periods, trimmed or not", "why_tests_cant": "Which files are opened depends on the data found so far and on the position of the period relative to the borders of the files.", "anchors": ["src/seismic/trace_data/waveform.py:read_from_filesystem", "src/seismic/trace_data/waveform.py:_read_filepattern", "src/seismic/trace_data/waveform.py:FS_Client.get_waveforms"]}
{"id": "C142", "title": "Mass downloads complete the archive without touching it", "statement": "A mass download puts every available sample of the requested channels and period into the file of its channel and day. Each channel and day has its own file, which is the one that is read later. Existing files are never changed, a repeated download changes nothing, and a client that is read only does not extend the archive.", "quantifier": "all channels, periods, archives and histories of downloads", "why_tests_cant": "The result depends on the history of the archive and on the position of the period relative to the days.", "anchors": ["src/seismic/trace_data/waveform.py:Store_Client.download_waveforms_mdl", "src/seismic/trace_data/waveform.py:Store_Client._get_mseed_storage"]}
{"id": "C143", "title": "Gaps and masked samples enter the correlations as zeros", "statement": "Each time window is turned into a matrix with one row per trace. A valid sample stands at the place of its time, every sample that is missing, masked or NaN counts as zero, and no sample is cut off.", "quantifier": "all streams of traces with any gaps and masks, all windows, all masked intervals", "why_tests_cant": "What is stored beneath a mask depends on how it was made; the patterns of gaps and masks are unbounded.", "anchors": ["src/seismic/correlate/correlate.py: st_to_np_array, Correlator._pxcorr_inner, Correlator._pxcorr_matrix", "src/seismic/correlate/preprocessing_stream.py: trace_mask_at_utc, stream_filter"]}
{"id": "C144", "title": "Preprocessing applies every step once and keeps samples at their times", "statement": "Preprocessing a stream removes the instrument response exactly once from each trace (fetching a missing response from the server), applies the steps of the parameter file in their order, drops contiguous parts shorter than a twentieth of the correlation length, leaves all other samples at their times and returns one trace per channel that reaches exactly from start to end of the requested window.", "quantifier": "all streams with any gaps, all lists of steps, all inventories and answers of the server", "why_tests_cant": "The result depends on the pattern of gaps, the state of the inventory and the list of steps, all unbounded.", "anchors": ["src/seismic/correlate/correlate.py: preprocess_stream", "src/seismic/trace_data/waveform.py: Store_Client._write_inventory", "src/seismic/utils/miic_utils.py: discard_short_traces"]}
{"id": "C145", "title": "Velocity changes are computed for every channel combination, by any number of processes", "statement": "With any number of processes and any order of execution, the bulk computation saves the result of each channel combination in the selected correlation files in its own file. A failing combination does not influence the others, and no other file is changed.", "quantifier": "all directories of correlation files and their contents, all numbers of processes, all interleavings, all patterns of failures", "why_tests_cant": "schedules of several processes and all patterns of failures", "anchors": ["src/seismic/monitor/monitor.py: Monitor.compute_velocity_change_bulk, Monitor._find_available_corrs, corr_find_filter", "src/seismic/db/corr_hdf5.py: DBHandler.get_available_channels"]}
{"id": "C146", "title": "Station information that was obtained once stays available", "statement": "Once a client for the archive knows a channel of a station, because it requested the station or because it downloaded data of this channel, the channel is known from then on: to the same client, after read_inventory, and to every client that is opened on the same archive later. Known stations are not requested again, and a client that is opened for reading only writes nothing.", "quantifier": "all sequences of calls (selecting stations, downloading data of channels, reading the inventory, opening new clients), all holdings of the server", "why_tests_cant": "Information is lost by particular orders of requests across several clients; the claim concerns all histories.", "anchors": ["src/seismic/trace_data/waveform.py: Store_Client.__init__, read_inventory, select_inventory_or_load_remote, _load_remote, _write_inventory"]}
{"id": "C147", "title": "Header and matrix of a bulk fit together after any processing", "statement": "After any sequence of calls of the methods of a CorrBulk, the header describes the matrix: there is one start and end time and one entry of every varying code per row, the number of traces is that of the rows, every row has as many samples as the header says and the lag axis ends with the last sample. Methods that change samples or lags leave the description of the rows alone, and the bulk can be converted to a stream with the same rows.", "quantifier": "all bulks, all sequences of method calls with any arguments, including those that fail", "why_tests_cant": "The claim is an invariant over all sequences of calls.", "anchors": ["src/seismic/correlate/stream.py: CorrBulk (normalize, clip, correct_decay, correct_stretch, correct_shift, envelope, filter, mirror, resample, resample_time_axis, smooth, taper, taper_center, trim, slice, __getitem__, select_corr_time, create_corr_stream)", "src/seismic/monitor/post_corr_process.py"]}
{"id": "C148", "title": "The intensity used for sensitivity kernels conserves the energy of the source", "statement": "The probability density that the kernels are built from (`probability`) describes how the energy of a unit source spreads in the plane. At every time after the excitation, its integral over the plane is the energy of the source, one: the scattered part carries 1 - exp(-v t / l) and the direct wave exp(-v t / l), whatever unit of length is used.", "quantifier": "all source positions, times, velocities, mean free paths and widths of the wave front", "why_tests_cant": "It is a statement about an integral over the plane for a continuum of parameters; a test evaluates the density at some points.", "anchors": ["src/seismic/monitor/spatial.py:probability", "src/seismic/monitor/spatial.py:compute_grid_dist"]}
{"id": "C149", "title": "Parallel processes find the directories they write to, and do not disturb each other", "statement": "In a parallel run one process creates the directories for logs and results. In whatever order the processes proceed, no process tries to write into a directory that does not exist yet, so that no result is lost; no file is written by two processes; and no process waits forever for another one.", "quantifier": "all numbers of processes, all interleavings of their steps, all results to be written and any state of the file system before", "why_tests_cant": "Races show up only in some of the exponentially many interleavings; a test sees one of them.", "anchors": ["src/seismic/correlate/correlate.py: Correlator.__init__", "src/seismic/monitor/monitor.py: Monitor.__init__, Monitor.compute_velocity_change_bulk, Monitor.compute_waveform_coherence, Monitor.compute_waveform_coherence_bulk"]}
{"id": "C150", "title": "The options of every run are recorded", "statement": "When a correlator or a monitor is created, a file in the directory of the logs records the options that were passed, with times written as text, and nothing else is changed. This works for all options that the computation accepts, and each run keeps its record.", "quantifier": "all nested options, all times they contain, all earlier records", "why_tests_cant": "Options are trees of any shape, with times at any place; a test records a few of them.", "anchors": ["src/seismic/correlate/correlate.py: Correlator.__init__", "src/seismic/monitor/monitor.py: Monitor.__init__"]}
{"id": "C151", "title": "Velocity changes are read with wildcards completely", "statement": "Reading velocity changes with a pattern returns the results of exactly the files that match it; damaged files are skipped, and if none is readable this is reported as a missing file. A path without wildcards returns the result in this file.", "quantifier": "all directories, file names, contents and patterns", "why_tests_cant": "Directories and patterns are unbounded and damaged files come in many kinds.", "anchors": ["src/seismic/monitor/dv.py: read_dv"]}
{"id": "C152", "title": "A shift correction compares the times the two curves share", "statement": "Correcting the shift between two velocity change curves compares all times from the first to the last time at which both are measured, widened by the requested overlap. Curves that do not overlap are compared around the gap if the gap is not larger than the permitted overlap, and refused with a ValueError otherwise. With curves that are constant there, the method median moves the first curve by exactly their difference; an unknown method never gives a result; nothing but the similarity matrix and the values changes.", "quantifier": "all curves, time axes, patterns of gaps, overlaps and methods", "why_tests_cant": "The window depends on where both curves have gaps; tests use a handful of patterns.", "anchors": ["src/seismic/monitor/monitor.py: correct_dv_shift"]}
{"id": "C153", "title": "The number of processes has no influence on whitened correlations", "statement": "A processing chain with spectral whitening gives the same correlations for every number of processes, namely those of the computation trace by trace.", "quantifier": "all matrices of traces, numbers of processes and pairs", "why_tests_cant": "Traces are distributed over processes; the result must not depend on which traces share a process, and tests run on one process.", "anchors": ["src/seismic/correlate/correlate.py: Correlator._pxcorr_matrix", "src/seismic/correlate/preprocessing_fd.py: spectralWhitening"]}
{"id": "C154", "title": "The gain of the instruments does not influence normalised correlations", "statement": "For every chain of processing steps in the time and frequency domain, multiplying every trace with its own positive factor leaves all normalised correlations as they are; a reversed polarity of a trace changes the sign of its correlations and nothing else.", "quantifier": "all chains of steps and their arguments, matrices of traces, gains and pairs of traces", "why_tests_cant": "It is a statement about all sequences of steps and all data; tests run single steps on a few traces.", "anchors": ["src/seismic/correlate/correlate.py: Correlator._pxcorr_matrix", "src/seismic/correlate/preprocessing_td.py", "src/seismic/correlate/preprocessing_fd.py"]}
{"id": "C155", "title": "The amplitudes of correlations do not influence what is measured", "statement": "Velocity changes, time shifts and waveform coherences that are measured with a reference stay the same if each trace and the reference are multiplied with positive factors of their own; those that are measured with the mean of the traces stay the same if all traces are multiplied with a common positive factor.", "quantifier": "all matrices of traces, references, factors, time windows, sides, ranges and numbers of tested values", "why_tests_cant": "It is a relation between the results for all pairs of matrices that differ in amplitudes; tests compare single outputs.", "anchors": ["src/seismic/monitor/stretch_mod.py: time_stretch_estimate, velocity_change_estimate, compute_wfc, create_shifted_ref_mat, compare_with_modified_reference", "src/seismic/correlate/stream.py: CorrBulk.stretch, CorrBulk.measure_shift"]}
{"id": "C156", "title": "Adding correlations does not change what was measured before", "statement": "What is measured with given references in a matrix of traces is, for any split of the matrix into two parts, what is measured in the first part followed by what is measured in the second one.", "quantifier": "all matrices of traces and their splits, references, time windows, sides, ranges and numbers of tested values", "why_tests_cant": "All splits of all matrices must agree; tests measure one matrix.", "anchors": ["src/seismic/monitor/stretch_mod.py: time_stretch_estimate, velocity_change_estimate, compute_wfc, estimate_reftr_shifts_from_dt_corr", "src/seismic/correlate/stream.py: CorrBulk.stretch, CorrBulk.measure_shift"]}
{"id": "C157", "title": "The database does not depend on the number and speed of the processes", "statement": "Take correlations whose codes contain no dots and wildcards and differ in more than upper and lower case. After a run, every entry of every file is what was there before, otherwise the first correlation (or stack) that was computed for that file and place, whatever the number of processes and the order in which they act. If all processes are killed at any moment, every entry then in the database is the one of the complete run.", "quantifier": "all read increments and windows, numbers of processes, orders of the actions of the processes, moments of a kill, file layouts and options for stacks", "why_tests_cant": "The actions of the processes can interleave in arbitrarily many ways; a test sees one of them, on one process.", "anchors": ["src/seismic/correlate/correlate.py: Correlator.pxcorr, Correlator._pxcorr_inner, Correlator._pxcorr_matrix, Correlator._write", "src/seismic/db/corr_hdf5.py: DBHandler.add_correlation"]}
{"id": "C158", "title": "The order of the two stations does not influence the measured velocity change", "statement": "Exchanging the stations of a pair mirrors its correlations. For correlations whose lags are centred about zero and a time window inside them, velocity change, correlation and waveform coherence of the mirrored traces with the mirrored reference (or without a given reference) are those of the original ones; a measurement on the left side becomes one on the right side and vice versa.", "quantifier": "all matrices of correlations with centred lags, references, windows inside the trace, sides, ranges and numbers of tested values, and all interpolations that commute with mirroring", "why_tests_cant": "It is a relation between the results for all data and those for their mirror images.", "anchors": ["src/seismic/monitor/stretch_mod.py: time_stretch_estimate, velocity_change_estimate, compute_wfc", "src/seismic/monitor/post_corr_process.py: corr_mat_stretch"]}
{"id": "C159", "title": "The order in which data arrive has no influence", "statement": "The pairs of traces that are correlated in a window and their order do not depend on the number of processes that read the traces, nor, if no two traces have the same network, station and channel, on the order of the traces. The content of the database does not depend on the order in which correlations for different places are added.", "quantifier": "all permutations of the traces of a window and of the correlations, all numbers of processes, combination methods, requests and existing data", "why_tests_cant": "There are n! orders of n traces.", "anchors": ["src/seismic/correlate/correlate.py: Correlator._generate_data, calc_cross_combis", "src/seismic/db/corr_hdf5.py: DBHandler.add_correlation"]}
{"id": "C160", "title": "A run over stations with codes of equal length can always be resumed, and repeating it computes nothing", "statement": "If all network codes have the same length and all station codes have the same length (and no code contains a separator or a pattern character), looking up the existing correlations at the start of a run never fails, for every combination method. A run that was killed any number of times at any point can therefore be started again and leaves exactly what an uninterrupted run leaves. If all pairs are requested, a further run over the same windows, or some of them, finds everything and computes nothing.", "quantifier": "every list of stations with such codes, every combination method, every directory of correlations of these stations, every list of windows, every sequence of kills at any point", "why_tests_cant": "the number of stations, the moment of every kill and the content of the directory are unbounded; a test checks one crash point and one station list", "anchors": ["src/seismic/correlate/correlate.py:Correlator.find_existing_times", "src/seismic/correlate/correlate.py:Correlator._generate_data", "src/seismic/correlate/correlate.py:calc_cross_combis", "src/seismic/correlate/correlate.py:_compare_existing_data", "src/seismic/correlate/correlate.py:compute_network_station_combinations", "src/seismic/db/corr_hdf5.py:DBHandler.get_available_starttimes"]}
{"id": "C161", "title": "Repeating a processing step changes nothing", "statement": "Applying one of the following steps a second time, with the same arguments, to its own result returns that result unchanged, header included: mirroring a bulk; trimming it to lags whose first is a sample of it; resampling it in time to bins that do not overlap; resampling its lag axis to a frequency other than zero; cutting out a period in which not exactly one correlation is left; normalising by energy, mean or largest amplitude in a window; one-bit normalisation; normalisation by the standard deviation; removing the mean (also with gaps) or the linear trend (without gaps); whitening; and, for streams, selecting correlations or times, dropping the correlations of given times, removing duplicates, traces that are too short, and traces without data.", "quantifier": "all bulks, matrices, spectra and streams, and all arguments of the steps within the conditions named in the statement", "why_tests_cant": "a test repeats a step for one matrix and one choice of arguments; rerunning a notebook cell applies it to any data and any arguments, with gaps, empty windows and rows of zeros", "anchors": ["src/seismic/correlate/stream.py: CorrBulk.mirror, CorrBulk.trim, CorrBulk.resample, CorrBulk.resample_time_axis, CorrBulk.slice, CorrStream.select_corr_time, CorrStream.pop_at_utcs, CorrStream.remove_duplicates", "src/seismic/monitor/post_corr_process.py: corr_mat_normalize, corr_mat_mirror, corr_mat_trim, corr_mat_resample", "src/seismic/correlate/preprocessing_td.py: signBitNormalization, normalizeStandardDeviation, detrend", "src/seismic/correlate/preprocessing_fd.py: spectralWhitening", "src/seismic/utils/miic_utils.py: discard_short_traces, get_valid_traces"]}
{"id": "C162", "title": "Every correlation of a bulk is processed and measured on its own", "statement": "Trimming, mirroring, decimating and resampling the lag axis, normalising, clipping row by row, tapering at the ends or in the centre, filtering, taking the envelope, smoothing over the lags, applying a stretch or shift to each correlation, and measuring stretch, clock shift or coherence against a given reference treat each correlation as if the bulk had no other one: if the step succeeds, row i of the result (and the header) is what the step returns for row i alone. So does any sequence of such steps. The same holds for muting, running normalisation, clipping, one-bit and standard-deviation normalisation of the waveforms.", "quantifier": "all bulks and matrices with any number of correlations, all rows, all arguments, and all sequences of the steps", "why_tests_cant": "a test processes one matrix; that no other row has an influence is a statement about all matrices that contain the row, and about all sequences of steps", "anchors": ["src/seismic/correlate/stream.py: CorrBulk", "src/seismic/monitor/post_corr_process.py: corr_mat_normalize, corr_mat_clip, corr_mat_taper, corr_mat_taper_center, corr_mat_filter, corr_mat_envelope, corr_mat_smooth, corr_mat_mirror, corr_mat_decimate, corr_mat_resample_time, corr_mat_stretch, corr_mat_shift", "src/seismic/monitor/trim.py: corr_mat_trim", "src/seismic/monitor/stretch_mod.py: velocity_change_estimate, compute_wfc, time_stretch_apply, time_shift_apply", "src/seismic/correlate/preprocessing_td.py: mute, TDnormalization, clip, signBitNormalization, normalizeStandardDeviation"]}
{"id": "C163", "title": "Results do not depend on the time at which the data were recorded", "statement": "Take the same correlations, with all times later by the same delay, and give every call arguments that are later by that delay. Then selecting correlations by time, removing those that contain given times, removing duplicates, sliding windows, stacking, converting between streams and bulks, any sequence of calls on a bulk, the list of monitoring times and the shift correction of two curves give exactly the same samples, and the same headers with times that are later by the delay. Calls that look at the time of day, which are daily stacks and the selection by time of day, do so for delays of whole days. So a result for one year and the result for the same data with the dates of another year agree.", "quantifier": "all streams, bulks, sequences of calls, arguments and delays (of whole days for calls that look at the time of day)", "why_tests_cant": "Tests use a few fixed dates, mostly the epoch. That no comparison of absolute times with a constant, and no truncation of times, influences a result must hold for all dates.", "anchors": ["src/seismic/correlate/stream.py:CorrStream.select_corr_time", "src/seismic/correlate/stream.py:CorrStream.stack", "src/seismic/correlate/stream.py:CorrStream.slide", "src/seismic/correlate/stream.py:CorrStream.pop_at_utcs", "src/seismic/correlate/stream.py:CorrBulk.slice", "src/seismic/monitor/post_corr_process.py:corr_mat_resample", "src/seismic/monitor/monitor.py:make_time_list", "src/seismic/monitor/monitor.py:correct_dv_shift"]}
{"id": "C164", "title": "Adding stations does not change the correlations of the others", "statement": "A run with additional stations (or channels) computes, for the stations that were there before, exactly the same pairs in the same order, stores them at the same places, and obtains the same correlation functions and first lags. In particular what is computed for two stations among many is what a run with only these two stations computes.", "quantifier": "all windows, sets of traces, combination methods, requested combinations, existing data, and chains of processing steps", "why_tests_cant": "Tests correlate a fixed small set of stations. Independence of the other stations must hold for all sets of stations and all their data.", "anchors": ["src/seismic/correlate/correlate.py:Correlator._pxcorr_matrix", "src/seismic/correlate/correlate.py:calc_cross_combis", "src/seismic/correlate/correlate.py:Correlator._generate_data", "src/seismic/correlate/correlate.py:preprocess_stream", "src/seismic/correlate/preprocessing_fd.py:spectralWhitening"]}
{"id": "C165", "title": "Correlations in files of the predecessor are imported with their samples, lags and times", "statement": "Reading a single correlation from the dictionary of a file of the predecessor miic yields every sample at the lag that the file gives for it; if the codes of the two stations are not in alphabetical order, the stations are exchanged and all lags have the opposite sign. The correlation covers the time that both seismograms cover, and an empty location is shown as '-'. Reading a matrix yields the rows unchanged, the times in their order, the codes, the sampling rate and the lags of the file, and parts of the matrix have the times of their rows. Each correlation of the matrix can be accessed, and has its start and its end.", "quantifier": "all files, i.e. all nestings of the fields, codes, sampling rates, lags, times and samples", "why_tests_cant": "The repository has no test for the import, and a test file has one order of the stations, one nesting and one sampling rate.", "anchors": ["src/seismic/utils/io.py: flatten_recarray, mat_to_corrtrace, corrmat_to_corrbulk", "src/seismic/correlate/stream.py: CorrTrace.__init__, alphabetical_correlation, CorrBulk.__init__, CorrBulk.__getitem__"]}
{"id": "C166", "title": "Processing functions are found by their full names", "statement": "The name of a processing step denotes the function after the last dot in the module before the last dot, wherever this module is; no other name yields a function, and a function that the module lacks is an AttributeError.", "quantifier": "all names and all sets of importable modules", "why_tests_cant": "Tests try a few names of functions of the standard library; users may pass functions of any package at any depth.", "anchors": ["src/seismic/utils/fetch_func_from_str.py: func_from_str"]}
{"id": "C167", "title": "Traces of the same channel are recognised by their codes", "statement": "If the codes contain no dots, two traces are equal for compare_tr_id iff network, station and channel code agree, and, if the location is regarded, the location code.", "quantifier": "all codes without dots, with and without regarding the location", "why_tests_cant": "The comparison joins the codes to one string; that no two different lists of codes yield the same string cannot be seen from examples.", "anchors": ["src/seismic/correlate/stream.py: compare_tr_id"]}
{"id": "C168", "title": "Reversed polarity of sensors does not influence what is measured", "statement": "If sensors have other gains, some of them with reversed polarity, during the whole time, the velocity changes that are measured for every pair of stations, and their correlations, stay the same (provided that no processing step depends on absolute amplitudes and that the correlations are normalised). Given correlations whose signs are all reversed together with the reference, velocity changes, time shifts and coherences stay the same as well.", "quantifier": "all gains of either sign, windows, seismograms, chains of processing steps, pairs, references, and parameters of the measurement", "why_tests_cant": "Tests measure a few synthetic traces with one polarity. That no processing step and no measurement depends on the sign must hold for all data and chains.", "anchors": ["src/seismic/correlate/correlate.py: Correlator._pxcorr_matrix", "src/seismic/monitor/stretch_mod.py: velocity_change, time_stretch_estimate, compute_wfc", "src/seismic/monitor/post_corr_process.py: measure_shift", "src/seismic/correlate/stream.py: CorrBulk.stretch"]}
{"id": "C169", "title": "Averaging in time and linear processing of the lag axis can be done in either order", "statement": "For a bulk whose correlations either have no nan or are missing as a whole: mirroring, trimming to a range of lags, resampling or decimating the lag axis, and any other linear function of each single correlation can be called before or after the averaging over time windows (resample). One order raises an exception if and only if the other does, and if not both yield the same samples and the same header. (With single missing samples, or for functions that are not linear, such as absolute values, the order does matter.)", "quantifier": "all bulks with a positive sampling rate whose correlations are free of nan or entirely nan, all windows, all four kinds of calls and all their arguments, all linear filters", "why_tests_cant": "The equality has to hold for every matrix, every set of windows (empty, with one or many correlations, overlapping) and every choice of arguments; a test compares a few matrices up to a tolerance.", "anchors": ["src/seismic/monitor/post_corr_process.py:corr_mat_resample", "src/seismic/monitor/post_corr_process.py:corr_mat_mirror", "src/seismic/monitor/post_corr_process.py:corr_mat_resample_or_decimate", "src/seismic/monitor/trim.py:corr_mat_trim", "src/seismic/correlate/stream.py:CorrBulk"]}
{"id": "C170", "title": "A period can be correlated in parts", "statement": "For stations whose network codes have equal length, and whose station codes do: if a period is divided at multiples of the read increment, runs over the parts, one after another, raise no exception and leave exactly the correlations that one run over the whole period leaves (tag subdivision, preprocess_subdiv off). The runs may also be done in any order, overlap and be repeated, as long as together they read at the same times and no two pairs of traces claim the same place with different correlations. (A boundary that is not a multiple of the increment leads to other correlations.)", "quantifier": "all periods, read increments and divisions into parts, all data and methods of combination, all directories with correlations of these stations", "why_tests_cant": "The result must be the same for every division, every order of the runs and every data set; each run decides by the files of all previous ones what is left to do.", "anchors": ["src/seismic/correlate/correlate.py:Correlator._generate_data", "src/seismic/correlate/correlate.py:Correlator.pxcorr", "src/seismic/correlate/correlate.py:Correlator.find_existing_times", "src/seismic/db/corr_hdf5.py:DBHandler.add_correlation"]}
{"id": "C171", "title": "Times without data do not influence the other times", "statement": "The reference trace that is extracted from a correlation matrix by any of the four methods (mean, median, normalised mean, similarity percentile) is the same whether the rows of time windows without data, which resampling fills with nan, are there or not. If a velocity change can be measured for a combination of stations with at least two correlation traces, it can be measured with any number of time windows without data before, between and after them: every trace gets the same correlation and the same value as without them, and the others get nan. (With a single trace the program without gaps fails, see C118.)", "quantifier": "every matrix, every placing of any number of rows without data, every reference method that ignores such rows (the four methods do), every spline, option, custom reference", "why_tests_cant": "A test has one pattern of gaps; gaps enter at the reference, the measurement, the correction of the stretch and the second reference, for each of which a particular pattern of gaps and values can matter.", "anchors": ["src/seismic/monitor/monitor.py: Monitor.compute_velocity_change", "src/seismic/monitor/post_corr_process.py: corr_mat_extract_trace, corr_mat_stretch, apply_stretch, corr_mat_resample", "src/seismic/monitor/stretch_mod.py: velocity_change_estimate"]}
{"id": "C172", "title": "Filling of missing values by the documented recipe", "statement": "With the mask and the index function of nan_helper and linear interpolation, as its documentation shows, every number of an array stays as it is; every missing value between two numbers is put on the straight line between the nearest ones; missing values before the first number become the first number, those after the last one the last number. Without any number it is a ValueError.", "quantifier": "every array with missing values in any pattern", "why_tests_cant": "Tests try a few patterns; runs at the borders, several runs and single numbers between runs are handled by the same positions and must be right for every pattern.", "anchors": ["src/seismic/utils/miic_utils.py: nan_helper"]}
{"id": "C173", "title": "Trimming by durations removes exactly the samples of these durations", "statement": "Trimming a trace by the duration of a samples at the start and b samples at the end leaves exactly the other samples, with the time of the first sample adapted, if there are more than a + b samples, and is a ValueError otherwise. In a stream this happens to every trace according to its own times.", "quantifier": "every trace, sampling rate, numbers of samples at both ends; every stream of traces with the same sampling rate", "why_tests_cant": "The end is measured from the end of the untrimmed trace while the trace is already cut at its start; one-sample errors at either end show only for particular lengths.", "anchors": ["src/seismic/utils/miic_utils.py: trim_trace_delta, trim_stream_delta"]}
{"id": "C174", "title": "Rounding to halves", "statement": "The function yields a multiple of one half, and no multiple of one half is nearer to the argument. It does not change multiples of one half, and a smaller argument never has a larger result.", "quantifier": "every number", "why_tests_cant": "Ties and negative numbers follow Python's rounding to even; tests have a few numbers only.", "anchors": ["src/seismic/utils/roundhalf.py: roundhalf"]}
{"id": "C175", "title": "Figures of velocity changes show the measurements", "statement": "A figure of a velocity change in the style `publication` shows exactly one point for each time that has a similarity: at the start time of this measurement, at minus its value in percent, in the colour of its own similarity. The time axis goes from the first to the last point unless limits are given; only if there is no similarity at all there is an error instead of a figure. The style `technical` shows minus the value and the similarity of every time at its own start time.", "quantifier": "every velocity change with any number of times and any pattern of missing values", "why_tests_cant": "Tests of figures check single pictures; a shift by one between times, values and colours shows only for certain patterns of missing values.", "anchors": ["src/seismic/plot/plot_dv.py:plot_fancy_dv", "src/seismic/plot/plot_dv.py:plot_technical_dv", "src/seismic/monitor/dv.py:DV.plot"]}
{"id": "C176", "title": "The similarity matrix in a figure lies below its measurements", "statement": "In the first panel of the style `technical` the similarity of a time with a value of the stretch axis is drawn as a pixel that contains the point that a measurement of this value has. Normalising the matrix for the figure makes the largest similarity of each time 1 and does not change the order of the similarities of a time. The latter holds only for times whose largest similarity is positive and which have no missing similarity.", "quantifier": "every symmetric equidistant axis of at least two values, every matrix, every time and every value of the axis", "why_tests_cant": "The axes of image and points are set by different code with opposite signs; single pictures cannot show that they agree for every number of values.", "anchors": ["src/seismic/plot/plot_dv.py:plot_technical_dv"]}
{"id": "C177", "title": "Saving figures does not destroy files", "statement": "Saving a figure of a velocity change changes only the file that it writes, the search for a free name ends for every content of the directory, and with the default name no existing figure is replaced. The latter holds only for the first figure: all figures from the second on have the same name.", "quantifier": "every content of the directory, every name, every sequence of saved figures", "why_tests_cant": "The loss needs three figures in one directory, i.e. a history.", "anchors": ["src/seismic/plot/plot_dv.py:plot_technical_dv"]}
{"id": "C178", "title": "A figure of several velocity changes has one curve for each file", "statement": "`plot_multiple_dv` draws one curve for each file of the directory that matches one of the filters: minus the value (or its modulus) at each start time; the median curve is at each time the median of the values shown for this time. Damaged files are skipped. This holds only if all files can be read, no file matches two filters, and all files have the same times.", "quantifier": "every directory, every list of filters, every content of the files", "why_tests_cant": "It depends on which files are damaged, on their order in the directory and on the overlap of filters.", "anchors": ["src/seismic/plot/plot_multidv.py:plot_multiple_dv"]}
{"id": "C179", "title": "Figures of correlations show each correlation at its lags", "statement": "Figures of a correlation stream over time and over distance have one row or line for each correlation, in the order of time or distance, with its own data; a sample is drawn at its lag, with the opposite sign for distance plots if the azimuth is 180 degrees or more. The coloured figures do so only if all correlations have the same lags, and for distances only if these are symmetric. The stream of the user is only reordered.", "quantifier": "every stream, every number of samples, every lag axis", "why_tests_cant": "The lags of a single trace are used for all rows and rows are reversed instead of the axis, which is visible only for particular combinations of lag axes.", "anchors": ["src/seismic/plot/plot_correlation.py:plot_cst", "src/seismic/plot/plot_correlation.py:heat_plot_corr_start", "src/seismic/plot/plot_correlation.py:heat_plot_corr_dist", "src/seismic/plot/plot_correlation.py:sect_plot_dist"]}
{"id": "C180", "title": "The image of a correlation matrix has the right axes", "statement": "`CorrBulk.plot` draws a matrix if and only if the start times of its rows have a constant distance, otherwise it raises an exception. In the image each value lies in a pixel that contains the start time of its row and the lag of its column.", "quantifier": "every matrix with any number of rows and columns, every list of start times", "why_tests_cant": "Images have no axis for each row; whether rows and times agree for every size is a statement about all sizes.", "anchors": ["src/seismic/plot/plot_correlation.py:plot_corr_bulk"]}
{"id": "C181", "title": "Figures of spectra do not depend on units and gains", "statement": "A figure of a spectral time series shows values between 0 and 1, of which one is 1. It does not depend on the unit of the spectra; with the normalisation of times it does not depend on gains of the times, and with the normalisation of frequencies not on gains of the frequencies, for the methods `linalg`, `mean` and `median`; other methods are errors. With limits all frequencies and times between the limits are shown. For times this holds except for the last one.", "quantifier": "every complete spectral matrix of any size, all positive gains, all limits", "why_tests_cant": "Invariance under all gains is a statement about all inputs.", "anchors": ["src/seismic/plot/plot_spectrum.py:plot_spct_series"]}
{"id": "C182", "title": "Data of traces that were put into a matrix", "statement": "create_corr_bulk deletes the data of the traces it uses unless inplace=False is given. Whatever calls were made before, on this or other streams that share the traces, with any selection and also if they failed: each CorrBulk that is returned holds the original data of the selected traces, never other or missing data; no header and no remaining data of a trace are changed. With inplace=False the stream stays as it is; the default gives the same result, and exactly the traces in the matrix lose their data. Traces that are not selected are never touched. The same call again is an AttributeError. (Violated: a call that fails should leave the stream as it is, but the data are lost.)", "quantifier": "all sets of traces, streams that share them, selections and histories of calls including failing ones", "why_tests_cant": "histories of calls on shared objects and the point at which a call fails are unbounded", "anchors": ["src/seismic/correlate/stream.py:CorrStream.create_corr_bulk", "src/seismic/correlate/stream.py:CorrStream.select_corr_time"]}
{"id": "C183", "title": "Reference trace that a matrix remembers", "statement": "Whatever is called on any matrices: the reference that a CorrBulk remembers (ref_trc) is the one that extract_trace or extract_multi_trace returned last for it, or for the matrix it was copied from; a failing extraction changes nothing, slices, parts and selections remember none. stretch and find_clock_shift use the given reference, else the remembered one, else one from the present data; measure_shift never uses the remembered one; a given reference is not remembered. (Violated: the documentation of stretch says that a reference is extracted if none is given; after a processing of the matrix the old one is used, also if it does not fit.)", "quantifier": "all sessions with any number of matrices and any calls on them", "why_tests_cant": "the histories of calls are unbounded", "anchors": ["src/seismic/correlate/stream.py:CorrBulk.extract_trace", "src/seismic/correlate/stream.py:CorrBulk.extract_multi_trace", "src/seismic/correlate/stream.py:CorrBulk.stretch", "src/seismic/correlate/stream.py:CorrBulk.find_clock_shift", "src/seismic/correlate/stream.py:CorrBulk.measure_shift"]}
{"id": "C184", "title": "Blocks that open a correlation file close it and lose nothing", "statement": "A block `with CorrelationDataBase(...) as cdb:` that has been entered closes its file however it ends, passes on the exception that ended it, and leaves in the file exactly what was written before the exception. No other file is touched. Without correlation options no block changes any file, whichever mode is asked for. A block refused because of other options changes no file. Through any history of blocks that neither remove nor open in mode 'w', every stored correlation and the options of the file stay as they are and can be read back.", "quantifier": "all disks, all paths, modes, compressions and options, all sequences of statements in a block, all points at which an exception occurs, and all histories of blocks", "why_tests_cant": "A test runs a few blocks; the claim is about every sequence of statements, every point of failure and every history of blocks on any number of files.", "anchors": ["src/seismic/db/corr_hdf5.py:CorrelationDataBase.__init__", "src/seismic/db/corr_hdf5.py:CorrelationDataBase.__enter__", "src/seismic/db/corr_hdf5.py:CorrelationDataBase.__exit__", "src/seismic/db/corr_hdf5.py:DBHandler.__init__", "src/seismic/db/corr_hdf5.py:DBHandler.add_corr_options"]}
{"id": "C185", "title": "A delayed signal is found at its delay", "statement": "If the second of two recordings is the first one, D seconds later and multiplied by a positive factor, and the whole signal is inside both windows, then the saved correlation (normalised or not) has its only largest value at the lag D that the header gives; for a negative factor it has its only smallest value there. In particular a signal that reaches the second station later is found at a positive lag.", "quantifier": "all signals that are not zero, of any length and with any values, all factors, start times and delays of whole samples, all lengths of the saved lags, with and without normalisation and centring", "why_tests_cant": "Tests correlate a few fixed signals; which sample is the largest depends on all samples, and the sign of the lag on the conventions of several functions.", "anchors": ["src/seismic/correlate/correlate.py:Correlator._pxcorr_matrix", "src/seismic/correlate/preprocessing_td.py:zeroPadding", "src/seismic/correlate/correlate.py:calc_cross_combis"]}
{"id": "C186", "title": "The map of a grid shows each grid point at its place", "statement": "The map of the velocity changes on a grid shows the change of each grid point in percent (positive for a faster medium) in a pixel that contains this grid point, with north at the top and east on the right. Before an inversion there is an exception instead of a map. The mark of a station should lie on the pixel of the grid cell that the station belongs to; this is not the case for all stations, because the pixels are smaller than the cells.", "quantifier": "all extents and resolutions of the grid, all values, all grid points", "why_tests_cant": "Tests of figures compare pixels of single examples; the deviation depends on the position and on the size of the grid.", "anchors": ["src/seismic/monitor/spatial.py:DVGrid.plot"]}
{"id": "C187", "title": "Figures of single correlations are complete and do not replace each other", "statement": "The figure of a correlation has a point for each sample at its lag and amplitude, all of which are visible for amplitudes up to one. Figures that are saved to a directory go to the same file if and only if the correlations have the same identifier and start in the same second.", "quantifier": "all lags, data and limits; all identifiers and all start times in the years 1 to 9999", "why_tests_cant": "Whether two names collide depends on the calendar and on all pairs of times.", "anchors": ["src/seismic/plot/plot_correlation.py:plot_ctr", "src/seismic/correlate/stream.py:CorrTrace.plot"]}
{"id": "C188", "title": "Correlations of superposed recordings", "statement": "Without normalisation, correlating a recording that is a superposition of two signals gives the same superposition of the two correlations, at the same lags; this holds for either of the two stations. Whether a correlation can be computed does not depend on the samples.", "quantifier": "all recordings of equal length, all factors, all sampling rates, saved lengths, start times and both settings of the centring of start times", "why_tests_cant": "linearity is a statement about all pairs of signals, all lengths (also odd padded lengths) and all sub-sample differences of start times", "anchors": ["src/seismic/correlate/correlate.py: Correlator._pxcorr_matrix", "src/seismic/correlate/preprocessing_td.py: zeroPadding"]}
{"id": "C189", "title": "Averages over components can be computed repeatedly and by several methods", "statement": "compute_components_average adds the averages that are due to the directory of the results and removes nothing. Repeating it computes nothing and leaves the directory as it is, whatever the order of the files is. Averages of one method are never averaged by another one, and do not change which results it averages. An average takes all results of the station pair into account that exist when the function is called.", "quantifier": "all sets of results, all codes of networks, stations and channels, all orders of the files in the directory, all readable and unreadable files, all pairs of methods", "why_tests_cant": "the function decides by the names of the files, so the claim is about all sets of names and all histories of runs", "anchors": ["src/seismic/monitor/monitor.py: Monitor.compute_components_average", "src/seismic/monitor/monitor.py: average_components"]}
{"id": "C190", "title": "Looking at a stream does not change what it holds or what it answers", "statement": "Selecting by time, sliding windows over a stream, stacking it and plotting it never add, drop or alter a correlation of the stream itself, however often and in whatever order the calls are made. After any history of selections, windows and stacks, every such call returns what it would have returned at the beginning (stacks of everything possibly in another order). After plots the same holds if no two correlations start at the same time; otherwise correlations with equal start may be returned in another order. The rows of a matrix made directly from the stream keep their order, too.", "quantifier": "all streams, all histories of selections, sliding windows, stacks and plots with any arguments, all later calls", "why_tests_cant": "The calls sort the caller's stream in place as a side effect. Whether that is visible depends on the whole history of earlier calls and on ties between start times, which tests on freshly built streams do not exercise.", "anchors": ["src/seismic/correlate/stream.py: CorrStream.select_corr_time, CorrStream.slide, CorrStream.stack, CorrStream.plot, CorrStream.create_corr_bulk, stack_st, stack_st_by_group", "src/seismic/plot/plot_correlation.py: plot_cst"]}
{"id": "C191", "title": "Printed summaries show the correlations of a stream", "statement": "Printing a stream of correlations shows how many there are. With up to twenty correlations, or if the extended form is requested, exactly one line per correlation follows, in the order of the stream and with aligned columns; otherwise the first and the last one and the number of those left out. Lines of correlations that differ in identifier, start, end, number of samples or sampling rate are different. A stream holds exactly the correlations it was made of, in their order, and can hold nothing else.", "quantifier": "all streams of any length, all identifiers without line breaks, all times between the years 1 and 9999, all numbers of samples and sampling rates", "why_tests_cant": "The layout depends on the length of the stream, the widths of all identifiers and the values in every header; tests look at one or two printed examples.", "anchors": ["src/seismic/correlate/stream.py: CorrStream.__init__, CorrStream.__str__, CorrTrace.__str__"]}
{"id": "C192", "title": "Rounding does not influence the distribution of work", "statement": "With the rounding of floating point numbers, the item-to-process map of every parallel loop is the one of exact numbers: each item is processed by the same process, each process gets the same items and together they process every item exactly once.", "quantifier": "all numbers of items and processes with items times processes below 2^53", "why_tests_cant": "The quotient of every item is rounded; a rounding up across a whole number would give one item to the wrong process for particular numbers only.", "anchors": ["src/seismic/correlate/correlate.py:Correlator._write", "src/seismic/correlate/correlate.py:Correlator._pxcorr_matrix", "src/seismic/correlate/correlate.py:Correlator._generate_data", "src/seismic/monitor/monitor.py:Monitor.compute_velocity_change_bulk", "src/seismic/monitor/monitor.py:Monitor.compute_waveform_coherence_bulk"]}
{"id": "C193", "title": "Lags in the header belong to the samples despite rounding", "statement": "The number of saved samples covers lengthToSave up to the rounding of one product; the start lag in the header differs from the lag of the first sample by at most 2^-23 of it, so the sample at zero lag is found by rounding start_lag*sampling_rate to the nearest number; it is exact for whole rates and lengths, and generally if it has at most 24 binary digits.", "quantifier": "all positive sampling rates and lengths to save, up to 2^21 saved samples", "why_tests_cant": "Whether a decimal length survives single precision depends on each pair of rate and length.", "anchors": ["src/seismic/correlate/correlate.py:Correlator._pxcorr_matrix", "src/seismic/correlate/stats.py:CorrStats.__setitem__", "src/seismic/monitor/post_corr_process.py:measure_shift"]}
{"id": "C194", "title": "Cutting, mirroring and tapering find the right samples despite rounding", "statement": "The sample that belongs to a lag is found with an error of at most one sample. Trimming, mirroring and the taper around zero lag use exactly the samples of exact arithmetic if the lags fall on samples and have few enough binary digits, in particular for whole rates and seconds.", "quantifier": "all start lags, sampling rates, lags to trim to and data", "why_tests_cant": "A rounding down across a whole number moves all samples by one, which happens only for particular combinations of rate and lag.", "anchors": ["src/seismic/monitor/trim.py:corr_mat_trim", "src/seismic/monitor/post_corr_process.py:corr_mat_mirror", "src/seismic/monitor/post_corr_process.py:corr_mat_taper_center", "src/seismic/correlate/stats.py:CorrStats.__setitem__"]}
{"id": "C195", "title": "Ratios of sampling rates and sampling intervals survive rounding", "statement": "A sampling rate that is a whole multiple of the requested one is decimated by that factor, and no other is decimated, up to the rounding of one quotient. The rate obtained from the interval in a header is the rate up to 2^-51 of it.", "quantifier": "all pairs of positive sampling rates", "why_tests_cant": "Quotients and quotients rounded down differ for particular decimal fractions only.", "anchors": ["src/seismic/monitor/post_corr_process.py:corr_mat_resample_or_decimate", "src/seismic/utils/miic_utils.py:resample_or_decimate", "src/seismic/correlate/stats.py:CorrStats.__setitem__"]}
{"id": "C196", "title": "Times of windows are exact despite rounding", "statement": "The start times of reading windows, of windows slid over a stream and of the time steps of monitoring are exactly start, start+step, ... below the end if these are multiples of a second or of a binary fraction of it; for all other steps they are displaced by at most a microsecond per window.", "quantifier": "all starts, ends and positive steps below 2^51 units; starts up to the year 2038 for the error", "why_tests_cant": "The error grows with the number of windows and depends on start and step.", "anchors": ["src/seismic/correlate/correlate.py:Correlator._generate_data", "src/seismic/correlate/stream.py:CorrStream.slide", "src/seismic/monitor/monitor.py:make_time_list"]}
{"id": "C197", "title": "Lengths in seconds become the right numbers of samples despite rounding", "statement": "Windows of measurements, smoothing windows and tapers given in seconds have the number of samples of exact arithmetic if their limits fall on samples as numbers on the machine, and are at most one sample off otherwise. Resampling to another whole rate searches for a common length as with exact numbers, and yields the number of samples of exact arithmetic if the duration has few enough binary digits.", "quantifier": "all sampling rates, lengths and limits up to 2^50 samples; all whole rates and numbers of samples below 2^51 for the search", "why_tests_cant": "A decimal length times the rate lies just below or above a whole number only for particular values; the search compares floating point numbers for equality and runs arbitrarily long.", "anchors": ["src/seismic/monitor/monitor.py:Monitor.compute_velocity_change", "src/seismic/monitor/post_corr_process.py:measure_shift", "src/seismic/monitor/post_corr_process.py:corr_mat_resample_time", "src/seismic/correlate/preprocessing_td.py:TDnormalization", "src/seismic/correlate/preprocessing_td.py:mute"]}
{"id": "C198", "title": "A database contains what was added and not removed since", "statement": "After any history of sessions, additions and removals, a request by codes and tag returns exactly the correlations that were added and not removed since: the first one added for each pair of times since its last removal, each once. With both times given it is that correlation or a KeyError.", "quantifier": "every history of sessions with options, add_correlation and remove_data calls with ordinary names, every request with explicit codes and tag (the only wildcard in the start times of removals is `*`)", "why_tests_cant": "the content depends on the whole history of calls, whose length is not bounded", "anchors": ["src/seismic/db/corr_hdf5.py: DBHandler.add_correlation, DBHandler.remove_data, DBHandler.get_data, all_traces_recursive"]}
{"id": "C199", "title": "Correlations are read in the order of time", "statement": "Whatever the order in which correlations were written, every read returns them in alphabetical order of tag, codes and times, so the correlations of one component combination come in order of their start and, for the same start, of their end; no place occurs twice.", "quantifier": "every history of a file and every request, including wildcards", "why_tests_cant": "must hold for every order of writing and every number of correlations", "anchors": ["src/seismic/db/corr_hdf5.py: DBHandler.get_data, all_traces_recursive, hierarchy"]}
{"id": "C200", "title": "The tested stretches and shifts are the requested ones despite rounding", "statement": "The axis of n values between -r and r that stretching, time shifts and inversions test, computed with doubles, has n values, starts at -r, ends at r, is increasing, and each value is within a few roundings of the exact equidistant one. The middle of an odd number of values is exactly 0 only when the increment is exact; otherwise it can miss 0 by a rounding.", "quantifier": "every range that is a double and every number of values (up to 2^48 for strict order)", "why_tests_cant": "the rounding differs for every range and number of values", "anchors": ["src/seismic/monitor/stretch_mod.py: time_stretch_estimate, time_shift_estimate, create_shifted_ref_mat", "src/seismic/monitor/post_corr_process.py: measure_shift, apply_shift"]}
{"id": "C201", "title": "Masks, tapers and moved similarity matrices hit the right samples despite rounding", "statement": "With doubles in place of exact numbers, every sample inside a masked interval is masked and no sample two or more samples away from all intervals; a cosine taper of a whole number of samples has that number of samples; a similarity matrix is moved by the whole number of steps next to the shift; a process without data passes as many windows as the others when the lengths are whole seconds (but not for every decimal length).", "quantifier": "every sampling rate, trace of up to 2^50 samples and list of intervals, every rounding of time differences up to a quarter of a sample; every taper; every axis of up to 2^20 values and every shift within a quarter of a step of a whole number of steps; every read length and increment", "why_tests_cant": "floors, ceilings and roundings can flip for any of infinitely many combinations of rate, length and offset", "anchors": ["src/seismic/correlate/preprocessing_stream.py: trace_mask_at_utc, cos_taper", "src/seismic/monitor/monitor.py: correct_dv_shift", "src/seismic/monitor/stretch_mod.py: estimate_reftr_shifts_from_dt_corr", "src/seismic/correlate/correlate.py: generate_corr_inc"]}
{"id": "C202", "title": "All processes work on the same traces in the same order", "statement": "When a correlation is run with several processes, every process holds its own copy of the traces of a time window, and rows and combinations are exchanged by position. The correlation that is stored for two channels is the correlation of the data of exactly these two channels, the stored pairs are those of the whole window, and the result does not depend on the number of processes or on which process read which trace - whether the data are preprocessed before or after they are cut into windows.", "quantifier": "every window with one trace per channel, every distribution of the traces over processes, every number of processes, every method and exclusion list, every chain of steps, windows with and without gaps", "why_tests_cant": "The order of the traces on processes other than the first is never looked at by a test with one process; whether it differs depends on gaps in the data, and the wrong result has the right shape, headers and times.", "anchors": ["src/seismic/correlate/correlate.py:Correlator._generate_data", "src/seismic/correlate/correlate.py:calc_cross_combis", "src/seismic/correlate/correlate.py:preprocess_stream", "src/seismic/correlate/correlate.py:Correlator._pxcorr_matrix"]}
{"id": "C203", "title": "The windows of a read period hold the data of their times", "statement": "When the data of a read period are divided for the correlation, the window with number k begins k increments after the start of the period on every process, has the requested length, and holds for each channel exactly the samples that were recorded in its time interval, with the rest marked as missing. Every sample of the period is in a window if windows are at least as long as the increment, and in exactly one if they are as long. All processes, also those without data, gather equally many windows, and what is gathered in one turn belongs to the same times.", "quantifier": "all lengths and increments of windows, all streams with any gaps on any number of processes, data preprocessed before or after the division", "why_tests_cant": "Which data begin first, how they are distributed over processes and where gaps are is different in every read period; a test with complete data from one station cannot see that windows are counted from other times.", "anchors": ["src/seismic/correlate/correlate.py:generate_corr_inc", "src/seismic/correlate/correlate.py:Correlator._generate_data", "src/seismic/utils/miic_utils.py:get_valid_traces"]}
{"id": "C204", "title": "Sampling rates in headers survive copying and storing despite rounding", "statement": "The header of a correlation keeps its sampling rate, sampling interval and lags when it is copied, or written to a file and read, any number of times in any order; at most the first copy of a rate changes it, by at most 2^-51 of it. Correlations of traces with equal rates, lags and numbers of samples can therefore always be put into one matrix.", "quantifier": "all positive sampling rates, lags and numbers of samples, and all histories of copying and storing of each header", "why_tests_cant": "Copying a header computes 1/(1/rate), which differs from the rate for about one rate in eight; that the second copy never changes it again is a fact about all floating point numbers.", "anchors": ["src/seismic/correlate/stats.py:CorrStats.__setitem__", "src/seismic/correlate/stream.py:combine_stats", "src/seismic/correlate/stream.py:convert_statlist_to_bulk_stats", "src/seismic/db/corr_hdf5.py:read_hdf5_header"]}
{"id": "C205", "title": "Correlations have the sampling rate that was requested", "statement": "Every trace that enters a correlation has the requested sampling rate, whatever the rates of the stations are and however the stations are distributed over processes; the header of the correlation states this rate, and its lags are multiples of the sampling interval.", "quantifier": "all streams, all sampling rates, all distributions of the traces over processes", "why_tests_cant": "Depends on the combination of the rates that one process happens to read; tests use one rate.", "anchors": ["src/seismic/correlate/correlate.py:Correlator._generate_data", "src/seismic/utils/miic_utils.py:resample_or_decimate", "src/seismic/correlate/stream.py:combine_stats"]}
{"id": "C206", "title": "Making a correlation does not change what later correlations get", "statement": "Making a correlation of two recordings leaves the headers of the recordings unchanged. So the coordinates, the distance, the azimuths and the sampling rate in the header of a correlation are those of its two recordings, whatever was correlated before.", "quantifier": "all streams of recordings with coordinates in their headers, in the SAC parts of their headers or in an inventory, and all sequences of pairs that are correlated", "why_tests_cant": "Tests make one correlation from fresh headers; the effect depends on which pairs of the same recordings were correlated before.", "anchors": ["src/seismic/correlate/stream.py: combine_stats, alphabetical_correlation, CorrTrace.__init__", "src/seismic/utils/miic_utils.py: trace_calc_az_baz_dist"]}
{"id": "C207", "title": "A lapse time window holds the requested lags on the requested sides", "statement": "A measurement of velocity changes in a lapse time window from tw_start to tw_start + tw_len uses the samples whose lag lies in the window, and, for both sides, the same lags before and after zero lag. This holds for windows that begin and end on samples. For other windows no sample two or more samples outside of the window is used and all samples three or more samples inside of it are used, but the window is shifted: a window from 0.5 s to 2.5 s at 25 Hz uses the lags from 11 to 60 samples and from -63 to -14 samples.", "quantifier": "all sampling rates, all lengths of the correlations, all starts and lengths of windows inside of the correlations, the three choices of sides", "why_tests_cant": "the samples depend on four roundings (two of the trimming, one of the centre, one of each index) that only differ for windows between samples; tests use windows in whole samples", "anchors": ["src/seismic/monitor/monitor.py:Monitor.compute_velocity_change", "src/seismic/monitor/monitor.py:Monitor.compute_waveform_coherence", "src/seismic/monitor/stretch_mod.py:compute_wfc", "src/seismic/monitor/stretch_mod.py:velocity_change_estimate", "src/seismic/monitor/trim.py:corr_mat_trim"]}
{"id": "C208", "title": "What is quiet survives muting", "statement": "Muting never enlarges an amplitude and never changes a sign. A sample is returned unchanged if no amplitude within one taper length of it exceeds the threshold. This holds away from the ends of the trace in exact arithmetic for tapers of two samples or more; it fails at the ends, for a taper of one sample (everything becomes zero) and, with extend_gaps, for tapers whose rounded moving average of ones is below one, such as 1 s at 10 Hz (everything becomes zero).", "quantifier": "all matrices of traces, all filters that keep the length, all thresholds and taper lengths, with and without extend_gaps", "why_tests_cant": "Tests mute a few traces with one taper length; the result depends on the number of samples in the taper and on the rounding of the mean of that many ones.", "anchors": ["src/seismic/correlate/preprocessing_td.py: mute"]}
{"id": "C209", "title": "Testing more stretches or shifts never gives a worse match", "statement": "If a measurement of stretches or shifts is repeated with further tested values, that is with finer steps or with the same steps in a wider range, and everything else is kept, the correlation reported for a trace does not become smaller, and a trace with a result keeps one. The second part fails for wider ranges of stretches: if the reference compressed most does not reach the window, no trace has a result any more.", "quantifier": "all traces, references, windows, sides, ranges and numbers of steps, all refinements by a whole factor and widenings by an odd factor", "why_tests_cant": "Tests use one range and one number of steps; the claim compares two measurements for all of them.", "anchors": ["src/seismic/monitor/stretch_mod.py: time_stretch_estimate, time_shift_estimate, velocity_change_estimate", "src/seismic/monitor/post_corr_process.py: corr_mat_stretch, corr_mat_shift, measure_shift"]}
{"id": "C210", "title": "Stacking in steps", "statement": "Stacking correlations group by group and then stacking the group stacks gives the stack of all correlations: with the weight by length always (header and samples), with the mean when all groups have the same number of traces. This fails when each step is normalised (which the stack method of a correlation stream does), when the groups contain gaps (the weight of a stack is the time it spans, gaps included), and with the mean of groups of different size. The norm option normalises the stack, not the traces before it as documented.", "quantifier": "all lists of correlation traces of one pair, all divisions into consecutive groups, all samples, times and weights", "why_tests_cant": "the number of traces, of groups and the weights are unbounded; a test checks one division", "anchors": ["src/seismic/correlate/stream.py: stack_st", "src/seismic/correlate/stream.py: stack_st_by_group", "src/seismic/correlate/stream.py: CorrStream.stack"]}
{"id": "C211", "title": "Selecting and cutting in steps", "statement": "Selecting correlations by period, by time of day or by dropping times, and cutting the lag axis, can be done in steps: selecting one period and then another gives what lies in the time they share, a period that is divided at any time loses and doubles no correlation, dropping times in steps drops all of them, the selections can be done in any order, and cutting to lags inside a cut gives the same samples and lags as cutting at once. This fails for periods that share no time (a reversed period still selects correlations that end at its end), without partially selected correlations for a divided period, and for cuts that begin between two samples.", "quantifier": "all streams and matrices, all periods, times, times of day and lags", "why_tests_cant": "the relation holds between infinitely many pairs of selections and all streams", "anchors": ["src/seismic/correlate/stream.py: CorrStream.select_corr_time", "src/seismic/correlate/stream.py: CorrStream.select_time", "src/seismic/correlate/stream.py: CorrStream.pop_at_utcs", "src/seismic/monitor/trim.py: corr_mat_trim"]}
{"id": "C212", "title": "The windows in which correlations are stacked are exact despite the rounding of times", "statement": "Sliding over a stream of correlations (as stacking does) yields the windows of exact times with the same correlations in each, although the times of the windows are computed as floats in seconds since 1970: if the times of the correlations are whole microseconds and the step is a whole number of seconds. This fails for steps with fractions of a second, where windows drift and a correlation is lost, and for times between two microseconds, where a correlation can be in no window.", "quantifier": "all streams with times from July 2006 to January 2038, all window lengths in microseconds, all steps in whole seconds, all start and end times", "why_tests_cant": "the rounding differs for every time; tests use full hours, where there is none", "anchors": ["src/seismic/correlate/stream.py: CorrStream.slide", "src/seismic/correlate/stream.py: CorrStream.select_corr_time"]}
{"id": "C213", "title": "Grids of velocity changes can be used whatever their resolution, despite rounding", "statement": "A grid of velocity changes of any resolution and extent has axes that consist of multiples of the resolution and reach just to the end of the extent, and its kernels can be computed for every pair of stations and every lapse time that is a multiple of the interval of the integration. This holds if resolution, extent and interval are multiples of binary fractions (such as whole, half or quarter kilometres and seconds). It fails for a resolution of 0.1 km (all kernels are refused because the axis is not exactly evenly spaced, or the grid has a column too many) and for an interval of 0.01 s (no kernel for a lapse time of 16 s).", "quantifier": "all resolutions, extents, intervals and lapse times in these classes, all velocities and pairs of stations", "why_tests_cant": "Whether the differences of rounded numbers are equal depends on every value of the axis; tests use whole numbers, where there is no rounding.", "anchors": ["src/seismic/monitor/spatial.py:sensitivity_kernel", "src/seismic/monitor/spatial.py:probability", "src/seismic/monitor/spatial.py:DVGrid.__init__"]}
{"id": "C214", "title": "Every spectrum of a spectrogram is that of the data in its time window", "statement": "A spectrogram has one spectrum for each window of the requested length that lies within the data of a stream, windows follow each other without overlap from the first sample on, and the spectrum of a window is computed from the samples recorded in this window, preprocessed together with the contiguous data around it, with missing samples marked as missing; every channel of a stream is used; streams without data, or whose preprocessing fails, are left out.", "quantifier": "all streams with any gaps and channels, all window lengths, all preprocessing functions that keep the number of samples", "why_tests_cant": "Tests replace the preprocessing and use data without gaps of one channel; gaps and channels can be anywhere.", "anchors": ["src/seismic/utils/raw_analysis.py: spct_series_welch, preprocess", "src/seismic/trace_data/waveform.py: Store_Client.compute_spectrogram"]}
{"id": "C215", "title": "The unit of lag time has no influence on what is measured", "statement": "If the lag axis of a correlation matrix, and the windows, widths and ranges given in lag time with it, are expressed in another unit of time, then measured shifts are the same shifts expressed in this unit, with the same correlation coefficients, measured stretches are the same, corrections for shifts and stretches and the trimmed, mirrored, tapered and decimated matrices have the same samples, and the same inputs are refused.", "quantifier": "all matrices, headers, references, windows, ranges, sides and positive conversion factors, all interpolations that do not depend on the unit of the abscissa", "why_tests_cant": "Tests use one sampling rate and lags in seconds; a hidden constant in seconds would only show for other rates.", "anchors": ["src/seismic/monitor/post_corr_process.py: measure_shift, corr_mat_stretch, apply_shift, apply_stretch, corr_mat_mirror, corr_mat_taper_center, corr_mat_decimate", "src/seismic/monitor/trim.py: corr_mat_trim", "src/seismic/monitor/stretch_mod.py: time_shift_apply, time_stretch_apply, create_shifted_ref_mat"]}
{"id": "C216", "title": "Sensitivity kernels do not depend on the coordinate system and its units", "statement": "A sensitivity kernel depends on the positions of the stations and grid points relative to each other only: moving the origin of the coordinates changes nothing and exchanging the axes exchanges rows and columns. In another unit of time the kernel is the same in this unit. In another unit of length (consistent units of coordinates, velocity and mean free path, as the documentation asks for) the same input is accepted and the kernel has the same shape.", "quantifier": "all station positions, grids, lapse times, sampling intervals, velocities, mean free paths, translations and conversion factors", "why_tests_cant": "Tests compare single values for one grid in one unit; a wrong dimension of one term only shows when the same problem is posed in two units.", "anchors": ["src/seismic/monitor/spatial.py: probability, compute_grid_dist, sensitivity_kernel"]}
{"id": "C217", "title": "Inverted grids are superposed like the data and do not depend on units", "statement": "For the same correlations, the grid of a weighted sum of velocity changes is the weighted sum of the grids. For given kernels, the units of time (of window and frequencies) and length (of positions, correlation length and scaling factor) and the origin of the coordinates have no influence on the inverted grid and its uncertainty, and the same input is refused.", "quantifier": "all numbers of data and grid points, all kernels, positions, correlations, velocity changes, weights, translations and conversion factors", "why_tests_cant": "Tests invert one small set of data in one unit; the claims relate the results of two calls for every input.", "anchors": ["src/seismic/monitor/spatial.py: data_variance, compute_cm, DVGrid.compute_dv_grid, DVGrid.compute_resolution, DVGrid.compute_posterior_covariance"]}
{"id": "C218", "title": "Averages of velocity changes do not depend on the order or the repetition of the inputs", "statement": "average_components, average_components_mem_save and average_dvs_by_coords return the same similarities, values, correlations, codes and numbers of stations, or raise the same exception, in whatever order the results are passed; the scatter contains the same curves. The average of any number of copies of one result has the similarities and the codes of this result.", "quantifier": "all lists of results, all permutations of them, all numbers of copies", "why_tests_cant": "Tests average a handful of results in one order; the claim relates the calls for all orders and numbers of results, including results that are left out and cells without a value.", "anchors": ["src/seismic/monitor/monitor.py: average_components, average_components_mem_save, average_dvs_by_coords"]}
{"id": "C219", "title": "Offsets and drifts of instruments do not influence detrended correlations", "statement": "If detrending is the first step of the preprocessing in the time domain, offsets and linear drifts of the instruments, different for each trace and each time window, influence neither the correlations of any pair nor the velocity changes measured from them. If only the mean is removed, this holds for offsets. Exceptions are the same as well.", "quantifier": "all traces, offsets, drifts, later processing steps in time and frequency domain, correlation options, pairs of traces and numbers of windows", "why_tests_cant": "Tests detrend single examples; the claim compares two complete runs for every recording, every drift and every list of further steps.", "anchors": ["src/seismic/correlate/correlate.py: Correlator._pxcorr_matrix", "src/seismic/correlate/preprocessing_td.py: detrend, detrendqr, demean", "src/seismic/monitor/post_corr_process.py: corr_mat_stretch"]}
{"id": "C220", "title": "An unchanged trace is reported as unchanged", "statement": "If a correlation agrees, up to a positive factor, with the reference on the lags of the time window, the measurement of velocity changes or time shifts reports a correlation of one and a change of zero, unless another tested value fits equally well.", "quantifier": "all references, factors, lag ranges, sampling rates, time windows, sides, ranges and numbers of tested values, all other traces of the bulk and all interpolation methods that pass through the samples", "why_tests_cant": "Tests measure single synthetic traces with one set of tested values; whether zero is among the tested values and wins depends on every option and the claim is about all references.", "anchors": ["src/seismic/monitor/stretch_mod.py: time_stretch_estimate, multi_ref_vchange_and_align", "src/seismic/monitor/post_corr_process.py: corr_mat_stretch, measure_shift", "src/seismic/correlate/stream.py: CorrBulk.stretch, CorrBulk.measure_shift"]}
{"id": "C221", "title": "Only the lags of the time window of a trace matter", "statement": "When velocity changes are measured by stretching with a given reference, the result depends on a trace only through its samples at the lags of the time window on the requested side: traces that agree there are given the same values and similarities, whatever they are at other lags and however far they reach. In particular trimming the correlations before measuring does not change the result as long as the time window is kept, and neither should it if the reference is extracted after trimming.", "quantifier": "all pairs of correlation matrices with any lag ranges that agree on the window, all references, windows, sides, stretch ranges and numbers of steps", "why_tests_cant": "A test compares one matrix with one trimmed copy; the claim is about all values at the lags outside of the window and all trim ranges.", "anchors": ["src/seismic/monitor/post_corr_process.py: corr_mat_stretch", "src/seismic/monitor/post_corr_process.py: corr_mat_trim", "src/seismic/monitor/stretch_mod.py: time_windows_creation", "src/seismic/correlate/stream.py: CorrBulk.stretch"]}
{"id": "C222", "title": "One-bit normalisation is the same in the time domain and in the frequency domain", "statement": "The signs of the samples can be taken as the last step in the time domain or, with the step for the frequency domain, as the first one there. Both configurations lead to the same correlations, whatever the other steps, the padding, the pairs and the settings are.", "quantifier": "all chains of steps before and after, all traces, lengths, pairs, start times and settings of the correlation", "why_tests_cant": "A test compares both for one length of trace; whether they agree depends on the length after padding, and the claim ranges over all data and all other steps.", "anchors": ["src/seismic/correlate/preprocessing_td.py: signBitNormalization", "src/seismic/correlate/preprocessing_td.py: zeroPadding", "src/seismic/correlate/preprocessing_fd.py: FDsignBitNormalization", "src/seismic/correlate/correlate.py: Correlator._pxcorr_matrix"]}
{"id": "C223", "title": "Correlations have no preferred direction of time", "statement": "Correlating two recordings of equal length played backwards gives exactly the result of correlating the original recordings with the two stations exchanged. It is the original correlation mirrored in lag: the samples in reversed order and the first lag the negative of what was the last one, whatever the start times, the sampling rate, the settings and the length to which the traces are padded.", "quantifier": "all pairs of recordings of equal length, all start times and reversal times, sampling rates, lags, and both normalisation and centring settings", "why_tests_cant": "the claim equates two computations through Fourier transforms for every recording, padding length and start time; a test compares rounded numbers for a few traces", "anchors": ["src/seismic/correlate/correlate.py: Correlator._pxcorr_matrix"]}
{"id": "C224", "title": "Responses of the instruments do not influence whitened correlations", "statement": "If the spectra are whitened (with any filters after the whitening) and no spectrum has a zero coefficient, the correlations do not depend on the amplitude responses of the instruments, which can all be different, nor on their phase response if it is the same for all of them. In particular, records of instruments of one type need no correction of the response.", "quantifier": "all matrices of traces, all amplitude responses, all common phase responses, all pairs, start times and settings, all numbers of filters", "why_tests_cant": "responses are arbitrary functions of frequency, one for every instrument", "anchors": ["src/seismic/correlate/preprocessing_fd.py: spectralWhitening, FDfilter", "src/seismic/correlate/correlate.py: Correlator._pxcorr_matrix"]}
{"id": "C225", "title": "Autocorrelations are symmetric and largest at zero lag", "statement": "The correlation of a trace with itself has the same value at opposite lags, its lags are symmetric to zero, and no value exceeds the one at zero lag in absolute value, whatever processing the spectrum underwent, normalised or not, for all numbers of samples and start times.", "quantifier": "all spectra, sampling rates, lengths to save, start times and settings", "why_tests_cant": "holds for every trace and every processing of its spectrum; tests look at a few traces", "anchors": ["src/seismic/correlate/correlate.py: Correlator._pxcorr_matrix"]}
{"id": "C226", "title": "Averages do not exceed the range of what is averaged", "statement": "Averaging correlations in time bins, mirroring (averaging the two sides) and smoothing yield no values outside of the range of the correlations they are computed from. For smoothing this holds only at least half a window away from the ends: near the ends smoothed values can leave the range by up to its width, because the trace is continued by a point reflection.", "quantifier": "all matrices including NaN, all bins, all positions of zero lag, all windows and window lengths", "why_tests_cant": "a bound for all data, bins and windows", "anchors": ["src/seismic/monitor/post_corr_process.py: corr_mat_resample, corr_mat_mirror, corr_mat_smooth, _smooth"]}
{"id": "C227", "title": "The times listed as available are those with a correlation", "statement": "Whatever was done to a velocity change object (smoothing its similarity matrix any number of times, saving and reading it), the times that it lists as available are exactly the times at which it has a correlation, so that shifts between curves use exactly the measured times.", "quantifier": "all measurements with any pattern of missing times, all sequences of smoothing with any windows and thresholds and of saving and reading", "why_tests_cant": "The list is computed once and everything else changes afterwards, so it is the history of the object that decides.", "anchors": ["src/seismic/monitor/dv.py:DV.__init__", "src/seismic/monitor/dv.py:DV.smooth_sim_mat", "src/seismic/monitor/dv.py:read_dv", "src/seismic/monitor/monitor.py:correct_dv_shift"]}
{"id": "C228", "title": "The matrix of a stream has one row for each correlation that was asked for", "statement": "Turning a stream of correlations into a matrix gives exactly one row for each correlation whose codes and times match the request, with the data of this correlation, in order of time and in the same order as the returned headers. Correlations with different numbers of samples are refused, and so is a request that matches nothing.", "quantifier": "all streams, all patterns of codes and all time ranges", "why_tests_cant": "Streams can hold any mixture of codes, times and lengths in any order, and numpy fills rows from arrays of other shapes silently.", "anchors": ["src/seismic/correlate/stream.py:CorrStream._to_matrix", "src/seismic/correlate/stream.py:CorrStream.select_corr_time"]}
{"id": "C229", "title": "Tapering before the correlation touches the ends of the traces only", "statement": "The time domain taper multiplies all traces with the same weights between zero and one: with a cosine taper of fraction p those within p/2 of the length from an end rise from zero to one and the others are one. Every trace is treated on its own, no amplitude grows, a fraction of zero changes nothing, and fractions outside of zero to one and unknown tapers are refused.", "quantifier": "all matrices of traces, numbers of samples and fractions", "why_tests_cant": "The corners of the taper are rounded to samples, so that every combination of length and fraction is a case of its own.", "anchors": ["src/seismic/correlate/preprocessing_td.py:taper"]}
{"id": "C230", "title": "The printed summary of a velocity change names what was measured and when", "statement": "Printing a velocity change always works and shows its codes, its method and type of value, the earliest start and the latest end of its correlations whatever their order, and the parameters it was processed with.", "quantifier": "all velocity changes, with any times in any order, any method and any processing", "why_tests_cant": "Start and end are found among any number of times in any order, and the text has one form for each method.", "anchors": ["src/seismic/monitor/dv.py:DV.__str__"]}
