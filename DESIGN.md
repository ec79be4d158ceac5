# Formal model of SeisMIC in Lean 4

## Trusted base

* Lean 4.33.0's kernel.
* The axioms `propext` (p), `Classical.choice` (c) and `Quot.sound` (q) only; the list at the end of this file gives those of each theorem in brackets. No axiom is added, there is no `sorry`, `admit`, `native_decide` or `bv_decide`.
* The faithfulness of the hand-written model (`lean/Verif/Model`, `lean/Verif/Py`) to the Python text in /repo. Every definition cites the file and lines it models; simplifications are stated there.
* Third-party behaviour (numpy, scipy, obspy, h5py, mpi4py) enters only through the primitives in `lean/Verif/Py`, which are written after their documented semantics.

## Modelling conventions

* Shallow, executable embedding: one Lean function per Python function (or per self-contained part of one), mirroring its branches. Exceptions are values (`Except PyErr`); the order in which checks and effects happen is kept.
* Floating point numbers are exact rationals (`Rat`), or reals (`ℝ`) where square roots, exponentials, Fourier transforms or least squares are needed; rounding error is not modelled except in `Model/Floats.lean` and `Model/FloatAxes.lean`, where the functions whose result hinges on it are modelled a second time with every operation rounded to 53 (or 24) binary digits (C192 to C197, C200, C201). NaN is `none` (`Option Rat`, `Option ℝ`), and comparisons and arithmetic with NaN follow numpy.
* `UTCDateTime` is an integer number of nanoseconds (that is its internal representation in obspy; only `Model/FloatSlide.lean` has the conversion to floats and the comparison after rounding to microseconds, elsewhere times are compared exactly) or, where only order and differences matter, a rational number of seconds. Calendar arithmetic (`Py/Calendar`, `Py/Datetime`) is the proleptic Gregorian calendar without leap seconds.
* Strings are lists of characters (`List Char`), so that the order is Python's code point order. `fnmatch` and `glob` follow CPython's translation of patterns.
* MPI: a communicator of size p is a family of p runs of the same function; collectives are functions of the family of their arguments. A process that raises while others wait is a failed run.
* HDF5: a file is a finite map from full path to data and attributes; in `Model/H5Tree` (C92, C198, C199) it is the tree of groups and datasets, with emptied groups and members in the order of their names. A crash leaves a prefix of the writes.
* Sharing of arrays and headers between objects is modelled only in `Model/Heap` (C112 - C114); everywhere else arrays are values.

## Layout

* `Verif/Py/*` Python and numpy primitives.
* `Verif/Model/*` model, one file per source file or group of functions; every definition cites file and lines.
* `Verif/Spec/*` small specifications independent of the model; specifications used by one file only are at its beginning.
* `Verif/Lemmas/*` helper lemmas.
* `Verif/Props/*` the property theorems, each with an `example` that meets its hypotheses.
* `tools/` scripts that generate MANIFEST.json and the end of this file from the theorems. `seeded/LOG.jsonl` the record of wrong programs tried on the theorems.

When the code violates the stated property, there is a theorem `..._violated` that shows it for a concrete input or for a class of inputs, and the strongest statement that does hold as `..._partial`. A property is `partial` in the manifest whenever one of its theorems has one of these endings, even if everything that is true of the code was proved.

## What is modelled

* `correlate/correlate.py`: work distribution, the inner loop of the correlation (as circular correlation of the padded traces and, in `Xcorr`, with the discrete Fourier transform over ℝ), the selection of combinations, the look-up of existing correlations, the generator over read increments and windows, writing, crash and restart, `preprocess_stream`, station requests, sub-division, masks.
* `correlate/preprocessing_td.py`, `preprocessing_fd.py`, `preprocessing_stream.py`: clipping, muting, sign bit, running-mean normalisation, whitening, tapers, detrending, gap handling, masking, polarity, resampling decisions.
* `correlate/stats.py`, `correlate/stream.py`: headers as state machines, traces, streams, bulks, stacking, selection, slicing, conversion, saving; sharing of data in `Model/Heap`.
* `db/corr_hdf5.py`: database handler, options, paths, wildcards, listing, removal, storage of headers.
* `monitor/*`: trimming, mirroring, resampling, normalisation, clipping, smoothing, reference traces, stretching, shifts, alignment of several references, averages, the file selection of `monitor.py`, velocity-change objects, sensitivity kernels, the spatial inversion.
* `trace_data/waveform.py`, `utils/*`: archive look-up, file structure, download by days, spectrograms, calendars, flattening, gap interpolation.
* `plot/*`: which data, axes and files the figures have.

## What is not modelled

* Floating point rounding outside `Model/Floats.lean` (C192 to C197) and `Model/FloatAxes.lean` (C200, C201) and `Model/MuteFloat.lean` (C208), `Model/FloatSlide.lean` (C212), `Model/FloatGrid.lean` (C213), `Model/FloatResample.lean` (C197), including comparisons of computed times with `==`. Overflow and subnormal numbers.
* The numerics of filters, splines, resampling and matrix factorisation in scipy: they are parameters of the model with the documented property as hypothesis (for example, that a spline passes through its nodes), or total functions where the library would raise for very short input (`UnivariateSpline` needs four samples, C110). `LinAlgError` appears as `ValueError`.
* Rendering of figures (colours, ticks, labels; the data, axes and file names handed to matplotlib are modelled in C175 to C181, apart from the histogram of all combinations), logging, progress output, pickling and the npz container format, obspy's reading and writing of miniSEED and StationXML, network clients.
* Measuring shifts (C110): the start lag of the matrix is a whole number of samples, without rounding errors. Windows and shifts are arbitrary.
* Real concurrency inside h5py or the file system: writes to one file are sequential.

## Plan per property

* **C01 Every work item is processed by exactly one MPI process** - `pmap` as integer arithmetic (floor of i*p/n); prove range, totality and uniqueness for all n,p.
* **C02 Parallel correlation equals serial correlation** - Per-rank zero-initialised matrix, own rows filled, Allreduce SUM as fold of element sums; prove equal to the serial map.
* **C03 Load is contiguous and balanced** - Monotonicity of `pmap` (contiguity) and counting lemma for the size of each block.
* **C04 Combination methods select exactly the documented pairs** - `calc_cross_combis` as list comprehension over sorted stream; membership iff + Nodup per method.
* **C05 Unknown combination method is rejected** - Error branch of both functions, for all strings.
* **C06 Requested station combinations are order independent** - `is_in_xcombis` over a fnmatch model; symmetry and completeness.
* **C07 Existing correlations are recognised, so nothing is computed twice** - Composition of combination naming (writer) with `find_existing_times` (reader). Station-level and channel-level sort keys differ: negation witness + partial with side condition.
* **C08 Combination names are independent of argument order** - `sort_comb_name_alphabetically` over strings as character lists.
* **C09 Stored correlations can be looked up by their codes in either order** - Writer sorts by concatenated codes, reader by dotted codes: negation witness + partial with side condition (equal-length codes, same network, ...).
* **C10 Exchanging the two stations mirrors the correlation function** - `CorrTrace` construction; lag axis as function of index. `end_lag` passed by the correlator is one sample too large: negation witness + partial.
* **C11 The saved lag window is centred on zero lag** - Slices `[-s:]`, `[:s+1]` of a periodic sequence; lag of sample k.
* **C12 Zero padding avoids wrap-around** - Circular correlation over a finite sequence, zero padded; equality with linear correlation when |lag| <= pad. Start times that differ by a fraction of a sample: the saved values are those of the unique band-limited function through the correlation at whole samples. Fractional lengths and odd padded lengths: negation witnesses.
* **C13 Correlations in the database are never overwritten** - DB as association list of paths; invariant by induction over adds.
* **C14 What was added can be read back** - Round trip add/get.
* **C15 Removing data removes exactly the addressed data** - Path deletion + pattern deletion.
* **C16 Mixing correlations computed with different options is refused** - Decision table of `DBHandler.__init__`.
* **C17 Storing options is idempotent and ignores what does not influence the correlations** - `co_to_hdf5` incl. removal while iterating. Adjacent mask steps survive: negation + partial (no two adjacent).
* **C18 Databases opened without options are opened read-only** - Decision table.
* **C19 Compression option is validated** - Clamp with parser for `gzipN`.
* **C20 Wildcard reads return exactly the matching correlations** - Recursive traversal over a tree with fnmatch; soundness and completeness.
* **C21 Lag and time header fields stay consistent under any sequence of assignments** - State machine over assignments; invariant by induction.
* **C22 Derived header fields are read only** - Error branch.
* **C23 Selecting correlations by time is exact** - Filter of sorted list; exactness.
* **C24 Dropping correlations at given times is exact** - Filter.
* **C25 Removing duplicates keeps one of each** - Loop model, Nodup and membership.
* **C26 Time of day selection** - Filter on time of day; partition.
* **C27 Stacking windows partition the stream** - `slide` start points; exactly-one-window by arithmetic.
* **C28 Stacking groups only equal codes** - Group dictionary.
* **C29 A stack is bounded by and covers its members** - Bounds of the mean; header window. corr_end of the stack is that of the last trace: negation + partial.
* **C30 Bulk and stream conversion round trip** - Round trip with sampling-rate filter.
* **C31 Bulk headers are built only from consistent traces** - Decision + per-field lists.
* **C32 Slicing a bulk keeps data and header aligned** - Index filter; ntrcs is stale: negation + partial.
* **C33 Every computed correlation is written exactly once** - Generator as list of (flag, batch); driver loop; conservation by induction.
* **C34 Correlations are written and stacked per read increment** - Same model; negation witness (first window of next increment joins) + exact characterisation.
* **C35 All processes pass the same number of collective calls** - Window counts as function of local data; negation for raising reads + partial.
* **C36 A crashed run can be resumed** - Writes as list of adds, crash = prefix; second run filtered by existing keys.
* **C37 Different processes never write to the same file** - pmap on sorted set of codes.
* **C38 Trimming keeps exactly the requested lag window** - floor index model.
* **C39 Resampling in time averages exactly the correlations of each bin** - Filter on half-open bins.
* **C40 The list of monitoring times is complete** - arange model, decision table.
* **C41 Mirroring averages causal and acausal sides** - Index model.
* **C42 Central taper works for every admissible width** - Index model; boundary failures as negation.
* **C43 Decimation keeps every factor-th sample** - Stride slice; count.
* **C44 Lag resampling finds a common length or fails** - Bounded loop model.
* **C45 Normalisation bounds amplitudes** - Over rationals.
* **C46 Clipping bounds amplitudes and changes nothing else** - Over rationals.
* **C47 The reported velocity change is the best match** - argmax with first maximum, Cauchy-Schwarz over rationals on squares.
* **C48 Lag windows are symmetric and inside the trace** - Index sets incl. negative python indices; negation for windows that exceed the trace.
* **C49 Multi-reference alignment is consistent** - Rows of G; sums.
* **C50 Only usable points enter the shift between references** - Mask is always false: negation + partial.
* **C51 Averaging components averages the similarity matrices** - nan-mean and argmax; negation for NaN rows.
* **C52 Memory saving average equals the normal average** - Streaming sums equal batch mean; partial.
* **C53 Shift correction moves each time step along the stretch axis only** - Roll of flattened matrix: negation + partial.
* **C54 Only requested correlation files are processed** - Loop with `matched`; negation + partial.
* **C55 Component averaging terminates and only groups one station pair** - Loop model with fuel-free termination; negation + partial.
* **C56 Results survive saving and reading** - Header conversion; singleton lists collapse: negation + partial.
* **C57 Cached kernels are transparent** - Cache state machine.
* **C58 Station coordinates are collected without duplicates** - State machine.
* **C59 Alignment sets the local mean** - Algebra over rationals.
* **C60 Each curve is aligned with its own forward value, once** - zip model; negation + partial.
* **C61 Coordinates outside the grid are rejected** - Closest index; parenthesis bug as negation + partial.
* **C62 Only valid data enter the inversion** - Filter.
* **C63 Downloaded data are stored completely** - Loop over days; negation for single samples + partial.
* **C64 First and last available day** - Order on directory names.
* **C65 Adjacent files are searched in the requested direction** - Calendar-unit model; negation + partial.
* **C66 File structure descriptors are translated as documented** - String translation; replacement never applied: negation + partial.
* **C67 Wildcards in single channel requests are rejected** - `~bool` is truthy: negation; 
* **C68 Spectrograms do not depend on the number of processes** - Gather + argsort; negation for processes without data.
* **C69 Local data are used iff they cover the request** - Decision table.
* **C70 Discarding short traces is exact** - Remove-while-iterating model; negation + partial.
* **C71 Discarding empty traces is exact** - Same.
* **C72 Moving average uses the symmetric window** - Index model.
* **C73 Only short gaps are interpolated** - Run model.
* **C74 Nested lists are flattened completely** - Mutual induction on nested lists.
* **C75 Downsampling never raises the sampling rate** - Decision table.
* **C76 Masked time intervals are masked completely** - Case analysis; covering interval not masked: negation + partial.
* **C77 Whitened spectra have unit amplitude** - Zero amplitude disables whitening: negation + partial.
* **C78 Muting sets large amplitudes to zero and keeps the shape** - Decision + weights.
* **C79 Tapers only touch the ends** - Index model.
* **C80 Station requests are normalised as documented** - Decision table.
* **C81 Only requested pairs are computed** - membership in the list of combinations against the request list; prefix patterns: negation + partial.
* **C82, C85 Normalised correlations** - Cauchy-Schwarz over ℝ for the discrete Fourier transform; exact value at zero lag, negation for even lengths.
* **C83, C84 Headers and component access** - field by field; decision tables.
* **C86 Writing by process** - partition of the pairs among processes, file names; case-insensitive selection: negation.
* **C87 Dropping unused traces** - invariance of the selected pairs.
* **C88 One-bit and standard deviation** - over ℝ.
* **C89, C90, C91 Preparing requests** - list models with aliasing of the options dictionary; negations + partial.
* **C92 Listings** - recursive model of groups.
* **C93, C94 Averages by coordinates, reading intervals** - filters; calendar model.
* **C95 - C100 Kernels and inversion** - real analysis: kernel as integral sums with non-negative terms; the inversion as a quadratic form with positive definite matrices.
* **C101, C102 Storage of headers, names of windows** - string and calendar model.
* **C103 - C106 Traces with gaps** - segments of masked arrays.
* **C107, C108 Reference traces** - means and medians of selected rows.
* **C109 Smoothing** - convolution with normalised weights on the padded rows.
* **C110, C111 Time shifts** - arg max over the tested shifts; exact recovery of shifts on the grid.
* **C112 - C114 Sharing and history** - memory with arrays as views; refinement of value semantics for all interleavings; negations.
* **C115 Several references** - weighted least squares as a parameter with its defining equation; alignment and means of masked arrays.
* **C116, C117 Stretches** - arg max over the tested stretches with the spline as a parameter; Cauchy-Schwarz with its case of equality; inverse law for functions that the spline reproduces; negations.
* **C118 Velocity change of a combination** - composition of C116 and C117 with the header that the first measurement leaves; negations.
* **C119 Waveform coherence** - `compute_wfc` for each reference on the cut traces, as coefficients at lags; means of valid values; bounds by the Cauchy-Schwarz inequality; value one by its equality case.
* **C120 Bands and windows** - the generator as a list of results and a final exception, filters and windows as parameters; induction on the bands; negations for invalid bands and files that cannot be written.
* **C121 Averages of components** - element-wise means; groups for any order of a set and any distribution of jobs; negations for different references and uncaught exceptions.
* **C122 Grid of coherences** - fold of assignments; the last assignment of a cell counts; negation for equal centres.
* **C123 Detrend** - real matrices; the decomposition of the design matrix is any factorisation QR with orthonormal columns and invertible R (shown to exist); normal equations, optimality by Pythagoras; negations for gaps, the method `scipy` and the argument that is changed.
* **C124 Running normalisation** - real rows with missing samples; moving window as convolution; bounds by the sample itself being in its window; negations for silent traces, gaps and long windows.
* **C125 Sign bit in the frequency domain** - the discrete Fourier transform of C58 and its inverse; negation for odd lengths.
* **C126 Frequency domain filter** - nearest frequency of each corner, cosine flanks; monotonicity of the nearest index; negations for filters without a flank.
* **C127 Taper of correlations** - cosine weights on real numbers; monotonicity of the cosine; negation for two samples.
* **C128 Correction of the decay** - envelope, mirror, mean and line fit; the normal equations give the best line; negations for lag axes without lag zero.
* **C129 Filter of correlations** - recursive filter as convolution with its impulse response; forward and backward pass as a product of a matrix with its transpose; negations for NaN and the ends.
* **C130 Envelope** - discrete analytic signal; orthogonality of the Fourier basis; negation for NaN.
* **C131 Clock shift** - delayed references (spline as a parameter), correlation on the window, first maximum; Cauchy-Schwarz; negations for one side and for the correction.
* **C132 Shifts applied** - linear interpolation with zeros outside; per trace and per sample; negation for fewer shifts and for estimated ones.
* **C133 Stretches applied** - taper and spline at stretched lags, the argument as part of the state; negations for the documented sign and for the argument.
* **C134 Smoothed similarities** - means over the near times of each column, maximum of each row; negations for NaN, empty rows and even windows.
* **C135 Distance limit** - double loop over stations with inventory files and a remote service as a function; induction with an invariant on requests; negations for prefixes of codes, names of existing correlations and interrupted searches.
* **C136 Reading periods** - list of periods with an increment; cover of the period, windows of the spectrogram; negations for increments that do not fit.
* **C137 Stitching curves** - loop over sorted times; each curve against its already shifted predecessor; totality.
* **C138 Grid inversions depend on the call only** - the four methods as functions of an object state (stations, kernel cache, stored results); any history of
  calls is a fold over them. Independence of the history by the invariant that cached kernels are the ones that would be computed; order by re-indexing the rows of
  the kernel matrix. Violations (different processings, a frequency of zero, a stale resolution) are stated with witnesses.
* **C139 Smallest least squares model** - `numpy.linalg.pinv` by its specification: some singular value decomposition, inverse of the singular values above the
  cutoff. Optimality from orthogonality; independence of the decomposition by writing the result as a polynomial of `GᵀG`; a decomposition is shown to exist for
  every matrix.
* **C140 Coherence files** - the archive as a list of named arrays, parts told apart by their names as in the code; round trip with the header lemmas of C09. Field
  names that look like another part: negation. Wildcards: recursion over the listing, with the call depth as fuel; a file name with `*` never returns.
* **C141 Reading a period** - files as lists of traces (times of samples), obspy's merging by its specification, the loop over neighbouring files with fuel. Invariant:
  the stream has exactly the accepted samples of the sections read so far. Samples at the very limits, disordered files, changing sampling rates and yearly files: negations.
* **C142 Mass download** - the storage function and the intervals of the download; the archive as a map from paths. Injectivity of the path by splitting it again; the content of
  every file after a download in closed form, the rest follows from it. Downloads that do not begin at midnight, days downloaded in part, read only clients: negations.
* **C143 Gaps and masked samples enter the correlations as zeros** - Model samples with what is stored beneath the mask, the conversion of a window to a matrix (`st_to_np_array`, `nan_to_num`), padding, masking by time and filtering. Prove the entries of the matrix for traces with nothing beneath their masks; show that masks set by `stream_mask_at_utc` as last step have no effect.
* **C144 Preprocessing applies every step once and keeps samples at their times** - Model `preprocess_stream` with detrending, gap handling and deconvolution as parameters, the inventory as state and the server as a parameter. Prove window and order of channels for all steps, the samples without steps, the response where the first trace decides; show the cases with a response that is removed twice or not fetched.
* **C145 Velocity changes are computed for every channel combination, by any number of processes** - Model the list of tasks, its distribution and the directory of results; an execution is any interleaving of the loops of the processes. Prove that the results do not depend on it if each station combination has one file; show that two files for one combination make the result depend on the order.
* **C146 Station information stays available** - model of the inventory in memory, the files of the archive and calls by successive clients (InvStore); invariant over histories for requests of whole stations; the replacement of a file by the information on one channel is a witness against the full statement.
* **C147 Header and matrix of a bulk** - the methods of `CorrBulk` as calls on data and header (BulkOps), built from the models of the single functions; invariant by induction over the calls; each function that only replaces samples is shown to keep the shape (BulkShape); `resample` violates the part about codes.
* **C148 The intensity used for sensitivity kernels conserves the energy of the source** - `probability` of Model/Kernel.lean; its integral over the plane is computed with polar coordinates and an antiderivative of the radial density. The scattered part carries the right energy, the direct wave does not (it is multiplied by the width of the front).
* **C149 Parallel processes find the directories they write to, and do not disturb each other** - Model/StartUp.lean: processes are lists of actions (create a directory, write a file, broadcast, gather) that are interleaved by any schedule. Safety is an invariant over schedules; that nobody waits forever follows from the equal sequences of collective calls. The waveform coherence loses results in some schedules.
* **C150 The options of every run are recorded** - Model/OptRecord.lean: options as trees; the record is compared with an independent translation of times into text. Options with times outside of masks are refused.
* **C151 Velocity changes are read with wildcards completely** - Model/DvFiles.lean: `read_dv` on a directory with readable and damaged files, with the recursion on file names; induction over the files found.
* **C152 A shift correction compares the times the two curves share** - Model/ShiftMethod.lean: `correct_dv_shift` with both methods; the window of `shiftWindow` is characterised by the first and last common index, by induction over the masks.
* **C153 The number of processes has no influence on whitened correlations** - `spectralWhitening` as a step of the distributed correlator of Model/ParallelMatrix.lean; whitening without zero coefficients is shown to act row by row, then the refinement of C36 applies.
* **C154 The gain of the instruments does not influence normalised correlations** - Model/Chain.lean: all steps and the correlation as one chain; every step maps a gain to a gain of the same sign, induction over the steps, and the normalisation removes it.
* **C155 The amplitudes of correlations do not influence what is measured** - the models of C47, C110, C116 and C119 on matrices with gains; the coefficient is homogeneous of degree zero, all steps before commute with positive factors.
* **C156 Adding correlations does not change what was measured before** - the same models on `A ++ B`; induction over windows and rows, with a counterexample for several references.
* **C157 The database does not depend on the number and speed of the processes** - `_write` of each process as a list of actions on files, courses of a run as interleavings that keep the order of each process; actions on a file are those of one process (C37, C86), so an entry is found by filtering; composition with the loop (C33) and the matrix (C02).
* **C158 The order of the two stations does not influence the measured velocity change** - the models of C116 and C119 on reversed rows; the mask of the mirrored side is the reversed mask, and sums do not change under reversal.
* **C159 The order in which data arrive has no influence** - sorting a permuted list with distinct keys gives the same list; entries of the database by `find?` in permuted lists with distinct places.
* **C160 A run over stations with codes of equal length can always be resumed, and repeating it computes nothing** - condition on the codes in `Spec/SameLength.lean`; induction over the combinations for the look-up, then C36 and C07 are composed.
* **C161 Repeating a processing step changes nothing** - for each modelled step `f` with its arguments, `f x = ok y → f y = ok y`, by unfolding
  and by showing that the condition of the first call (a flag, the number of samples, a factor of one, a first spectral value of zero) makes the second one do nothing.
  Where this is false (lags off the samples, overlapping bins, one correlation left, normalising by the largest sample) an example shows it.
* **C162 Every correlation of a bulk is processed and measured on its own** - `Spec/EachAlone.lean` says that row `i` of the result is the result for row
  `i` alone; each step is unfolded to a map (or a map that may fail) over the rows with a header that depends on the number of columns only; sequences of
  calls by induction with the consistency of C147. Examples show where it is false (one clip level for all rows, whitening).
* **C163 Results do not depend on the time at which the data were recorded** - each modelled call on streams, bulks and curves commutes with adding a delay to all times; proved call by call and, for bulks, by induction over the sequence of calls.
* **C164 Adding stations does not change the correlations of the others** - pairs: selection and pruning commute with leaving out traces (filters on the sorted list). Values: every step of the chain acts on two rows as if they were alone; composed over the steps. Whitening with a silent station and missing responses are counterexamples.
* **C165 Correlations in files of the predecessor are imported with their samples, lags and times** - Model of the import (`Model/OldMat.lean`) on top of the models of `flatten`, of the headers and of `CorrTrace`; induction over the fields of a record. That single correlations of an imported matrix cannot be accessed, and that all of them end in 1970, is proved as a violation.
* **C166 Processing functions are found by their full names** - Model of `func_from_str` over any set of modules; the last part of `split` is characterised by induction.
* **C167 Traces of the same channel are recognised by their codes** - The joined strings are injective for codes without dots, by induction.
* **C168 Reversed polarity of sensors does not influence what is measured** - The lemmas of C155 hold for factors of a common sign; composed with C154 over all windows.
* **C169 Averaging in time and linear processing of the lag axis can be done in either order** - Model: `Bulk.call` (C147). A function of one correlation is linear if there is a linear map of Mathlib that gives its samples, and it maps a missing correlation to a missing one; selections of samples, `mirrorRow`, filters followed by a choice of every n-th sample, and appended zeros followed by a linear resampling are such functions, and so are compositions. A mean commutes with a linear map. Filter and `scipy.signal.resample` are parameters that are assumed linear.
* **C170 A period can be correlated in parts** - Model: `periodWindows` (`loop_window` and the windows of each read increment) and `RunCfg.period` (look up what exists, compute the rest, add it; C36, C160). Each run leaves what a run without looking for existing data would leave (`complete_get`), so several leave what the concatenation of their windows leaves; ranges of read times that meet on the grid concatenate. For other orders: what is stored at a place does not depend on the order if it is unambiguous. That the windows of a read increment depend on the data only (not on `preprocess_subdiv`, which the program changes when it finds no data) is an assumption of the model.
* **C171 Times without data do not influence the other times** - model `computeDvGaps` of the measurement for a matrix with rows of `nan`; the four reference methods depend only on the numbers in each column (and, normalised, on rows without `nan`); trimming and measuring are row by row, and a row of zeros has no similarity.
* **C172 Filling of missing values by the documented recipe** - model `fillNans`; numbers with their positions (`validPairs`) are in increasing order, the neighbours of a position are the last before and the first after it.
* **C173 Trimming by durations removes exactly the samples of these durations** - model `trimTraceDelta` on top of obspy's `trim` without padding; durations that are whole numbers of samples.
* **C174 Rounding to halves** - model `roundHalf`; Python's `round` is at most one half off.
* **C175 Figures of velocity changes show the measurements** - `Model/Plot.lean` has the data handed to matplotlib as values; boolean masks by induction over the lists.
* **C176 The similarity matrix in a figure lies below its measurements** - the area of pixel (row, column) from the extent of the image, inequalities between j/m and j/(m-1).
* **C177 Saving figures does not destroy files** - the search loop with fuel, termination by injectivity of decimal numbers and counting; induction over the list of saved figures for the negation.
* **C178 A figure of several velocity changes has one curve for each file** - the loop with the variable that survives a failed reading; the median of doubled values by sorting.
* **C179 Figures of correlations show each correlation at its lags** - stable sorts, one for each key; positions in the mesh.
* **C180 The image of a correlation matrix has the right axes** - second differences by induction, the pixel inequality of C176.
* **C181 Figures of spectra do not depend on units and gains** - `Model/SpecPlot.lean` with real numbers; homogeneity of norm, mean and median; slicing commutes with gains.
* **C182 Data of traces that were put into a matrix** - trace objects that lose their data; calls of `create_corr_bulk` on streams of references, induction over the loop and over the calls.
* **C183 Reference trace that a matrix remembers** - sessions with several matrices and their attribute `ref_trc`, induction over the calls.
* **C184 Blocks that open a correlation file close it and lose nothing** - `block`: files on a disk as a map from paths to contents, the open files as a list; opening by mode, compression, guard of the options, statements until the first exception, closing. Case analysis of the opening, induction over the statements of a block and over histories of blocks. What goes wrong if the opening fails (file left open, file emptied) is proved with witnesses.
* **C185 A delayed signal is found at its delay** - the model of the correlation of two recordings (C12); the correlation with a delayed copy is the autocorrelation shifted by the delay, and the autocorrelation of a finite signal that is not zero is strictly smaller at every lag but zero (sum of squares, induction over the samples); the norm is positive by Parseval. Violated for odd padded length.
* **C186 The map of a grid shows each grid point at its place** - the image with its extent and the pixels that `imshow` draws, over the axes of the grid; arithmetic on the positions of pixels. Violated for the marks of stations.
* **C187 Figures of single correlations are complete and do not replace each other** - the line, the limits of the axes and the name of the file with the date of the proleptic Gregorian calendar; injectivity of fixed width numbers and of the calendar. Violated for amplitudes above one and for correlations that start in the same second.
* **C188 Correlations of superposed recordings** - Every sample of the inverse transform is a bilinear form in the two spectra, and padding and cutting act on samples by position; linearity in both arguments for all lengths and offsets.
* **C189 Averages over components can be computed repeatedly and by several methods** - the directory as a list of paths; the names of the results are parsed as the loop does; induction over the passes (C55) and invariance of the due averages under adding averages. Violated for results that are computed after their average.
* **C190 Looking at a stream does not change what it holds or what it answers** - `StreamQuery.after` gives the stream after a call (which calls sort it in place); induction over histories, idempotence of stable sorting, invariance of minima, maxima and groups under permutation.
* **C191 Printed summaries show the correlations of a stream** - the text as a list of characters (`streamText`), split into lines again; injectivity of printed times, numbers and padded identifiers.
* **C192 Rounding does not influence the distribution of work** - IEEE rounding to nearest, ties to even, on rationals (`roundTo`); error bound and monotonicity; the map of items with a rounded quotient equals the exact one.
* **C193 Lags in the header belong to the samples despite rounding** - `startLagF` in single precision; error bound, exact for few binary digits; witness 12.4 s at 25 Hz.
* **C194 Cutting, mirroring and tapering find the right samples despite rounding** - `corrMatTrimF`, `corrMatMirrorF`, `taperStartF` against the exact models; the same witness moves all samples by one.
* **C195 Ratios of sampling rates and sampling intervals survive rounding** - `decimationFactorF`, `rateF`; witnesses 1 Hz and 0.2 Hz, 49 Hz.
* **C196 Times of windows are exact despite rounding** - `arangeF` as numpy computes it, against the exact `arange`; error per window; witness 0.1 s.
* **C197 Lengths in seconds become the right numbers of samples despite rounding** - `stretchWindowF`, `shiftWindowF`, `taperSamplesF`, `smoothSamplesF`, `resampledF`; the loop `searchF` equals `search` because different fractions stay different when rounded; `resampleTimePlanF` puts both together: for whole-number rates the lengths are exact unless the duration is a whole number of new samples, when one may be lost; witnesses 0.07 s, 0.29 s, 205 samples.
* **C198 A database contains what was added and not removed since** - Model/H5Tree: the file as the tree of HDF5 groups and datasets, with emptied groups kept; Spec/History: histories of calls and the finite map they are expected to leave; refinement by an invariant of trees (`Good`) kept by every call.
* **C199 Correlations are read in the order of time** - every call keeps the members of all groups in the order of their names; a traversal of an ordered tree is sorted; with C102 names are ordered like times.

* **C200 The tested stretches and shifts are the requested ones despite rounding** - `linspace` with every operation rounded; error bounds from the relative error of one rounding, order from the step being larger than the errors; the missed zero is a witness.
* **C201 Masks, tapers and moved similarity matrices hit the right samples despite rounding** - masks, `round` and `ceil` with every operation rounded; an interval is masked because half integers are doubles and rounding is monotone; one wrong number of windows is a witness.
* **C202 All processes work on the same traces in the same order** - `Model/WindowOrder.lean` gives each process its own list of traces: the sort on every process, `calc_cross_combis` (which sorts in place) on process 0 only, the removal of unused traces, `preprocess_stream` with the order of traces after obspy's `merge` (trusted: stable sort, traces that `merge` creates are placed first) and `sort(keys=['starttime'])`, the matrix and its headers. Proved for data preprocessed before the windows are cut (`c202_plain`), and for windows preprocessed one by one if they have no gaps (`c202_subdiv_partial`, `c202_complete_partial`). Without existing correlations the program never preprocesses windows one by one. Violated with a gap when there are existing correlations (`c202_gap_violated`): two processes store the autocorrelation of one station as the correlation of two.
* **C203 The windows of a read period hold the data of their times** - `Model/CorrWindows.lean` models `generate_corr_inc` with obspy's `slide`, `slice` and `trim` on traces whose times are counted in samples, and the gather of the windows of all processes. Proved sample by sample for streams whose traces reach from the start to the end of the period, which is what `preprocess_stream` returns (`c203_preprocessed`), also with processes without data. Violated for raw streams (option `preprocess_subdiv`): windows are counted from the first trace in the list, and empty windows are skipped without being counted.

* **C204 Sampling rates in headers survive copying and storing despite rounding** - the fields that depend on the rate, assigned in the order in which a copy, the combination of two headers and a file assign them, each operation rounded; reciprocals of floats become a statement about integers: with `h M` the rounded quotient of `2^105` by the mantissa `M`, `h (h M) = M` or `h (h (h M)) = h M`. A rate that was set and not copied is a counterexample.
* **C205 Correlations have the sampling rate that was requested** - the downsampling of every process (`resampleStream` of C75, an error skips the period) composed with the header of a correlation (`innerTrace` of C83). Proved for traces with at least the requested rate; traces with a lower rate give three counterexamples.
* **C206 Making a correlation does not change what later correlations get** - `combine_stats` as a function that returns the header of the correlation and the changed headers of both recordings; any sequence of pairs by induction, with the invariant that a header is that of the file or has got the entries of its SAC part.
* **C207 A lapse time window holds the requested lags on the requested sides** - trimming, `np.arange` of offsets and cutting off of decimals on the numbers of the columns; the set of used columns is characterised for all windows, and specialised to windows on samples.
* **C208 What is quiet survives muting** - `mute` of Model/Amplitude and a variant whose moving average of the mask is rounded (Model/MuteFloat). The taper sums to one because the cosines of a full period cancel; the rounded variant is bounded because rounding is monotone.
* **C209 Testing more stretches or shifts never gives a worse match** - two runs of the measurements of C110, C116 and C131 whose tested values contain each other; the best match of the larger set is at least that of the smaller one. The lost results are an instance of the late windows of C116.
* **C210 Stacking in steps** - the modelled `stack_st` applied to groups and to the results, proved equal to one stack (weights by length; means of equal groups) and refuted for normalised steps, gaps and unequal groups.
* **C211 Selecting and cutting in steps** - the modelled selections are filters of the sorted stream, composition of filters; composition of slices for `corr_mat_trim`. Witnesses for reversed periods, divided periods and cuts between samples.
* **C212 The windows in which correlations are stacked are exact despite the rounding of times** - `slide` with rounded timestamps, the rounding `np.arange` and obspy's comparison in microseconds; error bounds of the four roundings add up to less than half a microsecond, and rounding commutes with adding whole seconds. Witnesses for fractions of seconds and for times between microseconds.
* **C213 Grids of velocity changes can be used whatever their resolution, despite rounding** - `Model/FloatGrid.lean`: axes, the check of equal differences, lapse times and the limit for times, every operation rounded. Multiples of a binary fraction are exact (lemma of C196); 0.1 km and 0.01 s are negation witnesses, the first for all extents from 0.3 km.
* **C214 Every spectrum of a spectrogram is that of the data in its time window** - `specTrace`: split, preprocess the parts, merge, first trace; `specWindows`: consecutive windows with their samples; proved for streams of one channel with any gaps; witness for two channels, of which one is used that depends on the gaps.
* **C215 The unit of lag time has no influence on what is measured** - the models of `measure_shift`, `corr_mat_stretch`, the corrections and the lag functions are run on a header in another unit; both results are related for all inputs. Splines enter as any function that does not depend on the unit of its abscissa.
* **C216 Sensitivity kernels do not depend on the coordinate system and its units** - the model of `sensitivity_kernel` over the reals is run on moved, exchanged and rescaled input. The unit of length has an influence: the coherent term of `probability` is one per length, the scattered term one per area, so only the support of the kernel is proved to be the same.
* **C217 Inverted grids are superposed like the data and do not depend on units** - the matrix model of the inversion is run on sums of data and on positions, windows and frequencies in other units; both results are related by matrix algebra.
* **C218 Averages of velocity changes do not depend on the order or the repetition of the inputs** - both models of the averages are run on a permutation of the inputs; the selection, means, counts and codes are shown to be invariant when all inputs share a grid, a witness shows the dependence otherwise. Copies of one result are averaged by induction on their number.
* **C219 Offsets and drifts of instruments do not influence detrended correlations** - the model of the whole chain is run on traces with added lines; the residuals of a least squares line are unique, so that the first step gives the same traces.
* **C220 An unchanged trace is reported as unchanged** - the theorems on the best match (C116, C110) are applied to a trace that is a multiple of the reference; zero is shown to be tested for odd numbers of steps from three, and not to be tested for even numbers.
* **C221 Only the lags of the time window of a trace matter** - consequence of the characterisation of the measured stretch (C116) and of trimming (C38), for two matrices with different lag ranges; negation for a reference that is trimmed too (`Props/WindowOnly.lean`).
* **C222 One-bit normalisation is the same in the time domain and in the frequency domain** - the two chains of C144 compared for all other steps: the padding consists of zeros, whose sign is zero, and the inverse transform returns the padded traces if their length is even; negation with two samples padded to three (`Props/SignDomains.lean`).
* **C223 Correlations have no preferred direction of time** - the model of the correlation of two traces (`Xcorr.correlate`) applied to reversed traces; proved from the transform of a reversed padded trace, which is the conjugate one times a phase that cancels in the cross spectrum.
* **C224 Responses of the instruments do not influence whitened correlations** - the chain from traces to correlations (`correlateChain`) with whitening and filters; responses multiply the spectra of the padded traces by an amplitude of each instrument and a common phase; prove that the whitened spectra only differ by the phase, which cancels in each pair.
* **C225 Autocorrelations are symmetric and largest at zero lag** - `corrRow` for two equal spectra: symmetry from the exchange of stations (C10), the maximum from the inverse transform of the power spectrum, which is a sum of cosines with weights that are not negative.
* **C226 Averages do not exceed the range of what is averaged** - the models of averaging in bins (C39), mirroring (C41) and smoothing (C109); bounds of weighted means; the ends of smoothed traces are a witness for the negation.
* **C227 The times listed as available are those with a correlation** - the object with its attribute `avail` as a state machine (Model/DvAvail.lean) over smoothing and saving/reading; invariant by induction over the history, negations for gaps that are filled and for thresholds.
* **C228 The matrix of a stream has one row for each correlation that was asked for** - `_to_matrix` with the selection of codes, times and the sort (Model/ToMatrix.lean); permutation and order of the rows against the request, errors for nothing and for different lengths, negation for a single sample that numpy repeats.
* **C229 Tapering before the correlation touches the ends of the traces only** - `preprocessing_td.taper` (Model/TdTaper.lean) on the model of obspy's `cosine_taper` that C127 uses, windows of scipy as a parameter; weights, independence of the rows, refusals, negation for two samples.
* **C230 The printed summary of a velocity change names what was measured and when** - `DV.__str__` with strings as lists of characters (Model/DvStr.lean); the parts of the text as infixes, minimum and maximum over any list; negations for time shifts and for no times.

## Results

Status, theorems (with the axioms they depend on) and their English meaning.

<!-- GENERATED -->

### C01 Every work item is processed by exactly one MPI process (proved)

Proofs: `Props/Parallel.lean`.

The full statement is proved of the model.

* `c01_exactly_one_process` [c q p] . For any number `n` of work items and any number `p ≥ 1` of processes, every item is processed by exactly one process, and this process exists. No process works on an index that is not an item, or on an item twice.
* `c01_items_partition` [c q p] for the items themselves: the lists of items of the processes `0, …, p-1` put one after the other are the list of all items.
* `c01_windows_exactly_one_process` [c q p] for the round-robin distribution of the windows of a spectrogram.

### C02 Parallel correlation equals serial correlation (proved)

Proofs: `Props/Parallel.lean`.

The full statement is proved of the model.

* `c02_parallel_eq_serial` [c q p] . For every number `p ≥ 1` of processes, every list of processing steps that act on single traces, every matrix and every list of pairs, the correlation matrix returned on every process is the one that the row by row computation without any processes gives.

### C03 Load is contiguous and balanced (proved)

Proofs: `Props/Parallel.lean`.

The full statement is proved of the model.

* `c03_contiguous` [c q p] (contiguous). The blocks of the processes in rank order, put one after the other, are the indices `0, …, n-1` in order.
* `c03_balanced` [c q p] (balanced). The numbers of items of two processes differ by at most one.

### C04 Combination methods select exactly the documented pairs (proved)

Proofs: `Props/Combis.lean`.

Exact set of selected pairs for every method, including the two special cases of empty channel codes.

* `c04_exact` [c q p] . For every stream, every dictionary of existing data, every request list and every documented method: the result is a list without repetition of positions in the alphabetically sorted stream, and `(i, j)` is in it iff the method selects the pair and it is not recorded as existing. (For `betweenComponents` the channel codes must not be empty, else see `c04_empty_channel`.)
* `c04_empty_channel` [c q p] , error branch: with `betweenComponents`, two traces of one station of which one has an empty channel code raise `IndexError`.

### C05 Unknown combination method is rejected (proved)

Proofs: `Props/Combis.lean`.

The full statement is proved of the model.

* `c05_method_names` [c q p] . A method name that is not one of the five documented ones is rejected with `ValueError` by both functions; the documented ones are not.

### C06 Requested station combinations are order independent (proved)

Proofs: `Props/Combis.lean`.

The full statement is proved of the model.

* `c06_symmetric` [q p] (order independent).
* `c06_named_pair_selected` [c q p] (a request that names the pair selects it). If the list contains `Net1-Net2.Sta1-Sta2`, alone or continued by `.Cha1-Cha2`, for the pair in one of the two orders, then the pair is selected in both orders.

### C07 Existing correlations are recognised, so nothing is computed twice (partial)

Proofs: `Props/Existing.lean`.

Never skips a correlation that is not stored (proved). Stored correlations are recognised if the file is the only one whose name fits and the pair's name order does not depend on the channel; equal-length codes give this. Violated in general: S1/S10 is recomputed forever, S1-S2 next to S1-S22 and stack-only files raise KeyError.

* `c07_never_skips_missing` [c q p] (nothing is skipped that is not there) For every directory of correlation files: if `find_existing_times` returns and a pair of traces is then regarded as existing, some file of the directory contains a correlation with the tag, the codes of the pair and the start time.
* `c07_recognised_partial` [c q p] (what is there is recognised), what holds: the correlation of `a` and `b` is in the only file whose name fits, `find_existing_times` did not fail, the pair of stations is among the combinations, and ordering the pair by network and station gives the same order as ordering by network, station and channel. Then the pair is recognised as existing in both orders. Missing for the full property: `c07_recognised_violated`, `c07_lookup_fails_violated`.
* `c07_recognised_equal_length` [c q p] for `betweenStations` without a request list, stations with codes of the same length in networks with codes of the same length (any number of stations): a correlation that is in the only file whose name fits is recognised.
* `c07_recognised_violated` [p] is violated: stations `S1` and `S10`. The correlation is stored as `S10-S1` (ordered with the channel), but looked for as `S1-S10` (ordered without the channel), so it is computed again in every run.
* `c07_lookup_fails_violated` [p] `find_existing_times` fails with `KeyError` if the name of another pair extends the name of a pair (`S1-S2` and `S1-S22`), or if a file contains only stacks.

### C08 Combination names are independent of argument order (partial)

Proofs: `Props/Combis.lean`.

Holds for codes of equal length and whenever the concatenations differ; violated for two stations whose concatenated codes coincide.

* `c08_codes_together` [c q p] (codes of one station stay together): the result is one of the two possible orders, in all three lists at once, and the first concatenated code is not greater than the second.
* `c08_order_independent_partial` [c q p] (order independent), for two stations whose concatenated codes differ or whose codes are the same. Missing: different codes with the same concatenation, see `c08_order_independent_violated`.
* `c08_order_independent_equal_length` [c q p] for networks of the same code length and stations of the same code length (a common situation): always order independent.
* `c08_order_independent_violated` [none] is violated: networks `X` and `XN` with stations `NA` and `A` have the same concatenated code, so the name depends on the order.
* `c08_idempotent` [c q p] (idempotent): sorting the sorted codes changes nothing.

### C09 Stored correlations can be looked up by their codes in either order (partial)

Proofs: `Props/Db.lean`.

Lookup is independent of the order of the arguments (proved). Found when the order without channel agrees with the order with channel; violated for S1/S10.

* `c09_either_order` [c q p] Reading and removing do not depend on the order in which the two stations are given.
* `c09_found_partial` [c q p] , what holds: a correlation stored under the codes given by the correlator is found with the codes of the two stations in either order, if the order by concatenated codes agrees with the order by names with dots. Missing for the full property: `c09_found_violated`.
* `c09_found_equal_length` [c q p] holds for networks with codes of the same length and stations with codes of the same length.
* `c09_found_violated` [p] is violated in general: for the stations `S1` and `S10` of one network the correlator stores under `S10-S1` ("XNS10HHZ" < "XNS1HHZ"), but both orders of the request are turned into `S1-S10` ("XN.S1.HHZ" < "XN.S10.HHZ") and raise `KeyError`.

### C10 Exchanging the two stations mirrors the correlation function (partial)

Proofs: `Props/CorrStats.lean`, `Props/Xcorr.lean`.

Exchange theorem for CorrTrace (lag of the last sample given) and for the correlation itself (any spectra). Violated by _pxcorr_inner, which passes the lag after the last sample, and for two locations of one station.

* `c10_exchange_partial` [c q p] `CorrTrace`: if `start_lag` and `end_lag` are the lags of the first and of the last sample, then the trace is the same whichever station comes first (the correlation of the exchanged stations being the reversed one, with the lags of opposite sign), header, lag times and data, unless both traces have the same network, station and channel codes. Missing for the full property: `c10_inner_violated`, `c10_same_codes_violated`.
* `c10_alphabetical` [c q p] The codes of a stored correlation are in alphabetical order.
* `c10_lags` [c q p] The samples keep their lags up to the sign: if `end_lag` is the lag of the last sample, then the lag times of the stored trace are those of the samples, with opposite sign if the stations were exchanged.
* `c10_inner_violated` [c q p] is violated by `_pxcorr_inner`: it passes as `end_lag` the lag after the last sample. The zero lag sample (value 2) of a correlation of `S1` with `S10`, which has to be flipped, ends up at lag -1.
* `c10_inner_partial` [c q p] for `_pxcorr_inner`: data and header are independent of the order, apart from the lag times, which are one sample too early if the trace was flipped (`start_lag` is right if the stations are passed in alphabetical order). Missing for the full property: `c10_inner_violated`, `c10_same_codes_violated`.
* `c10_same_codes_violated` [c q p] is violated for two locations of one station: the codes that decide about the order are equal.
* `Xcorr.c10_exchange_reverses` [c q p] The correlation of the exchanged spectra is the reversed correlation and its lags have opposite sign, for any spectra, start times, sampling rate, parity of the length, normalised or not.

### C11 The saved lag window is centred on zero lag (partial)

Proofs: `Props/Xcorr.lean`.

Window, centre, minimal number of samples. Violated for lengthToSave = 0 (always ValueError).

* `Xcorr.c11_window` [c q p] The saved window of an array of lags `0, 1, ..., n-1` (negative lags at the end): `2s+1` samples, sample number `i` is the one of lag `i - s`, so that zero lag is in the middle and lags increase by one.
* `Xcorr.c11_samples` [c q p] The number of samples saved on each side is the smallest one that covers `lengthToSave`.
* `Xcorr.c11_zero_length_violated` [c q p] is violated for `lengthToSave = 0` (only zero lag): `tmp[-0:]` is the whole array, and the result does not fit.

### C12 Zero padding avoids wrap-around (partial)

Proofs: `Props/Subsample.lean`, `Props/Xcorr.lean`.

Every saved sample is the linear correlation at the lag of the header if the padded length is even, lengthToSave and the offset are whole numbers of samples. Violated for odd padded length and for fractions of samples.

* `Xcorr.c12_between_samples_partial` [c q p] Start times that differ by any amount, also by a fraction of a sample: let `a` and `b` be the recordings with zeros appended up to the even length `N`. The values that are saved are those of the band-limited function through the (periodic) correlation of `a` and `b` at whole samples, at exactly the lags of the header; by `bandLimited_unique` there is only one such function. At whole numbers up to the number of appended zeros this is the linear correlation of the recordings. Missing for the full property: odd padded lengths, see `c12_odd_length_violated`.
* `Xcorr.c12_lag_and_no_wrap_partial` [c q p] (and , start lag) If the traces have the same length, the padded length is even, `lengthToSave` is a whole number `s` of samples, the start times differ by a whole number of samples and (with `center_correlation`) the shift fits into the padding, then sample `i` of the saved correlation is the linear correlation of the two recordings at the lag `start_lag + i / sampling_rate` that the header says, for traces of any length and any values. Missing for the full property: odd padded length and fractions of samples, see below.
* `Xcorr.c12_odd_length_violated` [c q p] is violated if the padded length is odd (`irfft` without the number of samples assumes an even number): the correlation of the traces `1, 0` and `0, 1` has the values `0, 0, 1` at the lags `-1, 0, 1`; the padded length is 3, and the saved values are `3/4, 1/4, 3/4`.
* `Xcorr.c12_fraction_violated` [c q p] is violated if `lengthToSave` is no whole number of samples: the padding is rounded down and the number of saved samples is rounded up. Five samples at 1 Hz, `lengthToSave = 1.5`: the padded length is 6, two lags are saved on each side, and the value at lag 2 is the product of the last sample of the first and the first sample of the second trace, which is the correlation at lag -4.

### C13 Correlations in the database are never overwritten (proved)

Proofs: `Props/Db.lean`.

The full statement is proved of the model.

* `c13_first_write_wins` [q p] For every sequence of additions `as` (each a stream of traces) the dataset found at a place is the one that was there before, and if there was none, the first one added for this place.
* `c13_never_overwritten` [q p] In particular nothing that is stored changes or disappears.
* `c13_options_kept` [none] and the stored options stay

### C14 What was added can be read back (proved)

Proofs: `Props/Db.lean`.

The full statement is proved of the model.

* `c14_read_back` [c q p] A trace added to a free place is returned, and nothing else, when it is requested by its codes, tag and time window.
* `c14_read_back_later` [c q p] It stays readable whatever is added later.
* `c14_missing` [c q p] What was never written raises `KeyError`.

### C15 Removing data removes exactly the addressed data (partial)

Proofs: `Props/Db.lean`.

Exact for literal times and for '*'. Violated for '?'.

* `c15_literal_exact` [c q p] (no wildcard) For every database `remove_data` removes exactly the correlations of the tag, the codes and the start time; if there are none it changes nothing.
* `c15_star_exact_partial` [c q p] (wildcard `*` in the start time) If there are correlations of the tag and codes, exactly those whose start time matches are removed. Missing: `?`, see `c15_question_violated`, and bracket expressions.
* `c15_wildcard_codes_rejected` [c q p] A `*` in one of the codes is rejected for every database.
* `c15_question_violated` [p] is violated for `?`: it is treated like `*`, so the request `1?` also removes the start time `100`.
* `c15_star_missing` [p] , error branch: with a wildcard in the start time and no correlation of these codes the call raises `KeyError` (without wildcard it only warns).

### C16 Mixing correlations computed with different options is refused (partial)

Proofs: `Props/DbOptions.lean`.

Different relevant options are refused (proved); equal ones are accepted unless two mask steps are adjacent (violated).

* `c16_different_refused` [c q p] Different options are always refused: for all options `co0` with which the database was created and all options `co` that differ from them in anything that influences the correlations, opening raises `PermissionError` unless forced.
* `c16_equal_accepted_partial` [c q p] Equal options are never refused, if neither list of preprocessing steps contains two consecutive masking steps. Missing: consecutive masking steps, see `c16_equal_accepted_violated`.
* `c16_otherwise` [p] With `force` nothing is refused; without stored options they are stored; without options nothing is checked.
* `c16_stored_options_stay` [p] the options stored first stay, whatever is opened later and however often
* `c16_equal_accepted_violated` [c q p] is violated: with two consecutive masking steps a database that has just been created with some options is refused when opened again with the same options.

### C17 Storing options is idempotent and ignores what does not influence the correlations (partial)

Proofs: `Props/DbOptions.lean`.

Idempotent unless two mask steps are adjacent (violated).

* `c17_what_is_stored` [c q p] (what is removed) The stored options contain none of the keys that do not influence the correlations and all others unchanged; steps that do not mask are kept in order; with no two consecutive masking steps no masking step is kept.
* `c17_idempotent_partial` [c q p] (idempotent) for options without two consecutive masking steps. Missing for the full property: `c17_idempotent_violated`.
* `c17_idempotent_violated` [p] is violated for two consecutive masking steps.

### C18 Databases opened without options are opened read-only (proved)

Proofs: `Props/DbOptions.lean`.

The full statement is proved of the model.

* `c18_mode` [c q p] (mode)
* `c18_file_name` [c q p] (file name) The name ends in `.h5`; a suffix that is there is not doubled, and if there is none it is appended. (A path that is just `h5` is left as it is.)

### C19 Compression option is validated (partial)

Proofs: `Props/DbOptions.lean`.

Accepted names are valid and all valid ones are accepted; strings that merely contain a valid name are accepted too (violated).

* `c19_level` [c q p] (level) For every requested level the effective level is between 1 and 9 and no other valid level is closer.
* `c19_method_and_level` [c q p] A string made of the name of a method and a level: `gzip` is accepted with the closest valid level, every other method raises `ValueError`.
* `c19_number` [c q p] The name of a method and a number `n` written in decimal notation: `gzip` is accepted with the level between 1 and 9 that is closest to `n`.
* `c19_accepted_is_valid` [c q p] Whatever the string, what is accepted is gzip with a level between 1 and 9.
* `c19_no_level` [p] A string without a level is rejected, though with `IndexError`.
* `c19_other_rejected_violated` [p] is violated for strings with other text around: the first match in the string is used.

### C20 Wildcard reads return exactly the matching correlations (partial)

Proofs: `Props/Db.lean`, `Props/DbLevels.lean`.

Start/end wildcards are exact; complete for whole-component wildcards; wildcards inside a component miss, '*Z' matches too much, and options are returned as data (violated).

* `c20_times_exact` [c q p] , for explicit codes and tag and a missing start or end time: the result is exactly the list of the addressed correlations, each once, if there is a correlation with these codes (and this start time, if given); else `KeyError`.
* `c20_complete_partial` [c q p] (nothing is missing) For requests with wildcards in any component, if every component is a literal code or starts with a wildcard: every stored correlation whose components match is in the result. The codes are assumed to be in order already (this is so whenever one of them is just `*`). Missing for the full property: `c20_inner_wildcard_violated`, `c20_overmatch_violated`, `c20_options_dataset_violated`.
* `c20_inner_wildcard_violated` [c q p] is violated (something is missing): a wildcard in the middle of a component raises `KeyError`, because the text before the wildcard is opened as a group; the network `A-*` finds nothing, because the request is sorted as text and becomes `*-A` with the stations exchanged.
* `c20_overmatch_violated` [c q p] is violated (too much is returned): the request for channels ending in `Z` returns the channel `HHE-HHE`, because the pattern of the channel is also compared with the formatted time, which ends in `Z`.
* `c20_options_dataset_violated` [p] is violated (not a correlation): a request with wildcards everywhere also returns the dataset with the options.
* `c20_stored` [q p] (nothing is invented) Whatever is requested, with or without wildcards: the correlations in the result are stored correlations, each as often as it is stored, in the order of the database.
* `c20_levels_exact` [c q p] (whole levels) A request with literal codes for the tag, or for the tag and the networks, or for the tag, the networks and the stations, and `*` for everything below them, returns exactly the stored correlations with these codes, each once; if there are none, it raises `KeyError`.

### C21 Lag and time header fields stay consistent under any sequence of assignments (proved)

Proofs: `Props/CorrStats.lean`.

The full statement is proved of the model.

* `c21_consistent` [c q p] After any sequence of assignments (refused ones are ignored by the caller) to a header with the default values, the derived fields fit.
* `c21_preserved` [c q p] The same for any header that is consistent already.
* `c21_from_dictionary` [c q p] A header that is built from a dictionary is consistent, whatever the dictionary says about the derived fields.
* `c21_last_lag` [c q p] , last sample: the lag times of the samples end at `end_lag`.

### C22 Derived header fields are read only (proved)

Proofs: `Props/CorrStats.lean`.

The full statement is proved of the model.

* `c22_read_only` [c q p] Assigning to a derived field is refused and the header stays as it is.
* `c22_only_derived` [c q p] only these assignments are refused as read only.

### C23 Selecting correlations by time is exact (proved)

Proofs: `Props/StreamSelect.lean`.

Exact, with order and multiplicity.

* `c23_select_exact` [c q p] `select_corr_time` returns exactly the correlations in the requested window (each as often as it is in the stream), in order of their start; correlations with the same start keep their order.

### C24 Dropping correlations at given times is exact (proved)

Proofs: `Props/StreamSelect.lean`.

The full statement is proved of the model.

* `c24_pop_exact` [q p] `pop_at_utcs` removes exactly the correlations whose window strictly contains one of the times and keeps the order of the others.

### C25 Removing duplicates keeps one of each (partial)

Proofs: `Props/StreamSelect.lean`.

Exact if the data contain no nan; equal correlations with nan both stay (violated). The kept traces are always a sublist without two traces that compare equal.

* `c25_duplicates_partial` [q p] After `remove_duplicates` every correlation that was present is present exactly once, and the order is that of the stream, if the data contain no `nan`. Missing for the full property: `c25_nan_violated`.
* `c25_nan_violated` [c q p] Two equal correlations with a `nan` both stay.
* `c25_sublist` [q p] In any case nothing new appears, the order is kept, and no two of the remaining correlations compare equal (`==`).

### C26 Time of day selection (partial)

Proofs: `Props/DayLength.lean`, `Props/StreamSelect.lean`.

Partition proved in general; exact for correlations within one day; windows that cross midnight are misjudged (violated).

* `c26_nanoseconds_partial` [c q p] In nanoseconds, with the length of a day written out: a correlation within one day is selected iff there is a day in whose interval from `start` to `stop` after midnight it lies. Partial: correlations over midnight (`c26_midnight_violated`).
* `c26_partition` [p] With and without `exclude`, `select_time` partitions the stream: every correlation is in exactly one of the results.
* `c26_same_day_partial` [c q p] A correlation within one day is selected iff its window lies in the daily interval. Missing for the full property: `c26_midnight_violated`.
* `c26_midnight_violated` [c q p] A window from 20:00 to 05:00 of the next day counts as lying between 04:00 and 06:00.

### C27 Stacking windows partition the stream (partial)

Proofs: `Props/DayLength.lean`, `Props/StreamSelect.lean`.

Partition proved for given times and for days; with default times a correlation that ends after the one that starts last may be lost (violated), otherwise proved.

* `c27_nanoseconds` [c q p] In nanoseconds, with the length of a day written out: every window of daily stacks holds the correlations that end within one day after midnight.
* `c27_windows_partition` [c q p] The windows in which a stream is stacked are disjoint: together they hold every correlation that ends after `starttime` exactly once (as often as it is in the stream), provided no correlation ends after `endtime`. Every window is an interval of length `len` and is not empty.
* `c27_slide` [c q p] `slide` yields, for all starts `starttime + k * step` before `endtime`, the correlations in the window of length `windowLength` from this start, and skips the windows without a correlation.
* `c27_daily` [c q p] Daily stacks: every window holds the correlations that end in one calendar day (midnight belongs to the day before).
* `c27_default_partial` [c q p] With the default times every correlation (of positive duration) is in exactly one window, provided that no correlation ends after the one that starts last. Missing for the full property: `c27_default_violated`.
* `c27_default_violated` [c q p] Otherwise a correlation may be in no window: of the correlations [0, 5], [5, 105] and [10, 15] the second one is lost with windows of length 100.

### C28 Stacking groups only equal codes (proved)

Proofs: `Props/StreamSelect.lean`.

The full statement is proved of the model.

* `c28_groups` [c q p] The stacks belong to a partition of the stream: each part holds all correlations with the same codes in the order of the stream, different parts have different codes, and there is one stack per part, with these codes.
* `c28_total` [c q p] A stream without data sets has no stacks; otherwise the only error is an unknown weight.

### C29 A stack is bounded by and covers its members (partial)

Proofs: `Props/Stack.lean`.

Bounds, copies and normalisation proved for 'mean' and, without nan, for 'by_length'; violated for 'by_length' with nan. Header end is that of the last-starting member (violated if an earlier one ends later).

* `c29_mean_bounded` [c q p] Each sample of the (not normalised) mean stack lies between the smallest and the largest of the stacked samples that are not `nan`. It is `nan` iff all of them are.
* `c29_weighted_bounded_partial` [c q p] The same holds for stacks weighted by length if the durations are positive and the data contain no `nan`. Missing for the full property: `c29_weighted_nan_violated`, `c29_copies_weighted_violated`, `c29_covers_violated`.
* `c29_weighted_nan_violated` [c q p] With `nan`, a stack weighted by length leaves the range of the samples: the stack of 1 and `nan` is 1/2.
* `c29_normalised` [c q p] Normalisation (the default when stacking a stream) divides the stack by its absolute maximum: samples are at most one in absolute value, one of them is exactly one, and all are in the proportion of the stack that is not normalised.
* `c29_copies` [c q p] Stacking copies of one trace gives this trace.
* `c29_copies_weighted_partial` [c q p] The same for stacks weighted by length, if there is no `nan`. Missing for the full property: `c29_weighted_nan_violated`, `c29_copies_weighted_violated`, `c29_covers_violated`.
* `c29_copies_weighted_violated` [c q p] Copies of `nan` weighted by length give 0.
* `c29_start` [c q p] The header of the stack starts with the earliest member.
* `c29_covers_partial` [c q p] It covers the windows of all members if correlations that start later do not end earlier. Missing for the full property: `c29_weighted_nan_violated`, `c29_copies_weighted_violated`, `c29_covers_violated`.
* `c29_covers_violated` [c q p] Otherwise it need not: the stack of [0, 100] and [10, 20] ends at 20.
* `c29_header` [c q p] The header of a stack is consistent and belongs to its data.

### C30 Bulk and stream conversion round trip (partial)

Proofs: `Props/Bulk.lean`.

Round trip preserves samples, windows, codes and lags; calib, coordinates and extra entries become those of the first trace (violated for extras).

* `c30_round_trip_partial` [c q p] Converting a stream to a bulk and back gives the traces with the sampling rate of the first one, in the same order, with the same samples, time windows, codes and lag times; `calib`, the coordinates and additional header entries are those of the first trace. Missing for the full property: `c30_extra_violated`.
* `c30_extra_violated` [c q p] Additional header entries of later traces are replaced by those of the first.
* `c30_rejects` [q p] A stream of traces that cannot be in one matrix is rejected.
* `c30_rows` [q p] A conversion that succeeds yields one row per trace with the sampling rate of the first one, in order.

### C31 Bulk headers are built only from consistent traces (partial)

Proofs: `Props/Bulk.lean`.

Iff proved relative to the first trace; if the first trace lacks coordinates, different coordinates are mixed (violated).

* `c31_iff` [q p] A bulk header can be built iff the fields that must not vary are equal to those of the first trace; otherwise there is a `ValueError`.
* `c31_fields` [p] The varying fields become lists with one entry per trace in order, the others are those of the first trace, and the number of traces is that of the list.
* `c31_pairwise` [q p] If all traces have coordinates, success means that all fields that must not vary agree between any two traces.
* `c31_missing_coordinates_violated` [q p] If the first trace has no coordinates, traces with different coordinates are mixed.

### C32 Slicing a bulk keeps data and header aligned (partial)

Proofs: `Props/Bulk.lean`.

Rows exact; a bulk with one row cannot be sliced and ntrcs is stale after slicing by time (violated). Index slices are exact.

* `c32_slice_partial` [c q p] Slicing a bulk keeps exactly the rows whose window is in the range, and every row keeps its own header entries. Missing for the full property: `c32_single_row_violated`, `c32_ntrcs_violated`.
* `c32_range_error` [none] An empty or reversed range is a `ValueError`.
* `c32_single_row_violated` [q p] A bulk with a single correlation cannot be sliced.
* `c32_ntrcs_violated` [q p] The header entry for the number of traces is not updated.
* `c32_index_slice` [q p] A slice of indices keeps exactly these rows and the number of traces is updated.
* `c32_item` [c q p] A single index gives the correlation of this row.

### C33 Every computed correlation is written exactly once (proved)

Proofs: `Props/Run.lean`.

For all sequences of increments and windows (gaps included).

* `c33_written_once` [q p] . For all read increments `incs`, each a list of windows (`none`: no data, `some l`: the correlations of the window): what is handed to the writer is, in order, all correlations of all windows, each once, and never an empty stream.

### C34 Correlations are written and stacked per read increment (partial)

Proofs: `Props/Run.lean`.

c34_actual gives the content of every write for all inputs: the remaining windows of the previous increment plus the first window of the next one. So the property fails with more than one window per increment (violated) and holds with at most one.

* `c34_actual` [q p] (what the writes contain) The writes are the non-empty members of `delayed`: every write consists of the windows of the previous increment except its first one, followed by the first window of the increment.
* `c34_partial` [q p] (holds with one window per increment) If every read increment yields at most one window, the writes are the non-empty increments. Missing: increments with several windows, see `c34_violated`.
* `c34_violated` [none] is violated: two read increments with two windows each. The first write contains only the first window; the second write mixes the second window of the first increment and the first window of the second.

### C35 All processes pass the same number of collective calls (partial)

Proofs: `Props/Run.lean`.

Holds if the traces of each process are aligned and span the increment. Violated by sub-sample offsets between traces of a process, by data that end early, and by ValueError in the preprocessing of one process. obspy's slide is modelled from its documentation.

* `c35_partial` [c q p] (holds for aligned data) Let `n` be the number of correlation increments in `readLen`. If every process that has data finds all its traces to begin at a common time and to end at a common time, such that they span `n` increments as well, then every process passes exactly `n` gathers, processes without data included. Missing: traces of one process that are not aligned to the sample, traces that do not fill the increment, and processes on which preprocessing fails; see `c35_offset_violated`, `c35_short_violated` and `c35_failure_violated`.
* `c35_offset_violated` [none] is violated: a process with two traces that are shifted against each other by part of a sample (unit: a tenth of a second, sampling 1 Hz) sees a longer stream and loops over one more window than a process with one trace.
* `c35_short_violated` [none] is violated: if the data of one process cover only the first half of the increment, this process leaves the loop earlier than a process without any data.
* `c35_failure_violated` [none] is violated: a process on which resampling or preprocessing raises `ValueError` skips all gathers of the increment.

### C36 A crashed run can be resumed (partial)

Proofs: `Props/Resume.lean`.

Any number of crashes at any points; needs a look-up of existing data that returns (it can raise KeyError: c36_restart_violated). c36_keeps holds unconditionally. The correlation of a pair is taken to depend on the two traces only; stacks written by a crashed run are not covered.

* `c36_resume_partial` [c q p] (if the restart gets past looking up the existing data) Let a run over `wins` be started on any directory `dir`, be killed at any point, started again, killed again, and so on any number of times. If a further run can look up the existing data (`findExistingTimes` returns), it ends, and afterwards every file contains under every path exactly what an uninterrupted run leaves there: what was there before, and otherwise the correlation of the pair. Missing: the look-up may fail, see `c36_restart_violated`.
* `c36_keeps` [c q p] (nothing is changed) Nothing that is in the directory is changed by any number of killed runs and a complete one.
* `c36_skipping` [c q p] (skipping is sound) A completed run leaves the same as a run that computes all pairs without looking for existing data.
* `c36_restart_violated` [c q p] is violated: with stations `S1`, `S2` and `S22` a restart after a (killed or complete) run fails with `KeyError` while looking up the existing data, so the run cannot be resumed.

### C37 Different processes never write to the same file (proved)

Proofs: `Props/Run.lean`.

For all streams and all process counts, both file layouts.

* `c37_disjoint` [c q p] . For every stream and any number of processes: no file is written by two different processes, no process opens a file twice, and the files are those of the codes in the stream.

### C38 Trimming keeps exactly the requested lag window (partial)

Proofs: `Props/PostCorr.lean`.

Samples: for every window inside the trace. Header: exact if the window starts on a sample, otherwise start_lag is off by less than one sample (violated).

* `c38_trim` [c q p] (samples) For every matrix and every lag window `[a, b]` that lies inside the trace, the result contains from every row exactly the samples from the last one at or before `a` to the last one at or before `b`, and the number of samples in the header is right.
* `c38_header_partial` [c q p] (header) If the window begins on a sample, the header describes the returned samples: their lags are the lags of the samples that were kept. Missing: windows that begin between two samples, see `c38_header_violated`.
* `c38_outside` [c q p] (outside) A window that begins before the first sample or ends after the last one leaves data and header as they are.
* `c38_header_violated` [c q p] is violated: if the window begins between two samples, the first sample is the one before, but the header says that it is at the beginning of the window. Here the sample of lag -1 is returned with lag -1/2.

### C39 Resampling in time averages exactly the correlations of each bin (proved)

Proofs: `Props/PostCorr.lean`.

For all matrices, start times and bins.

* `c39_bins` [c q p] . For every matrix with `m` columns, all start times and all bins: the function succeeds if the bins are given correctly, it returns the bins in the header, and each row is, column by column, the mean of the values that are not `nan` of exactly the correlations starting in the half-open bin; `nan` if there are none. Without end times all bins are as long as the distance of the first two start times.
* `c39_one_bin` [c q p] (each correlation counts once) For contiguous bins of equal length every time inside the range is in exactly one bin.

### C40 The list of monitoring times is complete (proved)

Proofs: `Props/PostCorr.lean`.

For all rational arguments.

* `c40_times` [c q p] . For positive increment and length and `start < stop` the start times are exactly `start + k * inc` below `stop`, in increasing order; the end times are `winLen` later.
* `c40_rejects` [q p] (errors) Everything else raises `ValueError`.

### C41 Mirroring averages causal and acausal sides (partial)

Proofs: `Props/PostCorr.lean`.

Holds if zero lag is on a sample; if it falls between two samples the mirrored samples are those of different lags (violated).

* `c41_mirror` [c q p] . Let zero lag be at sample `z > 0` and let there be samples after it. Then sample `i` of a mirrored row is the mean of samples `z + i` and `z - i` if both exist and the one that exists otherwise. The header starts at lag zero and has the number of samples of the longer side.
* `c41_one_sided` [c q p] (nothing to mirror) Without samples on both sides of zero lag data and header are returned as they are.
* `c41_between_samples_violated` [c q p] is violated if no sample is at lag zero: the function returns the number 0 instead of a matrix and a header.

### C42 Central taper works for every admissible width (partial)

Proofs: `Props/PostCorr2.lean`.

Holds if the tapered part does not begin before the trace and does not end exactly one sample after it; otherwise ValueError although the width is admissible (violated). The cosine taper is a parameter.

* `c42_taper_partial` [c q p] (taper inside the trace) Let zero lag be at sample `z`, let the taper reach over `h` samples on each side (`h` is half the width, rounded up), and let its slopes have `slope` samples. If the taper does not begin before the trace (`h ≤ z`) and does not end exactly one sample after it (`z + h ≠ npts`), the function succeeds; all samples more than `h` samples away from zero lag are unchanged, those inside the slopes are zero, and those on the slopes are multiplied by the values of the cosine taper. Missing: `h > z` and `z + h = npts`, see `c42_begin_violated` and `c42_end_violated`.
* `c42_rejects` [c q p] (errors)
* `c42_zero` [c q p] (width zero) The data are returned as they are.
* `c42_begin_violated` [c q p] is violated: if the central part reaches over the beginning of the trace (here a one-sided trace, as after mirroring), the function raises `ValueError` although the width is admissible.
* `c42_end_violated` [c q p] is violated: if the central part ends exactly one sample after the last one, the function raises `ValueError`.

### C43 Decimation keeps every factor-th sample (partial)

Proofs: `Props/PostCorr2.lean`.

The last of the samples 0, f, 2f, ... is always dropped (violated); all other samples, the header, and the errors are as stated. The filter is a parameter.

* `c43_decimate_partial` [c q p] (all but the last one) For every matrix and factor `f ≥ 2`: the result holds, for the filtered row `y` (filtered forwards and backwards), the samples `y[0], y[f], y[2f], ...` except the last of them. The header reports the number of samples that are returned and the reduced rate. Missing: the last sample, see `c43_last_violated`.
* `c43_factor` [c q p] (errors and identity)
* `c43_last_violated` [c q p] is violated: of 6 samples, decimated by two, the samples 0 and 2 are returned; sample 4 is missing. (No filter, for simplicity.)
* `c43_choice` [c q p] (choice) The matrix is decimated iff the ratio of the rates is an integer, and the factor is this ratio.

### C44 Lag resampling finds a common length or fails (proved)

Proofs: `Props/ClaimDetails2.lean`, `Props/PostCorr2.lean`.

Rates are exact rationals here; the comparison of floating-point durations is in Model/FloatResample.lean (C197). The filter and scipy's resample are not modelled.

* `c44_header` [c q p] C44: after resampling, the header has the new sampling rate and the old start lag, and the number of samples is the largest one that fits into the old duration.
* `c44_terminates` [c q p] (termination) For all rates and lengths the search ends after finitely many iterations.
* `c44_durations` [c q p] (success) If the search ends successfully, the padded duration before resampling is exactly the duration after it, and the number of samples that are kept is the largest one that fits into the original duration.
* `c44_failure` [c q p] (failure) `TypeError` is raised only if there is no common duration with at most `num` additional samples; in particular, a common duration is found if there is one.

### C45 Normalisation bounds amplitudes (partial)

Proofs: `Props/Amplitude.lean`.

Holds for energy, abssum and absmax with a window that contains a sample. Violated for type max (negative maximum flips the polarity) and for windows without samples (all data become NaN). Real numbers.

* `c45_normalize_partial` [c q p] For the types energy, abssum and absmax and every window inside the trace that contains a sample: every row is divided by a positive number `m row`. If the row is zero in the window, it is unchanged; otherwise its samples in the window have unit size afterwards (root mean square, mean absolute value, or maximum absolute value one). With both times omitted the window is the whole trace. Missing for the full property: `c45_max_violated`, `c45_empty_violated`.
* `c45_outside` [c q p] (window outside the trace) If the window begins before the trace or ends at or after its end, the data are returned unchanged.
* `c45_unknown` [c q p] (errors) An unknown type raises `ValueError` if there is something to normalise.
* `c45_max_violated` [c q p] is violated for the type max: a trace with negative samples only is multiplied by a negative number, and its maximum is not one afterwards.
* `c45_empty_violated` [c q p] is violated for a window without samples (start equal to end): all data become NaN.

### C46 Clipping bounds amplitudes and changes nothing else (proved)

Proofs: `Props/Amplitude.lean`.

For all matrices, axes and factors >= 0, with NaN in the preprocessing version. The level is computed from the data, so a second call with the same factor is a clipping at another level (c46_second_call).

* `c46_clip` [c q p] (post-processing) With a factor that is not negative: the sample in row `i` and column `j` of the result does not exceed the level `v` (the factor times the standard deviation of its row, its column, or the whole matrix) in absolute value, is the old sample if this does not exceed the level, and is the level with the sign of the sample otherwise.
* `c46_same_level` [c q p] (same level) Clipping the result again at the levels of the first call changes nothing.
* `c46_td_clip` [c q p] (pre-processing) For a trace with missing samples (NaN): missing samples stay missing, no sample exceeds the factor times the standard deviation of the valid samples, samples within this level are unchanged, others get the level with their sign.
* `c46_second_call` [c q p] (calling the function again is not clipping at the same level) The level is computed from the data, so a second call with the same factor clips again: with factor one the trace (0, 0, 0, 4) gets the level √3, and then a lower one.

### C47 The reported velocity change is the best match (partial)

Proofs: `Props/Stretch.lean`.

The code does not satisfy the full statement. C47 violated: one stretched reference that vanishes in the window makes the result undefined, although the other one matches the data perfectly C47 is violated by a single reference: it is compared with any number of tested values without an error, and the first of them is reported.

* `c47_best` [c q p] For every window and every time, if the data are free of NaN or NaNs are removed, correlation and value are the best match among the normalised correlation coefficients of the data with the stretched references on the samples of the window, and they are undefined if one of these is; all coefficients are at most one in absolute value.
* `c47_coherence` [c q p] The waveform coherence of every window and time is the normalised correlation coefficient with the reference on the samples of the window and at most one in absolute value.
* `c47_undefined_violated` [c q p] violated: one stretched reference that vanishes in the window makes the result undefined, although the other one matches the data perfectly
* `c47_numbers` [c q p] As many tested values as stretched references are required: if there is more than one reference and a window, other numbers are refused.
* `c47_single_violated` [c q p] is violated by a single reference: it is compared with any number of tested values without an error, and the first of them is reported.
* `c47_nan_row` [c q p] If NaNs are not removed, a NaN anywhere in the data of a time, even outside of the window, makes all its results undefined.

### C48 Lag windows are symmetric and inside the trace (partial)

Proofs: `Props/Stretch.lean`.

The code does not satisfy the full statement. C48 violated: on the left side a lag just beyond the beginning of the trace is not rejected but uses the sample at its end

* `c48_window_partial` [c q p] A window of lags between zero and the central sample (of the trace for `single`) uses exactly the samples at these lags on the requested side or sides of the central sample. Partial: lags beyond the trace are not always rejected (`c48_wrap_violated`).
* `c48_wrap_violated` [none] violated: on the left side a lag just beyond the beginning of the trace is not rejected but uses the sample at its end
* `c48_rejected` [q p] A sample index at or behind the end of the trace is rejected with IndexError, an empty window on both sides with IndexError, an unknown side with ValueError.
* `c48_creation` [c q p] Windows are made of consecutive lags beginning at the start of the window.

### C49 Multi-reference alignment is consistent (proved)

Proofs: `Props/Stretch.lean`.

The full statement is proved of the model.

* `c49_differences` [c q p] The linear system of the alignment has one row for every ordered pair of different references, and for every choice of offsets of the references with the first at zero the row of a pair is the difference of their offsets.
* `c49_consistent` [c q p] If the measured shifts are the differences of offsets `o` of the references and all weights are positive, then the linear system that is solved has exactly one solution, the offsets relative to the first reference.
* `c49_centred` [c q p] Relating the offsets to their mean does not change their differences, and the resulting offsets sum up to zero.

### C50 Only usable points enter the shift between references (partial)

Proofs: `Props/MultiRef.lean`, `Props/Stretch.lean`.

The code does not satisfy the full statement. C50 violated: points with negative coherence do contribute C50 violated: a point at which both curves match perfectly is left out

* `c50_coherence_partial` [c q p] (weight of a pair of references). The combined correlation is a mean of the sums of both correlations at usable points with the weights of the shift: it lies between the smallest and the largest sum, and exists iff there is a usable point. Partial: usable points are those of `c50_mean_partial`.
* `c50_weight` [c q p] With coherences of at most one in absolute value, a point has a weight iff both coherences are defined and not zero and not both of absolute value one; the weight is positive and the inverse of the sum of the variances `(1 - c^2) / (4 c^2)`.
* `c50_mean_partial` [c q p] If both curves have a value at all usable points, the shift is the mean of the differences weighted with the (positive) weights of `c50_weight`, so it lies between the smallest and the largest difference at usable points; there is a shift iff there is a usable point. Partial: points with negative coherence are usable (`c50_negative_violated`) and points with perfect coherence are not (`c50_perfect_violated`).
* `c50_negative_violated` [c q p] violated: points with negative coherence do contribute
* `c50_perfect_violated` [c q p] violated: a point at which both curves match perfectly is left out

### C51 Averaging components averages the similarity matrices (partial)

Proofs: `Props/AverageDv.lean`, `Props/ClaimDetails2.lean`, `Props/ShiftValue.lean`.

The code does not satisfy the full statement. C51 violated: with a NaN among negative similarities, the reported value is the stretch of the NaN and not the one of the reported correlation C51 violated: a result of a station whose code contains `av` is taken for an average and not used

* `c51_mean` [c q p] The similarity of the average at each time and stretch is the mean of the defined similarities of the usable inputs: those with the grid of the first input that are not averages themselves (no code contains `av`).
* `c51_shape` [c q p] the size of the average is the one of the usable inputs
* `c51_methods` [c q p] Inputs computed with different methods are rejected with TypeError.
* `c51_best_partial` [c q p] The reported correlation of each time is the largest defined similarity of the average, and if the average has no NaN at this time or the maximum is positive, the reported value is the first stretch at which it is attained. Partial: otherwise see `c51_best_violated`.
* `c51_best_violated` [c q p] violated: with a NaN among negative similarities, the reported value is the stretch of the NaN and not the one of the reported correlation
* `c51_code_violated` [c q p] violated: a result of a station whose code contains `av` is taken for an average and not used
* `c51_count` [c q p] The number of stations of each time counts the usable inputs with a defined correlation at this time.
* `c51_sizes` [c q p] C51: results whose similarity matrix has another number of rows or columns than that of the first one, or other stretches, have no effect on the average.
* `c51_codes` [c q p] Network, station and channel of an average are those common to all its usable inputs; a code in which the usable inputs differ becomes `av`.

### C52 Memory saving average equals the normal average (partial)

Proofs: `Props/AverageDv.lean`.

The code does not satisfy the full statement. C52 violated: a NaN for a single stretch is ignored by one average and counts as zero in the other C52 violated: if the first input is an average itself and is left out, the memory saving variant takes over its codes C52 violated: without usable input one raises and the other returns a result

* `c52_equal_partial` [c q p] If the first input is usable and the NaNs of every usable input concern complete times, the memory saving average is equal to the normal average in all its parts. Partial: otherwise they differ (`c52_nan_violated`, `c52_first_violated`, `c52_none_violated`).
* `c52_nan_violated` [c q p] violated: a NaN for a single stretch is ignored by one average and counts as zero in the other
* `c52_first_violated` [c q p] violated: if the first input is an average itself and is left out, the memory saving variant takes over its codes
* `c52_none_violated` [c q p] violated: without usable input one raises and the other returns a result

### C53 Shift correction moves each time step along the stretch axis only (partial)

Proofs: `Props/ShiftDv.lean`, `Props/ShiftValue.lean`.

The code does not satisfy the full statement. C53 violated: for every shift to larger stretches, the first similarities of each time but the first come from the end of the row of the previous time. C53 violated: a time without data (value, correlation and similarities NaN) has a value after the correction, even if nothing is shifted C53 violated: if two results have exactly one time in common and no additional overlap is requested, nothing is compared and the correction fails with ValueError.

* `c53_same_time_partial` [c q p] Where the origin of a similarity lies on the stretch axis, the corrected matrix holds the similarity of the same time, moved along the stretch axis. Partial: at the edge similarities of other times enter (`c53_leak_violated`).
* `c53_leak_violated` [c q p] violated: for every shift to larger stretches, the first similarities of each time but the first come from the end of the row of the previous time.
* `c53_missing_violated` [q p] violated: a time without data (value, correlation and similarities NaN) has a value after the correction, even if nothing is shifted
* `c53_constant` [c q p] If in the part that is compared the first curve has the constant value `a` and the second one the constant value `b`, which lies `k` steps of the stretch axis above, with positive correlations, then the first curve is moved by `k` steps.
* `c53_single_violated` [c q p] violated: if two results have exactly one time in common and no additional overlap is requested, nothing is compared and the correction fails with ValueError.
* `c53_value` [c q p] Each value of a corrected curve is the first position of the axis with the largest similarity of its time in the corrected matrix, where missing similarities count as zero.
* `c53_window_partial` [c q p] The window whose weighted means decide the shift reaches from the first to the last time at which both curves have a correlation, widened by the permitted overlap. Partial: the last time of the window is left out, see `c152_last_violated`.

### C54 Only requested correlation files are processed (partial)

Proofs: `Props/MonitorFiles.lean`.

The code does not satisfy the full statement. C54 violated: if networks and stations are given as lists, the stations are not compared, whatever the stations are C54 violated: a correlation between two requested networks is not selected

* `c54_selected_partial` [c q p] A correlation file of the directory is selected iff a requested pattern matches both networks and a requested pattern matches both stations, unless both networks and stations are given as lists. Partial: with two lists the stations are not compared (`c54_lists_violated`), and two codes that match different patterns of a list are not selected (`c54_mixed_violated`).
* `c54_single` [c q p] With one pattern for the networks and one for the stations, a file is selected iff both networks match the one and both stations the other.
* `c54_lists_violated` [c q p] violated: if networks and stations are given as lists, the stations are not compared, whatever the stations are
* `c54_mixed_violated` [p] violated: a correlation between two requested networks is not selected
* `c54_from_directory` [q p] Only files of the directory are selected, and each at most as often as it is listed.

### C55 Component averaging terminates and only groups one station pair (partial)

Proofs: `Props/MonitorFiles.lean`.

The code does not satisfy the full statement. C55 violated: if the path of the results contains brackets, the loop does not end. C55 violated: a pair of stations whose name begins with the name of another pair is averaged with it C55 violated: if `av` occurs anywhere in the path of the results, nothing is averaged

* `c55_terminates_partial` [c q p] The averaging loop ends after at most as many passes as there are files, if no path contains `[`. Partial: otherwise it may run forever (`c55_loop_violated`).
* `c55_loop_violated` [p] violated: if the path of the results contains brackets, the loop does not end.
* `c55_prefix_violated` [p] violated: a pair of stations whose name begins with the name of another pair is averaged with it
* `c55_path_violated` [p] violated: if `av` occurs anywhere in the path of the results, nothing is averaged
* `c55_selected` [p] C55 (the results used by each method). Whether a result with the name `<beginning>.<station>-<station>.<channel>-<channel>.npz` is used depends only on the two stations and the two channels: autocorrelations of components, cross-correlations of components, all correlations of one station, or those of two stations.
* `c55_groups_partial` [c q p] If no path contains pattern characters and no name of a station pair is the beginning of another one, the loop computes exactly one average for every network and station pair with at least two readable results that are selected by the method and without an existing average, and this average combines exactly these results. Partial: otherwise see `c55_prefix_violated`, `c55_path_violated`.

### C56 Results survive saving and reading (partial)

Proofs: `Props/DvFileProc.lean`, `Props/Header.lean`.

The code does not satisfy the full statement. C56 is violated: a list with one time is read as a time, whatever the time is. C56 is violated: a header with an object (None, a dictionary) is saved without an error, but the file cannot be read. C56 is violated: after reading an average with the values of the components, the header has a field that it did not have. C56 is violated: if the length of the window is not set, none of the parameters of the processing is read. C56 is violated: a curve that was not aligned counts as aligned after saving and reading, and is ignored when the curves are aligned.

* `c56_processing` [q p] For every file that is read, whoever wrote it: the frequencies and the window that are reported are exactly the numbers the file has under these names, and the sides and the flag of the alignment are those of the file.
* `c56_no_processing` [q p] No processing is reported only if one of the four numbers is missing in the file.
* `c56_all_or_nothing` [q p] If one of the four numbers is missing, no processing is reported: the other three are not returned.
* `c56_bulk_partial` [q p] (part) Saving a matrix of correlations and reading it again gives the same header and the same data. Missing: a list with a single time, fields with other names or objects (`c56_single_violated`, `c56_object_violated`).
* `c56_data_refused` [p] Correlations whose header has a field with the name `data`, which is the name of the matrix in the file, are refused: the call fails and nothing is written.
* `c56_single_violated` [p] is violated: a list with one time is read as a time, whatever the time is.
* `c56_object_violated` [q p] is violated: a header with an object (None, a dictionary) is saved without an error, but the file cannot be read.
* `c56_dv_partial` [q p] (part) Saving a velocity change and reading it again gives the same data, the same method, and the same header; if it is not an average with the values of the components, nothing is added to the header. If all four parameters of the processing are set, they are read, too. Missing: averages (`c56_average_violated`), the processing with values that are not set (`c56_processing_violated`), curves that are not aligned (`c56_aligned_violated`).
* `c56_average_violated` [q p] is violated: after reading an average with the values of the components, the header has a field that it did not have.
* `c56_processing_violated` [q p] is violated: if the length of the window is not set, none of the parameters of the processing is read.
* `c56_aligned_violated` [q p] is violated: a curve that was not aligned counts as aligned after saving and reading, and is ignored when the curves are aligned.

### C57 Cached kernels are transparent (proved)

Proofs: `Props/Spatial.lean`.

The full statement is proved of the model.

* `c57_cache` [q p] Whatever kernels were requested before on a grid, and whether these requests failed or not, every request is answered with the kernels of the requested pairs and lapse time, in the order of the request, as if nothing had been computed before.

### C58 Station coordinates are collected without duplicates (proved)

Proofs: `Props/InversionUse.lean`, `Props/Spatial.lean`.

The full statement is proved of the model.

* `c58_inversion` [c q p] (stations of inversions). After a call that succeeds, the grid knows the stations that it knew before and both stations of each curve with a valid measurement at the time, and no others, each once, both as coordinates and as positions on the grid.
* `c58_stations` [c q p] After any sequence of additions of stations the grid knows every station of the accepted additions once, and no other, by its coordinates and by its position.

### C59 Alignment sets the local mean (partial)

Proofs: `Props/AlignDv.lean`.

The code does not satisfy the full statement. C59 violated: a missing value with a coherence counts as zero, so that a constant curve aligned to 0 is not 0

* `c59_mean_partial` [c q p] If value and coherence are missing at the same points around the time, and the coherences there do not add up to zero, the coherence-weighted mean around the time is the requested value after the alignment. Partial: if a value is missing where there is a coherence, the mean is not the requested value (`c59_missing_violated`).
* `c59_shift` [c q p] All points are shifted by the same amount, missing values stay missing, and the coherences and times do not change. If the coherences around the time do not add up to zero the amount is a number.
* `c59_missing_violated` [c q p] violated: a missing value with a coherence counts as zero, so that a constant curve aligned to 0 is not 0

### C60 Each curve is aligned with its own forward value, once (partial)

Proofs: `Props/AlignDv.lean`.

The code does not satisfy the full statement. C60 violated: the first curve has a coherence of one; it gets the value that belongs to the second curve, and the second curve is not aligned C60 violated: with different lapse windows the window of the last curve is used for all of them

* `c60_others` [c q p] A curve that was aligned before, or does not start at the time, is left as it is, whatever the other curves are.
* `c60_own_value_partial` [c q p] If at the time every curve that starts has a valid value and a coherence below one, every curve that starts is aligned (`alignCurve`, see `c59_mean_partial`) to the value that the grid predicts for its own stations, for the middle of the lapse window. Partial: otherwise the predicted values are given to the wrong curves (`c60_shifted_violated`), and the lapse window is that of the last curve (`c60_window_violated`).
* `c60_first` [c q p] Before there is a grid, every curve that starts is aligned to zero.
* `c60_once` [c q p] Curves that were aligned are not shifted again by a later alignment at any time.
* `c60_shifted_violated` [c q p] violated: the first curve has a coherence of one; it gets the value that belongs to the second curve, and the second curve is not aligned
* `c60_window_violated` [c q p] violated: with different lapse windows the window of the last curve is used for all of them

### C61 Coordinates outside the grid are rejected (partial)

Proofs: `Props/Spatial.lean`, `Props/SpatialGrid.lean`.

The code does not satisfy the full statement. C61 violated: a point far to the north of the grid is assigned to the last row. C61 violated: in a list, a point outside the grid is accepted if another one is inside.

* `c61_closest` [c q p] A position that is found is the closest grid point, the first one of several.
* `c61_closest_array` [c q p] The positions of several points are the positions of the single points (closest grid points), if they are found.
* `c61_rejected_partial` [c q p] A point south or west of the corner is rejected; any other point is rejected iff its easting is farther than one cell from the grid. Partial: points north of the grid are not rejected (`c61_north_violated`).
* `c61_north_violated` [c q p] violated: a point far to the north of the grid is assigned to the last row.
* `c61_array_violated` [c q p] violated: in a list, a point outside the grid is accepted if another one is inside.
* `c61_array_partial` [c q p] A list is rejected iff a point is south or west of the corner, or the eastings of all points, or the northings of all points, are outside. Partial: for each point the property asks for its own check (`c61_array_violated`).
* `c61_axis` [c q p] The axes of a grid begin at the corner, have the spacing of the resolution and reach the requested extent with their last point, by less than one more cell.
* `c61_grid` [c q p] On a grid of `DVGrid` the position that is found is `j * nx + i`, where column `i` and row `j` are the ones whose coordinates have the smallest Euclidean distance to the point.

### C62 Only valid data enter the inversion (proved)

Proofs: `Props/Spatial.lean`.

The full statement is proved of the model.

* `c62_used` [c q p] The data used for an inversion are, in the order of the curves, exactly the values and coherences of the curves that cover the time, at the closest start time, where both are valid.
* `c62_none` [c q p] If no curve contributes, an IndexError is raised.
* `c62_succeeds` [c q p] If a curve contributes and all stations of the contributing curves are north-east of the corner of the grid, no exception is raised.

### C63 Downloaded data are stored completely (partial)

Proofs: `Props/Archive.lean`, `Props/ArchiveNames.lean`, `Props/ArchiveStream.lean`, `Props/ClaimDetails2.lean`.

The code does not satisfy the full statement. C63 violated: a last sample at midnight is not in the file of its day. C63 violated: a trace with a single sample is not stored. C63 violated: two traces of the same day with a gap between them cannot be stored.

* `c63_terminates` [c q p] Splitting a trace into days ends, for every start and length.
* `c63_stored_partial` [c q p] If storing succeeds, every sample of the trace is in the file of its day, except possibly the last one, and all samples that were in the archive are still there; nothing else is written. Partial: the last sample is missing if it is at midnight or if it is the only one (`c63_last_violated`, `c63_single_violated`), and storing can fail (`c63_gap_violated`).
* `c63_fresh` [c q p] Storing into an archive without files of these days succeeds, for every trace.
* `c63_last_violated` [c q p] violated: a last sample at midnight is not in the file of its day.
* `c63_single_violated` [p] violated: a trace with a single sample is not stored.
* `c63_gap_violated` [p] violated: two traces of the same day with a gap between them cannot be stored.
* `c63_samples_partial` [c q p] (samples) If storing succeeds, all samples of a trace but the last one are in the files of their days. Missing: the last sample, see `c63_last_violated`.
* `c63_last_partial` [c q p] (last sample) The last sample is stored too if it is not at midnight and not the only one. Missing: these two cases, see `c63_last_violated` and `c63_single_violated`.
* `c63_stream_partial` [c q p] If a stream of traces is stored, every sample of every trace is in the file of its day, except possibly the last one of a trace, all samples that were in the archive are still there, and nothing else is written. Partial: as for one trace (`c63_stored_partial`), and streams with gaps within a day are refused (`c63_gap_violated`).
* `c63_holes` [c q p] C63: samples are added to an existing file of a day exactly if the old and the new samples together have no hole, that is, each of them but the last has a successor at most one sampling interval later. Otherwise nothing is stored and an exception is raised.

### C64 First and last available day (partial)

Proofs: `Props/ArchiveNames.lean`, `Props/ArchiveTimes.lean`.

The code does not satisfy the full statement. C64 is violated: if folders of years exist but all of them are empty, an IndexError is raised instead of reporting the station as unavailable (only a FileNotFoundError is expected, and it cannot occur). C64 is violated: another folder whose name has four characters and begins with 2 makes the request fail, although there are files.

* `c64_names_partial` [c q p] (names) Files whose names end with a point and a day of the year of three digits: the reported times are the beginning of the earliest day and the end of the latest day of them, whatever precedes the day in their names. Missing: see `c64_times_partial`.
* `c64_times_partial` [c q p] (part) If a file exists for the station, the reported first time is the start of the earliest day with a file, and the reported last time is the end of the latest day with a file. Missing: names that are not years and days; a station without files (see `c64_empty_violated`).
* `c64_unavailable` [c q p] A station without the folder of a year is reported as unavailable.
* `c64_empty_violated` [c q p] is violated: if folders of years exist but all of them are empty, an IndexError is raised instead of reporting the station as unavailable (only a FileNotFoundError is expected, and it cannot occur).
* `c64_names_violated` [p] is violated: another folder whose name has four characters and begins with 2 makes the request fail, although there are files.

### C65 Adjacent files are searched in the requested direction (partial)

Proofs: `Props/FileStructure.lean`.

The code does not satisfy the full statement. C65 is violated: if the last time element is a year, the next file is searched one year earlier, and the previous file one year later. C65 is violated: the last time element decides, not the finest one. With hours in a folder and days in the name of the file, the next file is searched one day later. C65 is violated: with monthly files the search for the neighbouring file fails with a ValueError if the day does not exist in the neighbouring month. C65 is violated: without a time element, and with minutes as the last one, an UnboundLocalError is raised.

* `c65_moved_partial` [c q p] (part) For elements other than the year: if the neighbouring file name is built, its time is the given time moved by one unit of the last time element in the requested direction; in particular it is later for the next, and earlier for the previous file. Missing: the year (`c65_year_violated`), and that the last element is the finest (`c65_order_violated`).
* `c65_built_partial` [c q p] (part) The neighbouring file name is always built for the years 2 to 9998 if the last time element is not a year and not a month; for a month it is built iff the day exists in the neighbouring month. Missing for the full property: `c65_year_violated`, `c65_order_violated`, `c65_month_violated` and others.
* `c65_year_violated` [c q p] is violated: if the last time element is a year, the next file is searched one year earlier, and the previous file one year later.
* `c65_order_violated` [p] is violated: the last time element decides, not the finest one. With hours in a folder and days in the name of the file, the next file is searched one day later.
* `c65_month_violated` [p] is violated: with monthly files the search for the neighbouring file fails with a ValueError if the day does not exist in the neighbouring month.
* `c65_unbound_violated` [q p] is violated: without a time element, and with minutes as the last one, an UnboundLocalError is raised.

### C66 File structure descriptors are translated as documented (partial)

Proofs: `Props/FileStructure.lean`.

The code does not satisfy the full statement. C66 is violated: a replacement in parentheses is never applied. An element of the id with a replacement is passed to `strftime`, with the parentheses, for every id; in the example of the documentation the name contains the century and the text of the replacement instead of the last letter of the channel.

* `c66_elements_partial` [q p] (part) Every element of a descriptor without a replacement is translated as documented, for every seed id `n.s.l.c`: the elements of the id by its parts, in lower case for the lower case elements; a text without a percent sign by itself (`strftime` leaves such a text unchanged); everything else by `strftime`. Missing: the replacements, see `c66_replacement_violated`.
* `c66_replacement_violated` [q p] is violated: a replacement in parentheses is never applied. An element of the id with a replacement is passed to `strftime`, with the parentheses, for every id; in the example of the documentation the name contains the century and the text of the replacement instead of the last letter of the channel.
* `c66_short` [q p] An id with too few parts raises an IndexError.
* `c66_sds` [q p] The file name for the SeisComP data structure, for every id, every time and every base folder: `base/YEAR/NET/STA/CHA.D/NET.STA.LOC.CHA.D.YEAR.DAY`.

### C67 Wildcards in single channel requests are rejected (partial)

Proofs: `Props/Archive.lean`.

The code does not satisfy the full statement. C67 violated: requests with wildcards are never rejected, whatever the codes are.

* `c67_wildcards_violated` [q p] violated: requests with wildcards are never rejected, whatever the codes are.

### C68 Spectrograms do not depend on the number of processes (partial)

Proofs: `Props/Spectrogram.lean`.

The code does not satisfy the full statement. C68 is violated: if all streams of the first process fail, a ValueError is raised, although the other processes have computed spectra. data for which the result is a series with one process, and an error with two C68 is violated: two windows with the same time raise a ValueError. C68 is violated: with different sampling rates the frequency axis depends on the number of processes.

* `c68_series_partial` [c q p] (part) The series is sorted in time and contains every window for which a spectrum could be computed exactly once. Missing: windows with the same time (`c68_duplicate_violated`), a first process without spectra (`c68_first_violated`).
* `c68_size_partial` [c q p] (part) The result is the same for all numbers of processes for which the first process has a spectrum, if all spectra have the same frequency axis. Missing for the full property: `c68_first_violated`, `c68_processes_violated`, `c68_duplicate_violated` and others.
* `c68_first_violated` [q p] is violated: if all streams of the first process fail, a ValueError is raised, although the other processes have computed spectra.
* `c68_processes_violated` [none] data for which the result is a series with one process, and an error with two
* `c68_duplicate_violated` [c q p] is violated: two windows with the same time raise a ValueError.
* `c68_axis_violated` [none] is violated: with different sampling rates the frequency axis depends on the number of processes.

### C69 Local data are used iff they cover the request (partial)

Proofs: `Props/Archive.lean`.

The code does not satisfy the full statement. C69 violated: a short trace within a long one makes the local data look incomplete.

* `c69_local_partial` [q p] With time checking, local data are used iff they reach over the requested interval, if all traces have the same sampling interval and no trace ends before one that starts earlier. Partial: if a trace lies within another one the data may be requested remotely although they are there (`c69_nested_violated`).
* `c69_nested_violated` [p] violated: a short trace within a long one makes the local data look incomplete.
* `c69_source` [q p] Without time checking the local data are always used; they are returned in the order of their start times, and nothing is stored. If they are not used, the answer of the remote client is returned, and stored iff it is not empty and the archive is not read-only.

### C70 Discarding short traces is exact (proved)

Proofs: `Props/TraceUtils.lean`.

obspy's Stream iterates over a copy of its list of traces. Sampling rates are rationals.

* `c70_discard_short` [c q p] The traces that remain are exactly those longer than the given length (samples divided by the sampling rate), in their order; equal traces are kept or removed together.

### C71 Discarding empty traces is exact (proved)

Proofs: `Props/TraceUtils.lean`.

A trace whose samples are all NaN but not masked counts as valid, as in the code.

* `c71_valid_traces` [c q p] The traces that remain are exactly those that are not fully masked, in their order.

### C72 Moving average uses the symmetric window (proved)

Proofs: `Props/TraceUtils.lean`.

Exact arithmetic; one-dimensional arrays and the rows of matrices (last axis).

* `c72_moving_average` [c q p] The result has the length of the input, and each sample is the mean of the valid samples at most `h` samples away (NaN if there is none).
* `c72_rows` [c q p] (matrices) Along the last axis every row is averaged for itself.

### C73 Only short gaps are interpolated (partial)

Proofs: `Props/TraceUtils.lean`.

Holds for traces with a valid sample; a trace without valid sample that is not longer than the maximum gap raises ValueError (violated).

* `c73_interpolate_partial` [c q p] (some valid sample) For every trace with a valid sample and every maximum length (none: unlimited): valid samples are unchanged; a sample in a gap between two valid samples that is not longer than the maximum gets the value on the line between these two samples; all other missing samples stay missing. Missing: traces without valid sample, see `c73_all_masked_violated`.
* `c73_between` [c q p] the interpolated value lies between the neighbouring valid samples
* `c73_all_masked_violated` [c q p] is violated: a trace without valid sample that is not longer than the maximum gap raises `ValueError`.

### C74 Nested lists are flattened completely (proved)

Proofs: `Props/TraceUtils.lean`.

For every finite nesting; strings are leaves.

* `c74_flatten` [c q p] The result lists the leaves from left to right.

### C75 Downsampling never raises the sampling rate (proved)

Proofs: `Props/TraceUtils.lean`.

The anti-alias filter and Trace.resample are parameters of the model.

* `c75_trace` [c q p] (trace) A higher rate raises `ValueError`, the same rate changes nothing, a lower rate is reached exactly: by keeping every `k`-th sample of the filtered data if the old rate is `k` times the new one, by resampling otherwise.
* `c75_stream` [c q p] (stream) If the function returns, every trace has the smaller one of its old rate and the requested rate, so no rate is raised. It raises `ValueError` only if all traces have the same rate and this is below the requested one.

### C76 Masked time intervals are masked completely (partial)

Proofs: `Props/StreamArgs.lean`, `Props/TraceUtils.lean`.

c76_actual characterises exactly which samples are masked. Violated for intervals that cover the whole trace or only touch its first or last sample.

* `c76_intervals` [c q p] (intervals). With a list of ends the intervals that are masked are from each start to the end at the same place; with a length each start is followed by an interval of this length.
* `c76_actual` [c q p] (what is masked) For intervals that begin before they end: sample `i` at time `t` is masked iff there is an interval `[s, e]` of which at least one end lies strictly inside the trace, with `s - 1/sr < t < e + 1/sr`; with `reverse` it is the other way round.
* `c76_mask_partial` [c q p] (intervals with an end inside the trace) Every sample inside such an interval is masked, and no sample that is more than one sample away from all intervals is masked. Missing: intervals that cover the trace, see `c76_cover_violated`.
* `c76_cover_violated` [c q p] is violated: an interval that covers the whole trace masks nothing.
* `c76_edge_violated` [c q p] is violated at the ends: an interval that ends exactly at the first sample does not mask this sample.
* `c76_arguments` [c q p] (arguments) Exactly one of `ends` and `masklen` has to be given, and `ends` has to be as long as `starts`.

### C77 Whitened spectra have unit amplitude (partial)

Proofs: `Props/Muting.lean`.

Holds if no sample of the block is zero. One zero sample disables whitening of all traces of the process (violated); the result depends on the number of processes.

* `c77_whitening_partial` [c q p] (no zero amplitude in the block) If no sample of the block has amplitude zero: after whitening without joint normalisation, every sample except those at frequency zero has amplitude one and the phase of the old sample, and those at frequency zero are zero. Missing: blocks with a zero sample, see `c77_zero_violated`.
* `c77_zero_sample` [c q p] (what happens otherwise) If one sample of the block has amplitude zero, no sample of any trace is whitened: only frequency zero is set to zero.
* `c77_zero_violated` [c q p] is violated: a trace of zeros (a gap) prevents that the other trace of the same process is whitened; the sample 5 keeps its amplitude.
* `c77_block_violated` [c q p] (consequence for parallel runs) The result for a trace depends on the other traces in the block of the process, hence on the number of processes: alone, the first trace is whitened.
* `c77_joint_rejects` [c q p] (joint normalisation) The joint normalisation raises `AssertionError` unless the number of traces in the block is a multiple of three. Together with the distribution of traces over processes, the same data fail or not depending on the number of processes.
* `c77_joint_partial` [c q p] (joint normalisation) The spectra of three components are divided by the mean of their three amplitudes, frequency by frequency, and the zero frequency is set to zero. Missing: if the three amplitudes are zero at some frequency, nothing is divided (as in `c77_zero_sample`).
* `c77_joint_mean_partial` [c q p] Hence the three amplitudes of a jointly normalised set have the mean one. Missing for the full property: `c77_zero_violated`, `c77_block_violated`.

### C78 Muting sets large amplitudes to zero and keeps the shape (partial)

Proofs: `Props/ClaimDetails2.lean`, `Props/Muting.lean`.

Holds for tapers with an odd number of samples; with an even number samples above the threshold can get weight one (violated). Exact real arithmetic: rounding of the moving average is not modelled.

* `c78_threshold` [c q p] C78: a threshold that is given is used as it is, and the factor has no effect. Without one, the threshold for a trace is the standard deviation of its filtered samples, times the factor if there is one: the same samples are muted as with this threshold.
* `c78_short` [c q p] (short traces, taper length) A taper length of zero raises `ValueError`; traces that are not longer than the taper become zero.
* `c78_mute_partial` [c q p] (odd taper) If the taper has an odd number of samples and the gaps are extended, every sample above the threshold is multiplied by zero. Missing: tapers with an even number of samples, see `c78_even_violated`.
* `c78_even_violated` [c q p] is violated for tapers with an even number of samples: with a taper of two samples and the threshold 5, the sample 9 is above the threshold and is multiplied by one.

### C79 Tapers only touch the ends (partial)

Proofs: `Props/StreamArgs.lean`, `Props/Taper.lean`.

Holds without tapering at gaps. Violated with it: leading masked samples are dropped and data move in time. Integer data are set to zero at the ends.

* `c79_stream_masked_partial` [c q p] (streams, tapering at gaps). In a stream that is tapered at gaps each trace is tapered at its own gaps: with a length that is longer than zero, a trace whose first and last samples are valid keeps its length, its rate and its masked samples and no amplitude grows; every longest part without masked samples is tapered like a trace of its own, with the weights of `c79_weights`. Missing: traces that begin or end with masked samples, see `c79_masked_violated`.
* `c79_taper_partial` [c q p] (no tapering at gaps) For every trace of a stream, with `n` the number of samples of the taper (its length in samples, rounded): the trace keeps its length and its masked samples; the samples that are at least `n` samples away from both ends are unchanged; no amplitude grows and no sign changes; and a trace shorter than two tapers is left unchanged. Missing: tapering at gaps, see `c79_masked_partial` and `c79_masked_violated`.
* `c79_weights` [c q p] (the taper) A trace of floats that is long enough starts with zero, and sample `i < n` of the taper has the weight `sin (i π / (2n - 1))`; the taper at the end is the mirror image.
* `c79_integer_violated` [c q p] is violated in detail for integer samples: the taper is cut to zero, so the ends are set to zero instead of being tapered.
* `c79_masked_partial` [c q p] (tapering at gaps) If the first and the last sample are valid, the trace keeps its length and its masked samples, and no amplitude grows. Missing: traces that begin or end with masked samples.
* `c79_masked_violated` [c q p] is violated by tapering at gaps: masked samples at the beginning are dropped while the trace keeps its start time, so the valid samples move to earlier times.

### C80 Station requests are normalised as documented (proved)

Proofs: `Props/Stations.lean`.

The archive is a list of channel directories; requests with codes. Lists with one entry are covered by c80_single.

* `c80_available` [c q p] For every archive and every documented request: the available data are exactly the channels with the requested component of which network and station match a requested pair, and the stations are exactly those of the available data, both without duplicates. The only error is `FileNotFoundError`, if all stations of several networks are requested and there is a network without data.
* `c80_rejected` [p] (rejected requests) Every other request with codes raises `ValueError`.
* `c80_single` [p] (lists with one entry) A list with one entry is the same as its entry.

### C81 Only requested pairs are computed (partial)

Proofs: `Props/Combis.lean`.

Violated because a request is used as a prefix pattern (A-B1 also selects A-B10); exact for complete names of maximal length.

* `c81_only_requested_pairs_violated` [p] is violated: a request for the stations `A` and `B1` also selects the pair `A`, `B10`, because the request is used as a prefix pattern.
* `c81_only_requested_pairs_partial` [c q p] , what holds: with complete names (with channels) and codes of at most the same length, exactly the named pairs are selected. Missing for the full property: `c81_only_requested_pairs_violated`.

### C82 Normalised correlations are bounded by one (proved)

Proofs: `Props/Xcorr.lean`.

The full statement is proved of the model.

* `Xcorr.c82_bounded` [c q p] Normalised correlations lie between -1 and 1, for any spectra (that is after any processing in frequency domain), start times and lengths. (Traces of zero energy, for which the norm is zero, yield `nan` in the code.)

### C83 The header of a correlation describes both traces (proved)

Proofs: `Props/CorrStats.lean`.

The full statement is proved of the model.

* `c83_combined_header` [c q p] The header of a correlation: the time window is the intersection of the windows of the two traces, the codes are joined with a dash, the start lag is the one that was given, and the sampling rate is the common one.
* `c83_geometry` [c q p] The geometry in the header: the coordinates of the first and of the second station, their distance in kilometres, and azimuth and back azimuth in this order. Without coordinates of both stations there is none.
* `c83_common_entries` [c q p] Of all other entries exactly those are kept that are equal in both headers.

### C84 Component access (partial)

Proofs: `Props/CorrStats.lean`.

Proved for pairs of one-letter components; strings such as 'ZZ-' are accepted (violated).

* `c84_component` [c q p] Setting the component of a correlation to `x-y` replaces the last letter of both channels and reads back.
* `c84_length` [c q p] Everything that is not three characters long is refused.
* `c84_component_violated` [c q p] is violated for strings of three characters that are no pair of components: `'ZZ-'` is accepted and produces a broken channel code.

### C85 The normalised auto-correlation is one at zero lag (partial)

Proofs: `Props/Xcorr.lean`.

Exact value proved; it is one iff the alternating sum of the samples vanishes, so the property is violated (Nyquist coefficient counted twice).

* `Xcorr.c85_autocorrelation_peak_partial` [c q p] Zero lag of the normalised auto-correlation of a (padded) trace of even length `N`: energy divided by energy plus the square of the alternating sum over `N`. It is 1 iff the alternating sum vanishes. Missing for the full property: `c85_autocorrelation_peak_violated`.
* `Xcorr.c85_autocorrelation_peak_violated` [c q p] is violated: the normalised auto-correlation of the (padded) trace `1, -1, 0, 0` has the value 2/3 at zero lag.

### C86 Each correlation is written by one process to the file of its pair (partial)

Proofs: `Props/Run.lean`.

obspy's select ignores case, so stations that differ only in case are mixed (violated).

* `c86_own_file_partial` [c q p] (codes that differ in more than upper/lower case) For every stream and any number of processes the writing succeeds on all of them; for every correlation there is exactly one process that opens the file of its pair, and what this process adds to a file are exactly the correlations of the pair, in order. Missing: codes that are equal up to case, see `c86_case_violated`, and codes with dots or wildcards.
* `c86_case_violated` [p] is violated: two stations whose codes differ only in case. Each of the two files receives the correlations of both pairs.

### C87 Dropping unused traces does not change what is correlated (proved)

Proofs: `Props/Resume.lean`.

The full statement is proved of the model.

* `c87_pruning` [c q p] . For every window, every dictionary of existing data and every method: removing the traces that are in no combination (and computing the combinations of the remaining ones) leaves the correlated pairs as they are, in the same order: they are the pairs of the complete sorted window that the first computation selects.

### C88 One-bit and standard-deviation normalisation (proved)

Proofs: `Props/Muting.lean`.

Real numbers, traces without NaN.

* `c88_std` [c q p] (standard deviation) A trace is divided by a positive number; its standard deviation is one afterwards, unless the trace is constant, in which case it is unchanged.
* `c88_constant` [c q p] standard deviation zero means constant
* `c88_sign_bit` [c q p] (one bit) The result holds only -1, 0 and 1, with the sign of the samples; the processing is idempotent and does not depend on the amplitude of the trace.

### C89 Existing data are looked up for every combination of stations (partial)

Proofs: `Props/Stations.lean`.

Exact without request list. Violated with one: requests are compared with the alphabetical name only, while traces are selected in both orders and by patterns.

* `c89_combinations` [c q p] For every list of stations and every documented method, without a list of requested combinations: the listed combinations are exactly the alphabetical names of the pairs of stations that the method combines.
* `c89_requested` [q p] (requested combinations) With a list of requested combinations only those are listed whose alphabetical name is in the list.
* `c89_requested_violated` [p] is violated: a combination that is requested in the other order is correlated but not listed, so its existing data are not found.

### C90 Stations of requested combinations are kept (partial)

Proofs: `Props/Stations.lean`.

Holds for requests Net0-Net1.Sta0-Sta1 with codes free of separators and pattern characters; violated for requests with channels.

* `c90_kept_partial` [c q p] (requests without channels) For every list of stations and every list of requested combinations of two stations: the stations that are kept are exactly those named in a request. Missing: requests with channel codes, see `c90_channels_violated`.
* `c90_all_kept` [p] (no list, other methods) Without a list of requests or with another method all stations are kept.
* `c90_channels_violated` [p] is violated for requests with channels, which the selection of traces understands: the second station is removed.

### C91 The options passed by the user are not modified (partial)

Proofs: `Props/Stations.lean`.

Violated for one network with at least two stations.

* `c91_options_partial` [p] (what holds) Unless one network and a list of stations are given, the constructor leaves the options as they are. Missing for the full property: `c91_options_violated`.
* `c91_options_violated` [c q p] is violated: with one network and a list of at least two stations the list in the options is overwritten, and a second `Correlator` made from the same options fails with `TypeError`.

### C92 Listings show what is stored (partial)

Proofs: `Props/H5Tree.lean`, `Props/Listing.lean`.

The code does not satisfy the full statement. C92 is violated after removals: the group of a channel combination whose correlations have all been removed stays and is still listed, with no start times. A read of it gives an empty stream, for a combination that never existed it is a `KeyError`. C92 violated: the documentation allows wildcards, but `?` is one only beside `*`

* `c92_history_partial` [c q p] After any history every channel combination with a stored correlation is listed, and the list is alphabetical and without repetitions. Missing: that nothing else is listed, see `c92_emptied_violated`.
* `c92_additions` [c q p] As long as nothing is removed, exactly the channel combinations with a stored correlation are listed.
* `c92_times_history` [c q p] The start times listed for a channel combination are after any history exactly those of the stored correlations, in the order of their names (which is the order of time), each once.
* `c92_emptied_violated` [p] is violated after removals: the group of a channel combination whose correlations have all been removed stays and is still listed, with no start times. A read of it gives an empty stream, for a combination that never existed it is a `KeyError`.
* `c92_channels` [c q p] The channels listed for a station combination are exactly those under which a correlation is stored, each once.
* `c92_times_partial` [c q p] A listing of start times contains, for every channel that matches the request (with `*`) or is equal to it (otherwise), exactly the start times under which a correlation is stored, every channel and every time once; it fails only for a request with `*` for a station combination without any correlation. Partial: `?` alone is not a wildcard (`c92_question_violated`).
* `c92_question_violated` [p] violated: the documentation allows wildcards, but `?` is one only beside `*`

### C93 Averages by coordinates use exactly the results inside the bounds (proved)

Proofs: `Props/AverageDv.lean`.

The full statement is proved of the model.

* `c93_selection` [c q p] The average by coordinates uses exactly the results with both stations inside of all bounds that are not averages, keeps their order, fails with ValueError if there is none, and otherwise is the average of these.

### C94 All files of the requested interval are read (partial)

Proofs: `Props/FileMonths.lean`, `Props/FileStructure.lean`.

The code does not satisfy the full statement. C94 (violated, monthly files) A request that begins on a day that the next month does not have, for example on the 31st of January, and whose data do not reach its end in the first file, fails. C94 (violated, weekly files) The files of a request are named by year and week. The request begins in the last week of 2014 and ends on the 8th of January; the files of the weeks of the 30th of December and of the 6th and 13th of January are read, but not the one of week 0 of 2015, to which the 2nd of January belongs. C94 is violated for yearly files: if the data in the file of the year do not reach the end of the request, older and older years are searched; the files of the following years are never read, and a ValueError is raised in the end.

* `c94_month_partial` [c q p] (part, monthly files) If the request begins on one of the days 1 to 28, reading monthly files ends after finitely many files, and unless the data found reach the end of the request before, for every time of the request the file of its month has been read. Missing: requests that begin on the days 29 to 31, see `c94_month_violated`.
* `c94_month_violated` [q p] (violated, monthly files) A request that begins on a day that the next month does not have, for example on the 31st of January, and whose data do not reach its end in the first file, fails.
* `c94_week_violated` [p] (violated, weekly files) The files of a request are named by year and week. The request begins in the last week of 2014 and ends on the 8th of January; the files of the weeks of the 30th of December and of the 6th and 13th of January are read, but not the one of week 0 of 2015, to which the 2nd of January belongs.
* `c94_read_partial` [c q p] (part) For daily, half-daily and hourly files, reading ends after finitely many files, and unless the data found reach the end of the request before, for every time of the request the file of its day (half day, hour) has been read. For monthly files see `c94_month_partial`. Missing: yearly files (`c94_year_violated`), weekly files (`c94_week_violated`).
* `c94_year_violated` [c q p] is violated for yearly files: if the data in the file of the year do not reach the end of the request, older and older years are searched; the files of the following years are never read, and a ValueError is raised in the end.

### C95 Sensitivity kernels are non-negative and reciprocal (partial)

Proofs: `Props/Kernel.lean`.

The code does not satisfy the full statement. C95 (reciprocity), violated: for a lapse time between two multiples of `dt` the last term belongs to a negative time on one side only. Stations at (0, 0) and (4, 0), lapse time 3 and `dt` 2.

* `c95_shape` [c q p] C95 (shape): one row for every y-coordinate, one column for every x-coordinate.
* `c95_nonneg` [c q p] C95 (sign): no cell has a negative sensitivity.
* `c95_range` [c q p] C95 (range): a cell that a wave could not have visited on its way between the stations has no influence. The tolerance is half of the distance that a wave travels in `dt`, for both parts of the way, and the relative tolerance of `np.isclose`.
* `c95_reciprocal_partial` [c q p] C95 (reciprocity), partial: exchanging the stations does not change the kernel if the lapse time is a multiple of `dt`.
* `c95_reciprocal_violated` [c q p] C95 (reciprocity), violated: for a lapse time between two multiples of `dt` the last term belongs to a negative time on one side only. Stations at (0, 0) and (4, 0), lapse time 3 and `dt` 2.

### C96 A kernel is computed whenever energy reaches the second station (partial)

Proofs: `Props/ClaimDetails.lean`, `Props/Kernel.lean`.

The code does not satisfy the full statement. C96 (lapse times), violated: if it is farther away, there is no kernel for any pair of stations that is reached by the coda at this time.

* `c96_uneven` [c q p] C96: an axis with two neighbouring pairs of values that are not equally far apart is refused, whatever the other arguments are.
* `c96_computed_partial` [c q p] C96 (lapse times), partial: a kernel is returned if the next multiple of `dt` after the lapse time is at most half of `dt` away.
* `c96_lapse_violated` [c q p] C96 (lapse times), violated: if it is farther away, there is no kernel for any pair of stations that is reached by the coda at this time.

### C97 The inverted grid is the least-squares optimum (proved)

Proofs: `Props/Inversion.lean`.

The full statement is proved of the model.

* `c97_inversion` [c q p] C97 (existence and minimum): for data with coherences between zero and one, any kernels, any grid and any positive correlation length the inversion succeeds. The result minimises the sum of the misfit and of the a-priori cost among all models of the a-priori covariance, and all other minimisers are equal to it.
* `c97_all_models` [c q p] C97 (all models): on a grid of distinct cells and with a standard deviation other than zero the covariance `C` is invertible, and the result `m` is the only minimum of misfit plus `mᵀ C⁻¹ m` among all models.

### C98 More coherent data get a smaller variance (proved)

Proofs: `Props/Inversion.lean`.

The full statement is proved of the model.

* `c98_variance` [c q p] C98 (variance): data with a coherence between zero and one have a positive variance, and it is smaller for a larger coherence.
* `c98_rejected` [c q p] C98 (arguments): impossible windows, bandwidths and frequencies are rejected.

### C99 The resolution is the image of a uniform model (proved)

Proofs: `Props/Inversion.lean`.

The full statement is proved of the model.

* `c99_resolution` [c q p] C99 (resolution): the resolution is what the inversion makes of the data of a uniform model: of the forward model of a grid of ones.

### C100 Data never increase the uncertainty (proved)

Proofs: `Props/Inversion.lean`.

The full statement is proved of the model.

* `c100_posterior` [c q p] C100 (posterior): on a grid of distinct cells the posterior covariance exists. It is positive definite and is not larger than the a-priori covariance: no combination of cells gets a larger variance. The inverted model is its product with the weighted data.

### C101 Headers of correlations survive storage (partial)

Proofs: `Props/HeaderStore.lean`.

The code does not satisfy the full statement. C101: a time with a higher resolution is changed.

* `c101_round_trip_partial` [c q p] C101 (round trip): a time that is written to the database is read back exactly to 0.1 ms: it is rounded down to a multiple of 0.1 ms. This holds with the versions of obspy that fail for day 360 and with the others. Missing for the full property: `c101_precision_violated`.
* `c101_exact_partial` [c q p] C101: times that are multiples of 0.1 ms survive unchanged. Missing for the full property: `c101_precision_violated`.
* `c101_precision_violated` [p] C101: a time with a higher resolution is changed.
* `c101_header_partial` [c q p] C101 (header): every entry of a header is read back: times with a resolution of 0.1 ms, lists of strings, strings and numbers unchanged. Entries without a representation in HDF5 are missing; no entry is added. `time` values are under the four time keys and `processing` is a list. Missing for the full property: `c101_precision_violated`.

### C102 Names of time windows are unique and in order of time (partial)

Proofs: `Props/HeaderStore.lean`.

The code does not satisfy the full statement. C102: different times within 0.1 ms have the same name.

* `c102_order` [c q p] C102 (order): the alphabetical order of the names of time windows in the database is their order in time.
* `c102_names_partial` [c q p] C102 (names): two times have the same name iff they are in the same interval of 0.1 ms. Missing for the full property: `c102_names_violated`.
* `c102_names_violated` [none] C102: different times within 0.1 ms have the same name.

### C103 Detrending treats gaps correctly (partial)

Proofs: `Props/Segments.lean`.

The code does not satisfy the full statement. C103 is violated for a trace that begins with missing samples: its data are moved to an earlier time, and a trace without any sample is an `IndexError`.

* `c103_detrend_partial` [c q p] (partial: the first and the last sample are present) Each contiguous part is detrended on its own and stays at its times; the samples that are missing stay missing; start and number of samples do not change.
* `c103_detrend_violated` [none] is violated for a trace that begins with missing samples: its data are moved to an earlier time, and a trace without any sample is an `IndexError`.
* `c103_moved` [c q p] (what happens in general) The samples are those of the detrended parts, but all of them are moved to earlier times by the number of samples that are missing at the beginning.
* `c103_stream` [q p] (streams) The traces of a stream are handled one by one.

### C104 Filtering a stream does not mix data across gaps (proved)

Proofs: `Props/Segments.lean`.

The full statement is proved of the model.

* `c104_filter` [c q p] Each contiguous part is filtered on its own and stays at its times; samples that are missing stay missing; the result reaches from the first to the last present sample. Traces without any sample are left out, the order of the others does not change.

### C105 Gap handling keeps samples in place (partial)

Proofs: `Props/Segments.lean`.

The code does not satisfy the full statement. C105 is violated for a trace all of whose samples are masked, if the gap is short enough to be interpolated.

* `c105_gap_handler_partial` [c q p] (partial: traces with at least one sample, one trace per id) With `data` the trace after gaps of at most `maxLen` samples have been interpolated (C73): a contiguous part that is not longer than `retainLen` is removed; each longer part stays at its times, multiplied by weights between 0 and 1 that are 1 except within `taperLen` of its ends; everything else is missing.
* `c105_gap_handler_violated` [c q p] is violated for a trace all of whose samples are masked, if the gap is short enough to be interpolated.

### C106 Polarity correction changes exactly the reversed vertical traces (partial)

Proofs: `Props/Segments.lean`.

The code does not satisfy the full statement. C106 is violated if the dip of an earlier vertical trace is not known: the second trace has positive dip but is not changed.

* `c106_polarity_partial` [c q p] (partial: up to the first vertical trace whose dip is not known) Exactly the traces of vertical channels with positive dip are multiplied by -1; from the first vertical trace on whose dip is not known nothing is changed.
* `c106_polarity_violated` [q p] is violated if the dip of an earlier vertical trace is not known: the second trace has positive dip but is not changed.

### C107 Reference traces represent the matrix they are extracted from (partial)

Proofs: `Props/Reference.lean`.

The code does not satisfy the full statement. C107 (violated): for `percentile` = 100 no trace is averaged, whatever the data is. C107 (violated): with identical traces all of them are equally similar to the mean, none is above the median, and the reference is NaN.

* `c107_mean` [c q p] C107: the reference `mean` has at each lag sample the mean of the values there that are not NaN, between the smallest and the largest of them.
* `c107_median` [c q p] C107: the reference `median` has at each lag sample a median of the values there that are not NaN.
* `c107_norm_mean` [c q p] C107: the reference `norm_mean` is the mean of the traces divided by their largest absolute values.
* `c107_norm_mean_scale` [c q p] C107: amplitudes don't matter in `norm_mean`: any trace may be multiplied with a positive number.
* `c107_similarity_partial` [c q p] C107: the reference `similarity_percentile` is the mean of the normalised traces whose correlation coefficient with the mean of all normalised traces is above a threshold. Of `n` traces with a coefficient fewer than `(n - 1) (1 - percentile / 100) + 1` are above it. (The documentation says that `percentile` % of the traces are averaged, see below.)
* `c107_hundred_violated` [c q p] C107 (violated): for `percentile` = 100 no trace is averaged, whatever the data is.
* `c107_identical_violated` [c q p] C107 (violated): with identical traces all of them are equally similar to the mean, none is above the median, and the reference is NaN.
* `c107_unknown` [c q p] C107: other methods are rejected.
* `c107_order` [c q p] C107: the order of the traces does not matter.

### C108 Several reference traces cover the whole time span (partial)

Proofs: `Props/Reference.lean`.

The code does not satisfy the full statement. C108 (violated): with `similarity_percentile` one window without traces fails the whole extraction: two traces with ten days between them, one reference per day.

* `c108_windows` [c q p] C108: with a constant increment of `w` days there is one reference per increment from the first start to the last end. The reference `k` is extracted from the traces that touch the increment, extended by half an increment on both sides, and no others.
* `c108_cover` [c q p] C108: each trace goes into at least one of the references.
* `c108_list` [c q p] C108: with a list of increments there is one reference per increment, extracted from the traces that touch the increment, extended by half of it on both sides.
* `c108_zero` [c q p] C108: increment zero means one reference from all traces.
* `c108_negative` [c q p] C108: negative increments are rejected.
* `c108_gap_partial` [c q p] C108: the reference of a window without traces is NaN for the methods `mean`, `median` and `norm_mean`. Missing for the full property: `c108_gap_violated`.
* `c108_gap_violated` [c q p] C108 (violated): with `similarity_percentile` one window without traces fails the whole extraction: two traces with ten days between them, one reference per day.

### C109 Smoothing of a correlation matrix is a moving weighted mean along the chosen axis (partial)

Proofs: `Props/Smooth.lean`, `Props/SmoothShapes.lean`.

The code does not satisfy the full statement. C109 (violated): at the ends a linear trend is bent, because the reflected copies are not taken about the first and the last sample. C109 (violated): a window as long as the traces is not rejected, but the result is one sample short and can't be stored. C109 (violated): a call that is rejected has already replaced NaN by zero in the data.

* `c109_interior` [c q p] C109: a smoothed sample at least half a window away from the ends is the weighted mean of the samples in the window around it, with the non-negative weights of the chosen window. So it lies between the smallest and the largest of them.
* `c109_constant` [c q p] C109: a constant signal is not changed, up to its ends.
* `c109_trend_partial` [c q p] C109: with a window of odd length a linear trend is not changed at least half a window away from the ends. Missing for the full property: `c109_trend_violated`, `c109_full_violated`, `c109_failed_violated`.
* `c109_trend_violated` [c q p] C109 (violated): at the ends a linear trend is bent, because the reflected copies are not taken about the first and the last sample.
* `c109_linear` [c q p] C109: smoothing is linear.
* `c109_rejected` [c q p] C109: windows longer than the signal and unknown windows are rejected, windows shorter than three samples don't change the signal.
* `c109_full_violated` [c q p] C109 (violated): a window as long as the traces is not rejected, but the result is one sample short and can't be stored.
* `c109_lag_axis` [c q p] C109: along the lag axis (`axis` 0) each trace is smoothed on its own, NaN counts as zero.
* `c109_time_axis` [c q p] C109: along the time axis (`axis` 1) each lag sample is smoothed on its own over the traces, NaN counts as zero.
* `c109_failed_violated` [c q p] C109 (violated): a call that is rejected has already replaced NaN by zero in the data.
* `c109_shapes` [c q p] C109: the weights of the windows with `2 h + 1` samples. At both ends they are 1 (flat), 0 (hanning, bartlett, blackman) and 0.08 (hamming), and all of them are 1 in the middle.

### C110 Measuring a time shift reports the best tested shift (partial)

Proofs: `Props/Measure.lean`, `Props/MeasureAll.lean`.

The code does not satisfy the full statement. C110 (violated): a single step is accepted as an odd number of steps, but the only shift that is tested is the negative end of the range. Every trace, the reference too, is reported to be shifted by it. C110 (violated): the last sample of a window is not compared, although the window is given as `[start, end]`. C110 (violated): if a window for both sides starts at zero lag, this lag counts twice. C110 (violated): in a window off the sampling grid the lags can be taken one sample too early. The trace is the reference (which does not change under the tested shifts) at all lags in the window, but its correlation with the reference is not one. C110 (violated): on both sides of the default window every lag counts twice, but the two outermost lags once, so that the coefficient is not the one of the samples in the window. C110 (violated): on a time axis that is not symmetric the default window for both sides reaches beyond the samples that are used.

* `c110_best` [c q p] C110: each trace gets the tested shift with the largest mean correlation coefficient over the time windows, and this coefficient. The lags that are compared are those of the windows (the last sample of a window excluded) and the samples of the reference that are used reach beyond the windows by the largest shift.
* `c110_accepted` [c q p] C110: a measurement whose windows and shifts lie within the traces succeeds.
* `c110_local` [c q p] C110: the result of a trace depends only on its samples in the windows.
* `c110_bounded` [c q p] C110: correlation values lie between -1 and 1 and the shifts are tested shifts.
* `c110_recover` [c q p] C110: a trace that is the reference, shifted by a whole number of samples among the tested shifts and scaled, has correlation one; so has the shift that is reported.
* `c110_tested` [c q p] C110: with an odd number of at least three steps the zero shift and both ends of the range are tested, and with a shift the opposite shift.
* `c110_rejected` [c q p] C110: rejected arguments: an even number of steps, other sides, windows that are not pairs, negative times for both sides, a reference of another length.
* `c110_one_step_violated` [c q p] C110 (violated): a single step is accepted as an odd number of steps, but the only shift that is tested is the negative end of the range. Every trace, the reference too, is reported to be shifted by it.
* `c110_end_violated` [c q p] C110 (violated): the last sample of a window is not compared, although the window is given as `[start, end]`.
* `c110_zero_violated` [c q p] C110 (violated): if a window for both sides starts at zero lag, this lag counts twice.
* `c110_windows_partial` [c q p] C110: the same for any windows and any range of shifts, whether they lie on the sampling grid or not, and for the default window. Each trace gets the tested shift with the largest mean correlation coefficient over the windows. The lags that are compared start with the first sample in the window and end before the last one, but they are taken one sample too early if the first time that is needed lies more than half a sample after a sample (`δ = -1`). On both sides, the default window needs a time axis that is symmetric. Missing for the full property: `c110_one_step_violated`, `c110_end_violated`, `c110_zero_violated` and others.
* `c110_windows_accepted` [c q p] C110: and such a measurement succeeds if the windows and the shifts lie within the traces.
* `c110_average` [c q p] C110: without a reference the traces are compared with their average.
* `c110_offgrid_violated` [c q p] C110 (violated): in a window off the sampling grid the lags can be taken one sample too early. The trace is the reference (which does not change under the tested shifts) at all lags in the window, but its correlation with the reference is not one.
* `c110_default_violated` [c q p] C110 (violated): on both sides of the default window every lag counts twice, but the two outermost lags once, so that the coefficient is not the one of the samples in the window.
* `c110_asymmetric_violated` [c q p] C110 (violated): on a time axis that is not symmetric the default window for both sides reaches beyond the samples that are used.

### C111 Correcting measured shifts restores the traces (partial)

Proofs: `Props/Measure.lean`.

The code does not satisfy the full statement. C111 (violated): the shift of a single trace is stored as a scalar, and the correction with it fails. C111 (violated): with fewer shifts than traces the correction fails after the first traces have been changed. C111 (violated): shifts in excess of the traces are ignored. C111 (violated): with gaps even a correction by zero changes a trace: the sample after a NaN becomes NaN.

* `c111_shift` [c q p] C111: after a correction by a whole number of samples each sample is the one of the trace that many samples away, as far as the trace reaches. In particular a trace that is the reference shifted by this number of samples becomes the reference.
* `c111_zero` [c q p] C111: a correction by zero leaves the traces as they are.
* `c111_nan` [c q p] C111: a trace without a shift (its correlation was not a number) becomes NaN, and the others do not depend on it.
* `c111_single_violated` [c q p] C111 (violated): the shift of a single trace is stored as a scalar, and the correction with it fails.
* `c111_atomic_violated` [c q p] C111 (violated): with fewer shifts than traces the correction fails after the first traces have been changed.
* `c111_excess_violated` [c q p] C111 (violated): shifts in excess of the traces are ignored.
* `c111_gap_violated` [c q p] C111 (violated): with gaps even a correction by zero changes a trace: the sample after a NaN becomes NaN.

### C112 Copies, parts and results of a bulk are independent of it (partial)

Proofs: `Props/Heap.lean`, `Props/HeapTraces.lean`.

The code does not satisfy the full statement. C112 does not hold for parts. A method that writes into its array (normalise, correct the decay, correct shifts or stretches, smooth, taper), called on `bulk[first:first+n]`, changes these rows of the bulk itself; the header of the bulk does not show it. C112 does not hold for traces. An assignment to the elements of trace `i` of `create_corr_stream` changes row `i` of the bulk. C112 does not hold for results. A velocity change measured before further processing of the bulk shows this processing in its own header, because the two have one header: any method but `mirror` adds its entry to the history of the result, and its changes of the lags and of the length to the header of the result.

* `c112_interleaved` [c q p] C112 (two bulks that share neither array nor header). Whatever methods are called on the two, in whatever order, each ends with the value that its own calls give.
* `c112_copy` [c q p] C112 (copies). A copy has the value of the bulk it was made from, and afterwards the two are independent: whatever methods are called on the two, in whatever order, each ends with the value that its own calls give.
* `c112_slice` [c q p] C112 (a selection in time). The result of `slice` holds the selected rows, and is independent of the bulk it was taken from.
* `c112_part_partial` [c q p] C112 (part of the rows). `bulk[first:first+n]` holds these rows. Methods that make a new array or trim (clip, envelope, filter, mirror, resample, trim) can be called on it without a change to the bulk. Missing: the other methods, see `c112_part_violated`.
* `c112_two_parts` [c q p] C112 (two parts). Parts with different rows are independent of each other.
* `c112_part_violated` [c q p] C112 does not hold for parts. A method that writes into its array (normalise, correct the decay, correct shifts or stretches, smooth, taper), called on `bulk[first:first+n]`, changes these rows of the bulk itself; the header of the bulk does not show it.
* `c112_trace_violated` [c q p] C112 does not hold for traces. An assignment to the elements of trace `i` of `create_corr_stream` changes row `i` of the bulk.
* `c112_result_violated` [q p] C112 does not hold for results. A velocity change measured before further processing of the bulk shows this processing in its own header, because the two have one header: any method but `mirror` adds its entry to the history of the result, and its changes of the lags and of the length to the header of the result.
* `c112_traces` [c q p] `create_corr_stream` gives one trace per row, in the order of the rows. Trace `i` holds row `i` and a header of its own with the history of the bulk, and the bulk is as before. Changing the header of a trace leaves the bulk and the other traces as they are (not so for its samples, see `c112_trace_violated`).

### C113 A measurement does not change what it measures (partial)

Proofs: `Props/Heap.lean`.

The code does not satisfy the full statement. C113 does not hold for `single`. For lags from `-e` to `e`, a measurement with `sides='single'` compares lags from 0 to `e`, as it should; but it leaves the bulk with a header that says that its data start at lag 0 and have `e + 1` columns, while they have `2e + 1`. The same measurement once more compares the lags from `-e` to 0 instead. C113 does not hold for other lags. If there are more lags on the negative side, from `a` to `e` with `e < -a`, a measurement with both sides compares the lags from `-e` to `e`, as it should, but leaves the bulk with a header that says that its data have these lags; the same measurement once more compares the lags from `a` to `a + 2e`. C113 does not hold for calls that fail. `find_clock_shift` refuses `sides='left'`, but only after it changed the header of the bulk.

* `c113_symmetric_partial` [c q p] C113 (measuring stretches, symmetric lags). If the lags of the bulk go from `-e` to `e` and both sides or the left or right side are used, the measurement compares the complete correlations and leaves data and header as they are, so that a second measurement compares the same. Missing: `single` and other lags, see `c113_single_violated` and `c113_asymmetric_violated`.
* `c113_single_violated` [c q p] C113 does not hold for `single`. For lags from `-e` to `e`, a measurement with `sides='single'` compares lags from 0 to `e`, as it should; but it leaves the bulk with a header that says that its data start at lag 0 and have `e + 1` columns, while they have `2e + 1`. The same measurement once more compares the lags from `-e` to 0 instead.
* `c113_asymmetric_violated` [c q p] C113 does not hold for other lags. If there are more lags on the negative side, from `a` to `e` with `e < -a`, a measurement with both sides compares the lags from `-e` to `e`, as it should, but leaves the bulk with a header that says that its data have these lags; the same measurement once more compares the lags from `a` to `a + 2e`.
* `c113_refused_violated` [c q p] C113 does not hold for calls that fail. `find_clock_shift` refuses `sides='left'`, but only after it changed the header of the bulk.
* `c113_clock_shift_partial` [c q p] C113 (measuring clock shifts). For the sides `single` and `right` the measurement compares the lags from 0 to `e`, for `both` the largest symmetric range of lags. Missing: as for stretches, the header of the bulk becomes the one of this part, see `c113_single_violated`, while its data stay as they are.
* `c113_measure_shift` [c q p] C113 (`measure_shift`) copies the data and the header before it trims, so that data and header of the bulk stay as they are (post_corr_process.py:1128-1129).

### C114 The history lists all processing in order (partial)

Proofs: `Props/Heap.lean`.

The code does not satisfy the full statement. C114 does not hold for parts. The result of `slice` and `bulk[first:first+n]` have the processed data, but an empty history.

* `c114_history` [c q p] C114 (the history of a bulk). After any methods were called on a bulk, its history is the earlier history followed by the entries of these calls in their order, whether they changed the data or not.
* `c114_copy` [c q p] C114 (copies). A copy has the history of the bulk it was made from.
* `c114_part_violated` [c q p] C114 does not hold for parts. The result of `slice` and `bulk[first:first+n]` have the processed data, but an empty history.

### C115 Several references are combined without loss (partial)

Proofs: `Props/MultiRef.lean`.

The code does not satisfy the full statement. C115 does not hold for other displacements. For two references displaced by one tested stretch, the displacements relative to the mean, `-1/2` and `1/2`, are both rounded to zero: the matrices are averaged without any alignment, and the combined correlation is smaller than the one with either reference at every time. C115 does not hold at times without data. If the similarities of a time are NaN with all references, the combined correlation is NaN, but the combined value is the first tested stretch, not NaN. C115 does not hold for a single time: with several references, the call fails.

* `c115_aligned_partial` [c q p] (aligned references). References whose similarities are those of one function of time and stretch displaced by whole numbers `k i` of tested stretches, so that the best match of every reference is among the tested stretches; the displacements have a whole mean `q`; the maximum of each time is the only one, positive and below one; at least two references and two times. Then the combined value is for each time the mean of the values with the individual references, and the combined correlation is the one of the individual references: the matrices are aligned before they are averaged, and nothing is lost by the cyclic displacement. `solve` is any solver of the normal equations of the weighted least squares problem. Missing: other displacements, see `c115_odd_violated`.
* `c115_odd_violated` [c q p] does not hold for other displacements. For two references displaced by one tested stretch, the displacements relative to the mean, `-1/2` and `1/2`, are both rounded to zero: the matrices are averaged without any alignment, and the combined correlation is smaller than the one with either reference at every time.
* `c115_no_data_violated` [c q p] does not hold at times without data. If the similarities of a time are NaN with all references, the combined correlation is NaN, but the combined value is the first tested stretch, not NaN.
* `c115_one_time_violated` [c q p] does not hold for a single time: with several references, the call fails.
* `c115_refused` [c q p] a single reference, or none, is refused

### C116 The measured stretch is the best match about zero lag (partial)

Proofs: `Props/StretchMeasure.lean`.

The code does not satisfy the full statement. C116 (not satisfied: `single` with a two-sided reference). If the reference has lags from `-E` to `E`, as has every reference extracted from a bulk with both sides, it is stretched about its first sample: for stretch `v` the sample at lag `l` of the trace is compared with the reference at lag `(l + E) * exp (-v) - E`. C116 (not satisfied: `single` with a two-sided reference, example). For the reference with the values `l + E` at lags `l` the measured stretch is `-range` for every trace that does not vanish on the window, in particular for a trace that is the reference itself, or the reference stretched about zero lag by any other value. C116 (not satisfied: no header of the reference). A reference with more lags than the traces, from `-E` to `E`, is not trimmed about zero lag but to its first samples: the sample at lag `l` is compared with the stretched reference at lag `l - (E - min a b)`. C116 (not satisfied: late windows). If the window lies so late that the reference compressed most does not reach it, there is no result at all, for no trace, although other tested stretches can be compared. C116 (not satisfied: several windows). With two time windows or more there is no result for `both` and `left`; for `right` and `single` there are as many results as the first window has samples. C116 (not satisfied: no time window). The documentation says that the full time range is used; the outermost lags on both sides are not: the window has the lags from zero to the last but one.

* `c116_best` [c q p] (both sides, left or right side). The bulk has lags from `-a` to `b`, the reference lags from `-E` to `E`, at least up to the smaller one of `a` and `b`. For each trace the result is the best match among the tested stretches: the correlation coefficients on the lags of the time window of the trace with the reference stretched about zero lag, that is the reference at lag `l * exp (-v)` for stretch `v`, zero where it does not reach.
* `c116_best_single_partial` [c q p] (`single`). The same for positive lags only, if the reference has lags from zero to `E`. Missing for the full property: `c116_single_violated`, `c116_single_value_violated`, `c116_no_header_violated` and others.
* `c116_found` [c q p] (the right stretch). The reference consists of samples of a function `f` that the spline reproduces, and a trace agrees on the time window with a multiple of `f` at `l * exp (-v)`, for a tested stretch `v`, with all these lags inside the reference. No trace or stretched reference vanishes on the window. Then the correlation is one; and if no other tested stretch gives a multiple of the trace, the value is `v`.
* `c116_single_violated` [c q p] (not satisfied: `single` with a two-sided reference). If the reference has lags from `-E` to `E`, as has every reference extracted from a bulk with both sides, it is stretched about its first sample: for stretch `v` the sample at lag `l` of the trace is compared with the reference at lag `(l + E) * exp (-v) - E`.
* `c116_single_value_violated` [c q p] (not satisfied: `single` with a two-sided reference, example). For the reference with the values `l + E` at lags `l` the measured stretch is `-range` for every trace that does not vanish on the window, in particular for a trace that is the reference itself, or the reference stretched about zero lag by any other value.
* `c116_no_header_violated` [c q p] (not satisfied: no header of the reference). A reference with more lags than the traces, from `-E` to `E`, is not trimmed about zero lag but to its first samples: the sample at lag `l` is compared with the stretched reference at lag `l - (E - min a b)`.
* `c116_late_violated` [c q p] (not satisfied: late windows). If the window lies so late that the reference compressed most does not reach it, there is no result at all, for no trace, although other tested stretches can be compared.
* `c116_windows_violated` [c q p] (not satisfied: several windows). With two time windows or more there is no result for `both` and `left`; for `right` and `single` there are as many results as the first window has samples.
* `c116_default_violated` [c q p] (not satisfied: no time window). The documentation says that the full time range is used; the outermost lags on both sides are not: the window has the lags from zero to the last but one.

### C117 Correcting a measured stretch undoes it (partial)

Proofs: `Props/StretchMeasure.lean`.

The code does not satisfy the full statement. C117 (not satisfied: one trace). The values of a measurement on a single trace are a scalar, and it cannot be corrected.

* `c117_restored_partial` [c q p] (restored). Each trace of the bulk is a function `f i` stretched by `v i`, that is, its sample at time `t` is `f i (t * exp (-(v i)))`, and the spline reproduces it. Correcting with the stretches `v` gives `f i` at all lag times for which the trace reaches to the stretched time, and zero at the others. There are no fewer values than traces and they are not a single one. Missing for the full property: `c117_one_trace_violated`.
* `c117_zero` [c q p] (no change). A stretch of zero leaves a trace as it is, if the spline passes through the samples.
* `c117_one_trace_violated` [c q p] (not satisfied: one trace). The values of a measurement on a single trace are a scalar, and it cannot be corrected.
* `c117_refused` [c q p] (other arguments). A change that holds no stretches, or fewer values than traces, is refused.
* `c117_undefined` [c q p] (no measurement). A trace whose value is undefined is undefined at all lags afterwards; values beyond the number of traces have no effect.
* `c117_remeasured_partial` [c q p] (measured again). The traces have lags from `-e` to `e`; trace `i` is the reference `f` stretched by `v`. After the correction by `v` the measurement on a window of lags that the stretched trace reaches gives correlation one; and stretch zero, if no other tested stretch of the reference is a multiple of the reference on the window. Missing for the full property: `c117_one_trace_violated`.

### C118 The velocity change of a station combination uses the requested window (partial)

Proofs: `Props/MonitorDv.lean`.

The code does not satisfy the full statement. C118 (not satisfied: whole coda). A length of the window of `None`, which according to the documentation is the rest of the coda, raises a `TypeError`. C118 (not satisfied: refusal without a travel time). Otherwise the error is an `UnboundLocalError`, because the message contains the distance, which was not computed. C118 (not satisfied: one trace). A bulk with one trace has no result: the correction by a single value fails. C118 (not satisfied: `single`). The traces have both sides, lags from `-E` to `E`. With `single` the result is the comparison of negative lags with positive ones: the trace at lag `l - T`, where `T` is the end of the window, with the reference stretched about its first sample, at lag `(l + E) * exp (-v) - E`.

* `c118_result_partial` [c q p] (both sides, left or right side). The traces have lags from `-E` to `E` samples, the window starts at `s` and ends before `T`. First the traces are compared with the reference, the given one or the one made of the traces; then the traces are corrected by these values; the result is the comparison of the original traces with the reference, the given one or the one made of the corrected traces. Both comparisons are on the lags from `s` to `T` of the requested sides. Missing for the full property: `c118_none_violated`, `c118_message_violated`, `c118_one_trace_violated` and others.
* `c118_found_partial` [c q p] (given reference). If the given reference consists of samples of `f`, which the spline reproduces, and trace `i` is, on the lags of the window, a multiple of `f` stretched by a tested `v` and of no other tested stretch of it, the result for it is `v` with correlation one. Missing for the full property: `c118_none_violated`, `c118_message_violated`, `c118_one_trace_violated` and others.
* `c118_unchanged_partial` [c q p] (no change). If all traces are equal, and the reference made of equal traces is this trace, there is no velocity change: for every trace the value is zero and the correlation one. Zero is among the tested stretches, and no other tested stretch of the trace is a multiple of it on the window. Missing for the full property: `c118_none_violated`, `c118_message_violated`, `c118_one_trace_violated` and others.
* `c118_none_violated` [c q p] (not satisfied: whole coda). A length of the window of `None`, which according to the documentation is the rest of the coda, raises a `TypeError`.
* `c118_refused_partial` [c q p] (windows that end after the correlation). They are refused with a `ValueError` if the travel time was computed from the distance of the stations. Missing for the full property: `c118_none_violated`, `c118_message_violated`, `c118_one_trace_violated` and others.
* `c118_message_violated` [c q p] (not satisfied: refusal without a travel time). Otherwise the error is an `UnboundLocalError`, because the message contains the distance, which was not computed.
* `c118_one_trace_violated` [c q p] (not satisfied: one trace). A bulk with one trace has no result: the correction by a single value fails.
* `c118_single_violated` [c q p] (not satisfied: `single`). The traces have both sides, lags from `-E` to `E`. With `single` the result is the comparison of negative lags with positive ones: the trace at lag `l - T`, where `T` is the end of the window, with the reference stretched about its first sample, at lag `(l + E) * exp (-v) - E`.

### C119 Waveform coherence is the mean correlation with the references (proved)

Proofs: `Props/Wfc.lean`, `Props/WfcNames.lean`.

The full statement is proved of the model.

* `c119_value` [c q p] The traces have lags from `-E` to `E` samples, the lapse time window starts at `s` and ends before `T`. The references are made of the traces cut to the lags from `-T` to `T`. The waveform coherence of each trace with each reference is the correlation coefficient at the lags from `s` to `T` on both sides, where NaNs count as zeros. For each reference the valid coefficients are averaged; the mean is the average of these averages.
* `c119_bounded` [c q p] (bounds). All coherences, their averages and the mean are between -1 and 1.
* `c119_stable` [c q p] (stable correlations). If, at the lags of the window, every trace is a positive multiple of every reference, or zero (no data), and there is a reference and a trace that is not zero there, the mean coherence is one.
* `c119_names` [c q p] (names). The coherences with the references are called `reftr_0`, `reftr_1` and so on, in the order of the references, their averages have the same names with `_av` appended, and all names are different: no reference replaces another one.
* `c119_short` [c q p] (short correlations). If at most 20 samples remain within the end of the window, before and after zero lag, there is no coherence but a `ValueError`.

### C120 Every requested band and window yields its own waveform coherence (partial)

Proofs: `Props/WfcRun.lean`.

The code does not satisfy the full statement. C120 (not satisfied: an invalid band). An error in one band, here `freq_max <= freq_min`, is raised only when the band is reached: the bands before are computed, all bands after it are lost, although they are valid. C120 (not satisfied: files that cannot be written). With `save_comps` a coherence that was computed is discarded if its file cannot be written, for example because the process with rank zero, which creates the directory, has not done so yet: the error is only logged.

* `c120_results_partial` [c q p] (all bands and windows). If all bands are valid, the results are exactly those of all combinations of requested bands and windows that can be computed, band by band; each is computed from the original bulk, so none depends on the other bands and windows, and a window that fails does not affect the others. Missing for the full property: `c120_band_violated`, `c120_save_violated`.
* `c120_mem_partial` [c q p] (membership). A coherence is among the results if and only if it is that of a requested band and a requested window. Missing for the full property: `c120_band_violated`, `c120_save_violated`.
* `c120_options` [c q p] (repeated calls). The call replaces the options by lists. For the next combination of stations the options request the same bands and windows, and they are not changed any more.
* `c120_refused` [c q p] (invalid options). Lists whose lengths do not fit are refused with a `ValueError`, and there is no result.
* `c120_band_violated` [c q p] (not satisfied: an invalid band). An error in one band, here `freq_max <= freq_min`, is raised only when the band is reached: the bands before are computed, all bands after it are lost, although they are valid.
* `c120_save_violated` [c q p] (not satisfied: files that cannot be written). With `save_comps` a coherence that was computed is discarded if its file cannot be written, for example because the process with rank zero, which creates the directory, has not done so yet: the error is only logged.

### C121 Waveform coherences are averaged over the components of a station combination (partial)

Proofs: `Props/WfcAverage.lean`.

The code does not satisfy the full statement. C121 (not satisfied: different references). If the first component has fewer references than another one, the others are left out of the average without a warning: the result only has the references of the first; in the opposite order there is a `KeyError`. C121 (not satisfied: one failure). An exception in the computation for one combination of stations is not caught: nothing is written for any combination.

* `c121_average_partial` [c q p] (average). The average of coherences with the same references and shapes, and the same band and window, has for each reference, window and trace the mean of the values that are not NaN. Its channel code is `av`. Missing for the full property: `c121_references_violated`, `c121_failure_violated`.
* `c121_order_partial` [c q p] (order of the components). The order of the components has no influence on the averages. Missing for the full property: `c121_references_violated`, `c121_failure_violated`.
* `c121_refused` [c q p] (refused). Coherences of different bands or windows are not averaged.
* `c121_references_violated` [c q p] (not satisfied: different references). If the first component has fewer references than another one, the others are left out of the average without a warning: the result only has the references of the first; in the opposite order there is a `KeyError`.
* `c121_groups_partial` [c q p] (groups). After all processes have finished without an exception, the coherences of all processes are averaged in groups: there is one average for each combination of stations, band and window that occurs, and it is the average of all coherences of this combination, whichever process computed them. Missing for the full property: `c121_references_violated`, `c121_failure_violated`.
* `c121_failure_violated` [c q p] (not satisfied: one failure). An exception in the computation for one combination of stations is not caught: nothing is written for any combination.

### C122 The coherence grid shows every waveform coherence at its place (partial)

Proofs: `Props/WfcAverage.lean`.

The code does not satisfy the full statement. C122 (not satisfied: equal centres). Different bands can have the same centre frequency, for example 1 to 3 Hz and 0.5 to 3.5 Hz, and windows of different length the same centre: of such coherences only the last one is in the grid, the others disappear without a warning.

* `c122_axes` [c q p] (axes). The axes of the grid are the centre frequencies and the centres of the lapse time windows that occur, each once and in increasing order, and the grid has a row for each frequency and a column for each lapse time.
* `c122_cells_partial` [c q p] (values). If no two coherences have the same centres, the value of the cell at the centres of a coherence is its mean; all other cells are NaN. Missing for the full property: `c122_centres_violated`.
* `c122_centres_violated` [c q p] (not satisfied: equal centres). Different bands can have the same centre frequency, for example 1 to 3 Hz and 0.5 to 3.5 Hz, and windows of different length the same centre: of such coherences only the last one is in the grid, the others disappear without a warning.

### C123 Detrending removes exactly the trend of every trace (partial)

Proofs: `Props/ClaimDetails.lean`, `Props/Detrend.lean`.

The code does not satisfy the full statement. C123 is violated: with the default arguments a trace with a missing sample is lost completely, whatever its other samples are C123 is violated: the method `scipy` never works. The argument `method` is passed on to a function that does not know it, so that any matrix with a valid sample gives a `TypeError`. C123 is violated: `detrend_scipy` closes gaps before it fits the line, so that it does not remove the trend of a trace with missing samples: of the line 0, 1, 2, 3 with the second sample missing something remains C123 is violated: for linear trends the traces that are given as argument are changed, for constant ones (`c123_constant`) they are not

* `c123_scipy_constant` [c q p] C123: `detrend_scipy` with the type `constant` (or `c`) subtracts from each valid sample the mean of the valid samples of its trace. Missing samples stay missing, and there is never an exception.
* `c123_mixed_partial` [c q p] C123: traces with missing samples among others do no harm to them: each complete trace loses its trend as if it were alone, and a trace with a missing sample is marked as invalid as a whole instead of being kept with its trend. Missing: the trend of traces with missing samples is not removed (`c123_nan_violated`).
* `c123_linear_partial` [c q p] C123: with the default arguments every trace loses its linear trend: what remains is the trace minus a line, has mean zero, is not correlated with the time and has the smallest energy of all that can be had by subtracting a line. This never fails for traces with at least two samples. Missing: traces with missing samples (`c123_nan_violated`).
* `c123_trend_partial` [c q p] C123: lines that are added to the traces have no effect on the result, and the result has no trend that could be removed once more. Missing for the full property: `c123_nan_violated`, `c123_method_violated`, `c123_gap_violated` and others.
* `c123_constant` [c q p] C123: with the type `constant` the mean of the valid samples becomes zero and missing samples stay missing; the argument is not changed
* `c123_unknown` [c q p] C123: unknown methods and types are refused, and nothing is changed
* `c123_nan_violated` [c q p] C123 is violated: with the default arguments a trace with a missing sample is lost completely, whatever its other samples are
* `c123_method_violated` [c q p] C123 is violated: the method `scipy` never works. The argument `method` is passed on to a function that does not know it, so that any matrix with a valid sample gives a `TypeError`.
* `c123_scipy_partial` [c q p] C123: called directly, the other method (`detrend_scipy`) gives the same result for traces without missing samples. Missing: see `c123_method_violated` and `c123_gap_violated`.
* `c123_scipy_gaps` [c q p] C123: for traces with missing samples `detrend_scipy` never fails. Missing samples stay missing, and the trend of the other samples, put together without the gaps, is removed. (So gaps change the result, see `c123_gap_violated`.)
* `c123_gap_violated` [c q p] C123 is violated: `detrend_scipy` closes gaps before it fits the line, so that it does not remove the trend of a trace with missing samples: of the line 0, 1, 2, 3 with the second sample missing something remains
* `c123_argument_violated` [c q p] C123 is violated: for linear trends the traces that are given as argument are changed, for constant ones (`c123_constant`) they are not

### C124 Running normalisation in time makes the amplitude uniform and keeps the signs (partial)

Proofs: `Props/TdNorm.lean`.

The code does not satisfy the full statement. C124 is violated: a silent trace becomes NaN everywhere C124 is violated: a trace with a missing sample is lost C124 is violated: with a window that is longer than the traces there is no result

* `c124_value_partial` [c q p] C124: every trace without missing samples whose filtered version is not zero everywhere is divided by the root of its smoothed power. Missing: silent traces, missing samples and long windows (`c124_silent_violated`, `c124_nan_violated`, `c124_long_violated`).
* `c124_scale` [c q p] C124: the result does not depend on the amplitude of the traces: positive factors, one for each trace, have no effect
* `c124_sign` [c q p] C124: every sample keeps its sign
* `c124_bounded` [c q p] C124: without a filter no sample of the result is larger than the number of samples in the window
* `c124_refused` [c q p] C124: windows without length are refused
* `c124_silent_violated` [c q p] C124 is violated: a silent trace becomes NaN everywhere
* `c124_nan_violated` [c q p] C124 is violated: a trace with a missing sample is lost
* `c124_long_violated` [c q p] C124 is violated: with a window that is longer than the traces there is no result

### C125 One-bit normalisation in the frequency domain gives the spectra of the signs (partial)

Proofs: `Props/FdNorm.lean`.

The code does not satisfy the full statement. C125 is violated: the inverse transform has an even number of samples. The three samples 1, 1, 1 are their own signs, but their spectrum is changed: its first coefficient, their sum, becomes 2.

* `c125_signs_partial` [c q p] C125: for traces with an even number of samples the result are the spectra of the signs of the samples. Missing: traces with an odd number of samples (`c125_odd_violated`).
* `c125_again_partial` [c q p] C125: for traces with an even number of samples the amplitude has no effect, and a second application neither. Missing for the full property: `c125_odd_violated`.
* `c125_single` [c q p] C125: traces of a single sample are refused
* `c125_odd_violated` [c q p] C125 is violated: the inverse transform has an even number of samples. The three samples 1, 1, 1 are their own signs, but their spectrum is changed: its first coefficient, their sum, becomes 2.

### C126 The frequency domain filter passes the pass band and stops outside of the corners (partial)

Proofs: `Props/FdNorm.lean`.

The code does not satisfy the full statement. C126 is violated: a low pass, which has no lower flank (`f1 = f2 = 0`), removes the mean: the first coefficient gets the weight 0 C126 is violated: a high pass, which has no upper flank (`f3 = f4`, the highest frequency), removes the highest frequency C126 is violated: a pass band above all frequencies does not give zero: the function fails

* `c126_weights_partial` [c q p] C126: if both flanks have at least two frequencies, each coefficient is multiplied with a weight from 0 to 1, the same for all traces: 1 in the pass band, 0 outside of the outer corner frequencies. Missing: narrow flanks (`c126_lowpass_violated`, `c126_highpass_violated`).
* `c126_lowpass_violated` [c q p] C126 is violated: a low pass, which has no lower flank (`f1 = f2 = 0`), removes the mean: the first coefficient gets the weight 0
* `c126_highpass_violated` [c q p] C126 is violated: a high pass, which has no upper flank (`f3 = f4`, the highest frequency), removes the highest frequency
* `c126_outside_violated` [c q p] C126 is violated: a pass band above all frequencies does not give zero: the function fails

### C127 Tapering correlations changes their ends only (partial)

Proofs: `Props/Decay.lean`.

The code does not satisfy the full statement. C127 is violated: of two samples only the last one becomes zero

* `c127_weights_partial` [c q p] C127: tapering multiplies the samples of all correlations with the same weights, of which those within `width` seconds of an end rise from 0 to 1 and the others are 1. NaN stay NaN. Missing: correlations of two samples (`c127_two_samples_violated`).
* `c127_refused` [c q p] C127: a width of zero changes nothing; negative widths and those of more than half of the correlation are refused
* `c127_two_samples_violated` [c q p] C127 is violated: of two samples only the last one becomes zero

### C128 The correction of the decay removes the exponential that fits best (partial)

Proofs: `Props/Decay.lean`.

The code does not satisfy the full statement. C128 is violated: correlations that have negative lags only are made to decay more. Here are samples at the lags -3 and -2 with a decay of `e` per sample; afterwards it is `e^2`. (The imaginary part of the analytic signal of two samples is zero.) C128 is violated: if the correlations start after lag zero, the decay is not removed but multiplied with a constant: here the amplitude `exp(-lag)` does not become 1 C128 is violated: if lag zero is between two samples, the call fails C128 is violated: if all correlations are zero, the call fails

* `c128_divides_partial` [c q p] C128: all correlations are divided by the same decay `A exp(K n)`, where `n` is the distance from lag zero in samples and `log A + K n` is the line that fits the logarithm of the mean envelope best. Missing: correlations that do not have lag zero as a sample between others (`c128_acausal_violated`, `c128_late_violated`, `c128_between_violated`) and those without energy (`c128_silent_violated`).
* `c128_exact_partial` [c q p] C128: a decay that is exactly exponential is removed exactly. Missing for the full property: `c128_acausal_violated`, `c128_late_violated`, `c128_between_violated` and others.
* `c128_scale` [c q p] C128: the result does not depend on the amplitude of the correlations
* `c128_acausal_violated` [c q p] C128 is violated: correlations that have negative lags only are made to decay more. Here are samples at the lags -3 and -2 with a decay of `e` per sample; afterwards it is `e^2`. (The imaginary part of the analytic signal of two samples is zero.)
* `c128_late_violated` [c q p] C128 is violated: if the correlations start after lag zero, the decay is not removed but multiplied with a constant: here the amplitude `exp(-lag)` does not become 1
* `c128_between_violated` [c q p] C128 is violated: if lag zero is between two samples, the call fails
* `c128_silent_violated` [c q p] C128 is violated: if all correlations are zero, the call fails

### C129 Filtering correlations shifts nothing in time (partial)

Proofs: `Props/CorrFilter.lean`.

The code does not satisfy the full statement. C129 is violated: a correlation with a NaN is lost completely C129 is violated: correlations that are the same for positive and negative lags are not the same afterwards, because what leaves a correlation at its end is lost when the filter goes forwards, but not when it goes backwards. This is so for each filter with an impulse response that is longer than one sample.

* `c129_zero_phase_partial` [c q p] C129: for correlations of a given length the filter is one matrix, which is symmetric (zero phase: sample `i` gets from an impulse at `k` what sample `k` gets from an impulse at `i`) and not negative (no frequency changes its sign). `butter` gives the coefficients. Missing: NaN (`c129_nan_violated`), and the ends of the correlations (`c129_reversal_violated`).
* `c129_refused` [c q p] C129: other than two frequencies are refused, and so are bands for which there is no filter
* `c129_nan_violated` [c q p] C129 is violated: a correlation with a NaN is lost completely
* `c129_reversal_violated` [c q p] C129 is violated: correlations that are the same for positive and negative lags are not the same afterwards, because what leaves a correlation at its end is lost when the filter goes forwards, but not when it goes backwards. This is so for each filter with an impulse response that is longer than one sample.

### C130 The envelope bounds the correlation and is the amplitude of an oscillation (partial)

Proofs: `Props/CorrFilter.lean`.

The code does not satisfy the full statement. C130 is violated: a correlation with a NaN is lost completely

* `c130_bound_partial` [c q p] C130: the envelope has the shape of the correlations, and is at least their absolute value. Missing: NaN (`c130_nan_violated`).
* `c130_scale` [c q p] C130: a factor, also a negative one, multiplies the envelope with its absolute value. NaN do not change that.
* `c130_sinusoid` [c q p] C130: the envelope of an oscillation with `p` periods in the correlation, and more than two samples per period, is its amplitude, at all lags and for any phase
* `c130_nan_violated` [c q p] C130 is violated: a correlation with a NaN is lost completely

### C131 The clock shift is the tested delay with the best correlation (partial)

Proofs: `Props/ClockShift.lean`.

The code does not satisfy the full statement. C131 (violated). On the positive side the reference is delayed as if it began at lag zero, although it has samples at negative lags. Here it has the samples `l + 1` at the lags `l` from -1 to 3, and a trace is exactly this reference delayed by one sample; the tested shifts are -1 and 1, and the result is -1. C131 (violated). The shift that is found is the one by which the trace is later than the reference, but `correct_shift` takes the opposite (see C111): it delays the trace by the same shift again. Here the sampling rate is 1 Hz; otherwise the units differ as well.

* `c131_best` [c q p] (the best shift). The traces and the reference have samples at lags from `-a` to `b`. For each trace the value is the first one of the tested delays (in samples) for which the correlation coefficient of the trace with the delayed reference on the time window `w` is largest, and this coefficient is returned with it; both are undefined if one of the coefficients is. The reference is the part at the compared lags.
* `c131_found_partial` [c q p] (the right shift). The reference has the samples of a function `f` that the spline reproduces, and a trace agrees on the time window with a multiple of `f` delayed by one of the tested shifts `v`. Nothing vanishes on the window. Then the correlation is one; and if no other tested shift gives a multiple of the trace, the value is `v`. Missing: delays by which values of the reference are needed that are outside of the compared lags (`c131_edge_violated`).
* `c131_edge_violated` [c q p] (violated). On the positive side the reference is delayed as if it began at lag zero, although it has samples at negative lags. Here it has the samples `l + 1` at the lags `l` from -1 to 3, and a trace is exactly this reference delayed by one sample; the tested shifts are -1 and 1, and the result is -1.
* `c131_correction_violated` [c q p] (violated). The shift that is found is the one by which the trace is later than the reference, but `correct_shift` takes the opposite (see C111): it delays the trace by the same shift again. Here the sampling rate is 1 Hz; otherwise the units differ as well.
* `c131_refused` [c q p] other sides and references of another length are refused

### C132 Applying shifts moves samples by exactly the shift (partial)

Proofs: `Props/ClockShift.lean`.

The code does not satisfy the full statement. C132 (violated): with fewer shifts than traces the other traces become zero, without an error C132 (violated): the shifts that `time_shift_estimate` measures (see C131) are not those that `time_shift_apply` removes: it delays a trace that is later than the reference by the same shift again.

* `c132_shift_partial` [c q p] . Sample `k` of a trace that is shifted by `v` samples is the one at `k - v`: zero outside of the trace, and a linear interpolation between two samples. It does not matter if the traces have one side or two. Missing: fewer shifts than traces (`c132_fewer_violated`).
* `c132_varying` [c q p] (varying shifts). With a matrix of shifts, each sample has its own shift.
* `c132_column` [c q p] (one shift for each trace in a matrix of one column)
* `c132_refused` [c q p] matrices of shifts that do not fit are refused
* `c132_whole_partial` [c q p] (a whole number of samples). Sample `k` becomes sample `k - j` of the trace, and zero where the trace does not reach; in particular a shift by zero changes nothing. Missing for the full property: `c132_fewer_violated`, `c132_estimate_violated`.
* `c132_fewer_violated` [c q p] (violated): with fewer shifts than traces the other traces become zero, without an error
* `c132_estimate_violated` [c q p] (violated): the shifts that `time_shift_estimate` measures (see C131) are not those that `time_shift_apply` removes: it delays a trace that is later than the reference by the same shift again.

### C133 Applying a stretch evaluates the trace at stretched lags (partial)

Proofs: `Props/StretchApply.lean`.

The code does not satisfy the full statement. C133 (violated). The documentation says that the negative of the measured stretch has to be applied. It doubles the stretch: a trace that is the reference at `l * exp (-v)` becomes the reference at `l * exp (-2 v)`. C133 (violated). The traces of the caller are tapered: their first and last samples become zero.

* `c133_values` [c q p] (what is evaluated). The traces are multiplied with a taper that is one at all samples that are farther than 2.5 percent of the trace from its ends; then each trace is the tapered one at its lags times the exponential of its stretch.
* `c133_restored_partial` [c q p] (a stretch is removed). If the tapered traces are the samples of functions that the spline reproduces, each of them is evaluated at the stretched lags, as far as these are inside of the trace. Applying the stretch by which a trace was measured to be stretched (C116: the trace at lag `l` is the reference at lag `l * exp (-v)`) gives the reference back. Missing: traces that are not zero at their ends (they are changed by the taper), and the documented sign (`c133_sign_violated`).
* `c133_sign_violated` [c q p] (violated). The documentation says that the negative of the measured stretch has to be applied. It doubles the stretch: a trace that is the reference at `l * exp (-v)` becomes the reference at `l * exp (-2 v)`.
* `c133_argument_violated` [c q p] (violated). The traces of the caller are tapered: their first and last samples become zero.
* `c133_refused` [c q p] too few stretches are an `IndexError`; a matrix of stretches with another number of rows is refused before anything is changed; of its columns only the first one is used.

### C134 Smoothing a similarity matrix averages times and finds the best stretch again (partial)

Proofs: `Props/SmoothDv.lean`.

The code does not satisfy the full statement. C134 (violated). With a NaN among negative similarities the value is the stretch of the NaN. C134 (violated). At a time without similarities in its window the correlation is NaN, but the value is a number, the first stretch. C134 (violated). The window length is documented in samples. For an even one the window has one sample more: with length two, the similarity is the mean of three times.

* `c134_smoothed` [c q p] (smoothed similarities). For every matrix, window length and threshold the similarity of time `i` and stretch `j` becomes the mean of the similarities of this stretch at the times at most half a window away that are not NaN and not below the threshold, and NaN if there is none. The shape, the stretches and the description are kept.
* `c134_best_partial` [c q p] (best stretch). For each time the new correlation is the largest smoothed similarity. If the smoothed similarities of this time have no NaN, or their maximum is positive, the new value is the first stretch at which it is attained. Missing: the other times, see `c134_negative_violated` and `c134_empty_violated`.
* `c134_negative_violated` [c q p] (violated). With a NaN among negative similarities the value is the stretch of the NaN.
* `c134_empty_violated` [c q p] (violated). At a time without similarities in its window the correlation is NaN, but the value is a number, the first stretch.
* `c134_window_violated` [c q p] (violated). The window length is documented in samples. For an even one the window has one sample more: with length two, the similarity is the mean of three times.
* `c134_refused` [c q p] a matrix without columns is a `ValueError`.

### C135 A distance limit selects exactly the pairs of near stations (partial)

Proofs: `Props/Interstat.lean`.

The code does not satisfy the full statement. C135 (violated). The combination of the station `S1` with itself is requested, too, and used as a prefix: the traces of `S1` and of the far station `S10` are correlated although no distance is below the limit. C135 (violated). The combinations are named in the order of the list, but existing correlations are looked for under the name in the order of the concatenated codes: those of the stations `A.Z` and `AA.B` are selected, but never recognised as existing. C135 (violated). If the remote service fails, the combinations found so far remain and are used, and the search can not be repeated: the second call is refused.

* `c135_pairs` [q p] (the combinations). If each station is in the inventory files or known to the remote service, the requested combinations are exactly those of two stations of the list (or of a station with itself) whose distance is at most `dis`. Only stations without an inventory file are requested from the remote service, and each of them at most once.
* `c135_selected` [c q p] (near stations are correlated). The traces of two stations of the list within the distance are selected, in both orders.
* `c135_only_partial` [c q p] (other stations are not). If all codes of networks have one length and all codes of stations, too, only the traces of such pairs are selected. Missing: codes of different lengths (`c135_prefix_violated`).
* `c135_prefix_violated` [c q p] (violated). The combination of the station `S1` with itself is requested, too, and used as a prefix: the traces of `S1` and of the far station `S10` are correlated although no distance is below the limit.
* `c135_existing_violated` [p] (violated). The combinations are named in the order of the list, but existing correlations are looked for under the name in the order of the concatenated codes: those of the stations `A.Z` and `AA.B` are selected, but never recognised as existing.
* `c135_existing_partial` [c q p] (existing correlations). If the stations are sorted by network and station, and the codes of networks have one length, existing correlations of each requested pair of two stations are looked for. Missing: codes of different lengths (`c135_existing_violated`).
* `c135_interrupted_violated` [c q p] (violated). If the remote service fails, the combinations found so far remain and are used, and the search can not be repeated: the second call is refused.
* `c135_refused` [q p] other methods and requested combinations are refused, and the combinations stay as they are

### C136 The spectra of a spectrogram cover the requested period once (partial)

Proofs: `Props/ReadWindows.lean`.

The code does not satisfy the full statement. C136 (violated). The documentation says that the increment does not influence the result. If it is no multiple of the window length, the end of each period is lost: with windows of length 2 and an increment of 3 instead of 2, the spectra begin at 0 and 3 instead of 0, 2 and 4. C136 (violated). The end is documented as the end of the last window. If the period is no multiple of the increment, more is read: there is a spectrum for a window after the end, for every window length.

* `c136_periods` [c q p] (the periods that are read). For every start, end and increment: the periods have the length of the increment, each begins where the one before it ends, the first one at the start; and each time from the start to before the end is in exactly one of them.
* `c136_windows_partial` [c q p] (the spectra). If the increment is a multiple of the window length and divides the requested period, there is a spectrum for each window of the period: they begin at the start and follow each other up to the end. In particular the increment does not matter. Missing: other increments, see `c136_increment_violated` and `c136_end_violated`.
* `c136_increment_violated` [none] (violated). The documentation says that the increment does not influence the result. If it is no multiple of the window length, the end of each period is lost: with windows of length 2 and an increment of 3 instead of 2, the spectra begin at 0 and 3 instead of 0, 2 and 4.
* `c136_end_violated` [c q p] (violated). The end is documented as the end of the last window. If the period is no multiple of the increment, more is read: there is a spectrum for a window after the end, for every window length.
* `c136_refused` [none] an increment that is shorter than the window is refused

### C137 Stitching velocity change curves shifts each to its corrected predecessor (proved)

Proofs: `Props/MeanTime.lean`, `Props/ShiftSeveral.lean`.

The full statement is proved of the model.

* `c137_mean_time` [c q p] (mean times). The time by which a curve is ordered is the mean of the start times of its windows that have a value, the others do not count; it is missing exactly if no window has a value.
* `c137_chain` [c q p] (one after another). The curves are ordered by the mean times of their values. The earliest ones, and those without values, stay as they are. Each other one becomes itself shifted against its corrected predecessor, or stays as it is if this shift can not be measured.
* `c137_predecessor` [c q p] (each curve is corrected at most once): each curve with a value is one of the earliest ones or has exactly one predecessor.
* `c137_finishes` [q p] (always finishes). If the correction of curves with values (`good`) fails only with `ValueError`, the correction of several curves does not fail.
* `c137_mean` [c q p] (the correction by means). For curves with values the correction of one curve fails only with `ValueError`, and a corrected curve has the same times, correlations and tested stretches: the hypotheses of `c137_finishes` are met.
* `c137_failed` [c q p] if no shift can be measured, as with an unknown method, nothing is changed and there is no error

### C138 Grid inversions depend on the call only, and keep the object consistent (partial)

Proofs: `Props/ClaimDetails.lean`, `Props/InversionRun.lean`, `Props/InversionUse.lean`, `Props/MeanTime.lean`.

The code does not satisfy the full statement. C138 (violated). The window and the frequencies are those of the last curve with a value. If this curve does not know its processing, the inversion is refused, although it succeeds with the curves in another order. C138 (violated). A frequency of zero that is given is not used: the call is the same as without it, for all other arguments; without a processing it is refused although all arguments are given. C138 (violated). After an inversion with resolution and one for another time without, the object has the velocity changes of the second and the resolution of the first one; the resolution of the second one is another.

* `c138_covariance` [c q p] C138: the a-priori covariance of two cells of the grid in an inversion falls off with the distance of the cells in both coordinates: `(std · scaling / length)² exp(- distance / length)`.
* `c138_history` [c q p] (history). Whatever was computed with a grid before, successful or not, a call has the answer, or the exception, that it has on a new grid.
* `c138_joint` [c q p] (joint or separate). After an inversion with resolution the object has the returned velocity changes and the resolution that a separate computation returns on any grid object, and if one of both fails, so does the other, with the same exception.
* `c138_attributes` [c q p] (failed calls). A call that fails, and the computation of the posterior covariance, leave the velocity changes and the resolution as they were; the inversion without resolution and the truncated inversion leave the resolution, the resolution alone leaves the velocity changes. What they change is what they return.
* `c138_order_partial` [c q p] (order). If the curves have the same processing, or window and frequencies are given, the order of the curves does not matter: velocity changes, resolution and posterior covariance are the same. Missing: curves with different processing, see `c138_order_violated`.
* `c138_succeeds` [c q p] (success). If a curve contributes a value at the time, the stations are on the grid, the kernels can be computed and window and frequencies are valid, inversion and resolution succeed, whatever was done before.
* `c138_order_violated` [c q p] (violated). The window and the frequencies are those of the last curve with a value. If this curve does not know its processing, the inversion is refused, although it succeeds with the curves in another order.
* `c138_zero_violated` [c q p] (violated). A frequency of zero that is given is not used: the call is the same as without it, for all other arguments; without a processing it is refused although all arguments are given.
* `c138_stale_violated` [c q p] (violated). After an inversion with resolution and one for another time without, the object has the velocity changes of the second and the resolution of the first one; the resolution of the second one is another.
* `c138_best_fit` [c q p] (best fit). The velocity changes that are returned for some curves and a time, whatever was done with the grid before, are the ones that fit the measurements best: each curve that has a valid measurement at the time contributes the value there, predicted with the kernel of its two stations, with a standard deviation from its coherence; no other model of the form `C w` has a smaller sum of misfit and a-priori cost, and those with the same sum are equal.
* `c138_settings` [c q p] (window and frequencies). The window is the given one, or else the window of the curve: it begins at the start and has the length with which the curve was measured. The lower and the upper frequency are the given ones, or else (also if zero is given) the lower and the upper one of the curve. Without given settings and without those of the curve there is an error.

### C139 The truncated inversion returns the smallest least squares model (proved)

Proofs: `Props/Tsvd.lean`.

The full statement is proved of the model.

* `c139_least_squares` [c q p] (least squares). The result `m` fits the data, with the kernels without the neglected singular values, as well as any model, and of all models that fit as well it is the smallest one.
* `c139_neglected` [c q p] (what is neglected). The neglected part of the kernels changes the predicted data of a model by at most the cutoff times the largest singular value, relative to the model. If all singular values other than zero are above the cutoff, nothing is neglected.
* `c139_unique` [c q p] (the decomposition). A matrix has several singular value decompositions. The result does not depend on which one is found.
* `c139_method` [c q p] (the method). Whatever was computed with the grid before, the truncated inversion takes one row for each curve with a value at the time: its kernel and the value. With the kernels without the neglected singular values no model fits these values better, and no other model that fits as well is as small.
* `c139_order` [c q p] (order). If the curves have the same processing, or window and frequencies are given, the result does not depend on the order of the curves.
* `c139_exact` [c q p] (exact data). If all singular values other than zero are above the cutoff, the data of a model are reproduced by the result.

### C140 Waveform coherences survive saving and reading (partial)

Proofs: `Props/WfcFile.lean`.

The code does not satisfy the full statement. C140 (violated). A field of the header whose name ends in `_av` is read as an average, and is missing in the header. C140 (violated). For a single correlation the list with its time is read as a time. C140 (violated). A file whose name contains a `*` can't be read, whatever it contains: no number of nested calls is enough.

* `c140_round_trip_partial` [c q p] (part) A coherence that is saved can be read, and then has the same coherences for each reference, the same averages and mean (also if they are not computed yet), the same window and frequencies and the same header. Missing: headers with other fields (`c140_name_violated`, `c140_time_violated`).
* `c140_name_violated` [q p] (violated). A field of the header whose name ends in `_av` is read as an average, and is missing in the header.
* `c140_time_violated` [q p] (violated). For a single correlation the list with its time is read as a time.
* `c140_refused` [q p] (refused). A field of the header named like another part of the file, or like the parameter of the writing function, is refused: nothing is written.
* `c140_missing` [c q p] (missing parts). A file without the mean, the lapse window or the frequency band is refused, whatever else it contains.
* `c140_pattern` [q p] (patterns). A path with a `*` is read as the list of all matching files in the order of the listing; a file that can't be read makes all of it fail. Other paths are read as one file.
* `c140_star_violated` [q p] (violated). A file whose name contains a `*` can't be read, whatever it contains: no number of nested calls is enough.

### C141 A period is read completely from the file system (partial)

Proofs: `Props/FsRead.lean`.

The code does not satisfy the full statement. C141 (violated). A sample exactly at the end of the period is not returned if it is the first one of its file, for example the sample at midnight for a period that ends at midnight. C141 (violated). A sample exactly at the start of the period is not returned if it is the last one of its file. C141 (violated). If the traces of a file are not in order, samples in the middle of the period are not read. C141 (violated). If the sampling rate of a channel changes within a day, the data of this day are left out without an error. If it changes from one day to the next, the request fails. C141 (violated). With yearly files a period that reaches into the next year can't be read: the files of all previous years are searched, and then a ValueError is raised.

* `c141_period_partial` [c q p] (part) Reading a period from an archive with files for sections of equal length (days for the SeisComP data structure, hours, half days) terminates without an error. It returns one trace for each channel that the requested id matches. The traces contain, in order and without repetition, exactly the samples of the files that have samples before the end and after the start of the period, and only samples of the period if data are trimmed. So all samples strictly within the period are returned (`c141_inside`). Missing: a sample exactly at the start or the end (`c141_end_violated`, `c141_start_violated`), other archives (`c141_order_violated`, `c141_rates_violated`, `c141_year_violated`).
* `c141_inside` [p] Every sample of the archive strictly within the period is one of those samples.
* `c141_select` [c q p] (ids) An id without wildcards selects the channels with the same id, without regard to case.
* `c141_end_violated` [c q p] (violated). A sample exactly at the end of the period is not returned if it is the first one of its file, for example the sample at midnight for a period that ends at midnight.
* `c141_start_violated` [c q p] (violated). A sample exactly at the start of the period is not returned if it is the last one of its file.
* `c141_order_violated` [p] (violated). If the traces of a file are not in order, samples in the middle of the period are not read.
* `c141_rates_violated` [c q p] (violated). If the sampling rate of a channel changes within a day, the data of this day are left out without an error. If it changes from one day to the next, the request fails.
* `c141_year_violated` [c q p] (violated). With yearly files a period that reaches into the next year can't be read: the files of all previous years are searched, and then a ValueError is raised.
* `c141_sds` [c q p] (SeisComP data structure) For an archive with the files `base/YEAR/NET/STA/CHA.D/NET.STA.LOC.CHA.D.YEAR.DAY` the sections are the days.

### C142 Mass downloads complete the archive without touching it (partial)

Proofs: `Props/MassDownload.lean`.

The code does not satisfy the full statement. C142 (violated). If a download does not begin at midnight, the samples before this time of the day are not in the file of their day but in the one of the day before. C142 (violated). A day that was downloaded in part is never completed: after a download that ends within the day, a later download of the whole day adds nothing to the file. C142 (violated). A client that was created with `read_only=True` extends the archive by a mass download all the same.

* `c142_own_file` [c q p] (names) Each channel and day has its own file: two times and two channels have the same file if and only if the channels are equal and the times are on the same day.
* `c142_read_name` [q p] (names) The file is the one that is read for this channel and day (`c66_sds`).
* `c142_kept` [none] Files that exist are never changed, by any number of downloads of any channels and periods.
* `c142_again` [c q p] A download that is repeated does not change anything.
* `c142_files` [c q p] (content) The content of the archive after a download, for every channel and every day. Files that exist are kept. The files of the channels that are downloaded contain the available samples of the 24 hours that begin on this day at the time of day of the start of the download, up to the end of the download. Nothing else is written.
* `c142_complete_partial` [c q p] (part) A download that begins at midnight puts every available sample of the period into the file of its day, unless this file existed before; the file then contains all samples of the day that are available in the period, and at most the first one of the next day besides. Missing: downloads that begin at another time (`c142_unaligned_violated`), days that have been downloaded in part before (`c142_incomplete_violated`), the last sample if it falls on midnight.
* `c142_unaligned_violated` [c q p] (violated). If a download does not begin at midnight, the samples before this time of the day are not in the file of their day but in the one of the day before.
* `c142_incomplete_violated` [c q p] (violated). A day that was downloaded in part is never completed: after a download that ends within the day, a later download of the whole day adds nothing to the file.
* `c142_read_only_violated` [c q p] (violated). A client that was created with `read_only=True` extends the archive by a mass download all the same.

### C143 Gaps and masked samples enter the correlations as zeros (partial)

Proofs: `Props/InnerMatrix.lean`.

The code does not satisfy the full statement. C143 is violated: masks set by `stream_mask_at_utc` as the last preprocessing step have no effect at all on the matrix, whatever is masked: the samples beneath the masks are correlated.

* `c143_rows` [c q p] Every window with at least one trace becomes a matrix with one row for each trace, in the order of the traces and as long as the longest of them. A row starts with the stored samples of its trace, NaN replaced by zero, and ends with zeros.
* `c143_too_long` [q p] A row that is too short is refused; no sample is cut off silently.
* `c143_window_partial` [c q p] Full statement: in the matrix of the window from sample `a` to sample `b`, the entry of a trace at a time is its value if it has a valid sample at that time, and zero if the sample is masked, NaN or missing. Proved for traces with nothing stored beneath their masks. Missing: traces masked by `stream_mask_at_utc`, see `c143_masked_violated`.
* `c143_merge_pad` [q p] Merging and padding store nothing beneath the samples that they mask, and padding keeps what is valid at each time inside the window.
* `c143_filter_after_mask` [c q p] A mask that is followed by `stream_filter` is respected: masked samples are missing afterwards, and nothing is stored beneath them.
* `c143_mask` [c q p] (which samples are masked) Masking intervals keeps all samples and what was masked before, and masks, besides, the samples in the intervals that begin or end inside the trace, with one sample more on either side if the end is between two samples; with `reverse` all other samples.
* `c143_masked_violated` [c q p] C143 is violated: masks set by `stream_mask_at_utc` as the last preprocessing step have no effect at all on the matrix, whatever is masked: the samples beneath the masks are correlated.

### C144 Preprocessing applies every step once and keeps samples at their times (partial)

Proofs: `Props/Preprocess.lean`.

The code does not satisfy the full statement. C144 is violated: a step of the user is left out because of its name. C144 is violated: if a response is missing for a later channel of the station, the response is removed twice from the channels before it. C144 is violated: with traces of several stations only the response of the first trace's station is requested, so a response that the server has is not used and preprocessing fails.

* `c144_window` [c q p] Whatever the steps do: each trace of the result reaches exactly from the first to the last sample of the requested window, and there is at most one trace for each channel, in order.
* `c144_steps_partial` [q p] The steps of the parameter file are applied in their order, each once, except those whose names contain the names of the two functions that are always applied. Missing for the full property: `c144_name_violated`, `c144_twice_violated`, `c144_station_violated`.
* `c144_name_violated` [none] C144 is violated: a step of the user is left out because of its name.
* `c144_samples_partial` [c q p] (partial: no steps of the parameter file, all responses known) The contiguous parts of the traces, after detrending and gap handling, that are longer than a twentieth of the correlation length stay at their times; the response is removed once from each, polarity is corrected once. All other samples are missing. A channel is left out if and only if no part is long enough.
* `c144_response_partial` [c q p] Full statement: the response is removed exactly once from each trace, with a response from the remote server if the local one is missing. Proved if the local inventory knows all channels, or if it does not know the first one and the server knows all. Then the fetched inventory is kept, so that the next call finds the responses. Missing: see `c144_twice_violated` and `c144_station_violated`.
* `c144_twice_violated` [q p] C144 is violated: if a response is missing for a later channel of the station, the response is removed twice from the channels before it.
* `c144_station_violated` [q p] C144 is violated: with traces of several stations only the response of the first trace's station is requested, so a response that the server has is not used and preprocessing fails.
* `c144_failed` [q p] A run that fails leaves the inventory as it was.

### C145 Velocity changes are computed for every channel combination, by any number of processes (partial)

Proofs: `Props/MonitorBulk.lean`.

The code does not satisfy the full statement. C145 is violated: if the correlations of a channel combination are in two selected files (all components in one file and each in its own file), the results are saved in the same file, and the order of execution decides which one remains.

* `c145_results_partial` [c q p] Full statement: with any number of processes and in every order of execution, the result of each channel combination in the selected files is saved in its own file, whatever happens to the others, and no other file is changed. Proved if there is one correlation file for each combination of stations. Missing: several files, see `c145_two_files_violated`.
* `c145_same_partial` [c q p] Hence the results depend neither on the number of processes nor on the order of execution. Missing for the full property: `c145_two_files_violated`.
* `c145_two_files_violated` [q p] C145 is violated: if the correlations of a channel combination are in two selected files (all components in one file and each in its own file), the results are saved in the same file, and the order of execution decides which one remains.

### C146 Station information that was obtained once stays available (partial)

Proofs: `Props/InvStore.lean`.

The code does not satisfy the full statement. C146 is violated: when data of a second channel of a station are downloaded, the file with the information about the first channel is replaced, and a new client does not know it any more. C146 is violated: then the station counts as known, so the missing channel is not requested with the station either. C146 is violated: a client that is opened for reading only writes inventories as well.

* `c146_kept_partial` [c q p] Full statement: in every sequence of calls, including new clients on the same directory, a channel that was known once is known from then on. Proved for histories that request information about whole stations (the information for the limits of distances and for the correlation headers). Missing: requests for single channels made while data are downloaded, see `c146_overwritten_violated`.
* `c146_same_client` [p] One client forgets nothing until it reads the directory again, whatever the server answers.
* `c146_requested_once` [c q p] A station that the server has is known after it was selected, and it is requested once only: after any further calls that ask for whole stations, selecting it does not change anything.
* `c146_overwritten_violated` [p] C146 is violated: when data of a second channel of a station are downloaded, the file with the information about the first channel is replaced, and a new client does not know it any more.
* `c146_not_requested_violated` [p] C146 is violated: then the station counts as known, so the missing channel is not requested with the station either.
* `c146_read_only_violated` [p] C146 is violated: a client that is opened for reading only writes inventories as well.

### C147 Header and matrix of a bulk fit together after any processing (partial)

Proofs: `Props/BulkOps.lean`, `Props/BulkShape.lean`.

The code does not satisfy the full statement. C147 is violated by `resample`: the location codes and the number of traces stay those of the old matrix. With more bins than correlations the bulk cannot be converted to a stream any more. C147 is violated by `resample`: with fewer bins the rows get the codes of other correlations.

* `c147_matrix` [c q p] After any sequence of calls of the methods of a bulk, in any order and with any arguments, whether they fail or not, the header describes the matrix: there is a start and an end time for each row, each row has the number of samples in the header, and the lag axis ends with the last sample.
* `c147_codes_partial` [c q p] Full statement: after any sequence of calls, also the codes in the header have one entry per row and the number of traces is that of the rows, so that the bulk can be converted to a stream. Proved for sequences without `resample` and `slice`. Missing: these two, see `c147_resample_violated` and `c32_ntrcs_violated`.
* `c147_rows_kept` [c q p] Methods that change samples or the lag axis leave the description of the rows alone: row for row the same start and end times and codes.
* `c147_resample_violated` [c q p] C147 is violated by `resample`: the location codes and the number of traces stay those of the old matrix. With more bins than correlations the bulk cannot be converted to a stream any more.
* `c147_other_codes_violated` [c q p] C147 is violated by `resample`: with fewer bins the rows get the codes of other correlations.
* `c147_clip` [c q p] `clip` keeps the shape.
* `c147_normalize` [c q p] `normalize` keeps the shape.
* `c147_decay` [c q p] `correct_decay` keeps the shape.
* `c147_envelope` [c q p] `envelope` keeps the shape.
* `c147_filter` [c q p] `filter` keeps the shape.
* `c147_smooth` [c q p] `smooth` keeps the shape, also if it fails after some rows were replaced.
* `c147_taper` [c q p] `taper` keeps the shape.
* `c147_taper_center` [c q p] `taper_center` keeps the shape.
* `c147_shift` [c q p] `correct_shift` keeps the shape, also if it fails.
* `c147_stretch` [c q p] `correct_stretch` keeps the shape.

### C148 The intensity used for sensitivity kernels conserves the energy of the source (partial)

Proofs: `Props/KernelEnergy.lean`.

The code does not satisfy the full statement. More energy than that of the source is found, e.g. with `v = 1`, `t = 10`, `l = 10` and `atol = 1`. With the same numbers for a medium a thousand times smaller (metres for kilometres), less energy is found.

* `c148_scattered_partial` [c q p] (scattered part) At any time `t`, the energy that has been scattered in the neighbourhood of the source `s` is `1 - exp(-v t / l)` up to the part next to the wave front (`atol`) that is left out. Missing: the energy of the direct wave, see `c148_energy_violated`.
* `c148_scattered_all` [c q p] (scattered part) If nothing is left out next to the wave front, the scattered energy is `1 - exp(-v t / l)`.
* `c148_scattered_le` [c q p] (scattered part) Whatever is left out next to the wave front, the scattered energy is at most `1 - exp(-v t / l)`.
* `c148_energy_partial` [c q p] (all energy) The energy found at time `t` in the plane is not one: that of the direct wave, `exp(-v t / l)`, is multiplied by the width of the shell in which the wave is found, whatever the unit of length. Missing for the full property: `c148_energy_violated`, `c148_unit_violated`.
* `c148_energy_violated` [c q p] More energy than that of the source is found, e.g. with `v = 1`, `t = 10`, `l = 10` and `atol = 1`.
* `c148_unit_violated` [c q p] With the same numbers for a medium a thousand times smaller (metres for kilometres), less energy is found.

### C149 Parallel processes find the directories they write to, and do not disturb each other (partial)

Proofs: `Props/StartUp.lean`.

The code does not satisfy the full statement. C149 is violated by the waveform coherence: the directory for its results is created by process 0 when it computes its own first combination, and nobody waits for that. If process 1 is faster, its results are lost (the exception is caught and the result is not handed on). C149 is violated: all processes write the files with the averages of the waveform coherence, at the same time.

* `c149_correlator` [c q p] (correlations) Whatever number of processes there is and in whatever order they proceed: if after the start they write only into the directories for correlations and for logs, none of them ever finds its directory missing, although only one process creates the directories.
* `c149_monitor` [c q p] (velocity changes) The same for the computation of velocity changes.
* `c149_wfc_partial` [c q p] (waveform coherence) With the directory for the results existing from the start, nothing fails. Missing: the case that it does not, see `c149_wfc_violated`.
* `c149_wfc_violated` [q p] is violated by the waveform coherence: the directory for its results is created by process 0 when it computes its own first combination, and nobody waits for that. If process 1 is faster, its results are lost (the exception is caught and the result is not handed on).
* `c149_completes` [c q p] (no process is stuck) In whatever order the processes have proceeded so far, the run can be completed, if all take part in the same collective calls.
* `c149_monitor_completes` [c q p] (velocity changes) In particular, the computation of velocity changes never gets stuck.
* `c149_wfc_completes` [c q p] (waveform coherence) Neither does that of the waveform coherence.
* `c149_log_files` [c q p] (log files) In the directory of the logs, no file is ever written by two processes.
* `c149_averages_violated` [q p] is violated: all processes write the files with the averages of the waveform coherence, at the same time.

### C150 The options of every run are recorded (partial)

Proofs: `Props/OptRecord.lean`.

The code does not satisfy the full statement. C150 is violated: times in the options for the velocity changes (as `pop_at_utcs` and `select_time` need them) cannot be recorded. The object for monitoring cannot be created, and an earlier record of the same minute is emptied. C150 is violated: of two runs that start in the same minute, only the options of the second are kept.

* `c150_recorded` [c q p] If the start of a run does not fail, its record contains the options that were passed, with all times written as text; all other files stay as they are.
* `c150_accepted_partial` [c q p] (which runs can start) Options whose only times are the starts and ends of masks in the preprocessing are always recorded. Missing: options with times in other places, see `c150_times_violated`.
* `c150_times_violated` [c q p] is violated: times in the options for the velocity changes (as `pop_at_utcs` and `select_time` need them) cannot be recorded. The object for monitoring cannot be created, and an earlier record of the same minute is emptied.
* `c150_overwritten_violated` [c q p] is violated: of two runs that start in the same minute, only the options of the second are kept.

### C151 Velocity changes are read with wildcards completely (partial)

Proofs: `Props/ClaimDetails.lean`, `Props/DvFiles.lean`.

The code does not satisfy the full statement. C151 is violated: an empty or otherwise damaged file among those that match makes all of them unreadable. C151 is violated: a file whose name contains a wildcard is never read, the function calls itself without end.

* `c151_kinds` [q p] C151: a path with a question mark or an asterisk is a pattern: the result is a list, or an error, but never a single result. Any other path is the name of one file, and the result is never a list.
* `c151_pattern_partial` [q p] With a pattern, the results of exactly the files that match it are returned, in the order in which they are found; damaged archives are skipped. If there is no readable file, that is an error. Without a pattern the result of the file is returned. Missing: files that are damaged in another way, see `c151_other_damage_violated`, and names with wildcards, see `c151_names_violated`.
* `c151_single` [q p] (one file) Without wildcards, the result in the file is returned.
* `c151_missing` [q p] (missing file)
* `c151_other_damage_violated` [q p] is violated: an empty or otherwise damaged file among those that match makes all of them unreadable.
* `c151_names_violated` [q p] is violated: a file whose name contains a wildcard is never read, the function calls itself without end.

### C152 A shift correction compares the times the two curves share (partial)

Proofs: `Props/ShiftWindow.lean`.

The code does not satisfy the full statement. C152 is violated: without additional overlap the last common time is not compared, so that the result does not depend on the values measured there. C152 is violated: curves whose times alternate are not more than one time apart, but the correction with an overlap of one time is refused.

* `c152_common_partial` [c q p] C152: If the curves have times in common, the shift is measured from the first of them minus `n` to the last of them plus `n`, cut at the ends of the curve. What is missing is the upper end: it is excluded, and it is at most the last time of the curve (`c152_last_violated`).
* `c152_last_violated` [c q p] C152 is violated: without additional overlap the last common time is not compared, so that the result does not depend on the values measured there.
* `c152_gap` [c q p] C152: If one curve ends before the other begins, on the same time axis, and the gap is larger than the permitted overlap, the correction is refused with a ValueError, whichever of the curves is the earlier one.
* `c152_apart_partial` [c q p] C152: If one curve ends before the other begins and the gap is not larger than the permitted overlap, the shift is measured from the last time of the earlier curve minus `n` to the first time of the later curve plus `n`, cut at the ends; the upper end is excluded. Missing for the full property: `c152_last_violated`, `c152_alternate_violated`.
* `c152_alternate_violated` [c q p] C152 is violated: curves whose times alternate are not more than one time apart, but the correction with an overlap of one time is refused.
* `c152_middle` [c q p] C152: What the method `median` compares is the median of the numbers: with an odd number of them the one with as many smaller as larger ones, with an even number the mean of the two in the middle; NaN if there are none.
* `c152_median` [c q p] C152: If, among the times that are compared, the first curve is `a` wherever it is a number and the second one is `b` wherever it is a number, and both have a number, the method `median` moves the first curve by exactly `b - a`.
* `c152_method` [c q p] C152: A method other than `mean` and `median` never gives a result.
* `c152_rest` [c q p] C152: A correction changes the similarity matrix and the values only: axis, correlation, identity and method of the curve remain.

### C153 The number of processes has no influence on whitened correlations (partial)

Proofs: `Props/ParallelWhiten.lean`.

The code does not satisfy the full statement. C153 is violated: with one process, a trace whose spectrum is zero (a gap) turns off the whitening of the other trace; with two processes the other trace is whitened. The results of the two runs are the correlations of different spectra. C153 is violated for joint whitening: the three components of a station are whitened by one process, but two processes fail.

* `c153_whitening_partial` [c q p] C153: If no coefficient of any spectrum is zero when it is whitened, the correlations of a processing chain with whitening are, for every number of processes, those of the computation trace by trace. What is missing are spectra with a coefficient zero (`c153_silent_violated`) and joint whitening (`c153_joint_violated`).
* `c153_silent_violated` [c q p] C153 is violated: with one process, a trace whose spectrum is zero (a gap) turns off the whitening of the other trace; with two processes the other trace is whitened. The results of the two runs are the correlations of different spectra.
* `c153_joint_violated` [c q p] C153 is violated for joint whitening: the three components of a station are whitened by one process, but two processes fail.

### C154 The gain of the instruments does not influence normalised correlations (partial)

Proofs: `Props/Gain.lean`.

The code does not satisfy the full statement. C154 is violated for a mute with an absolute threshold: a trace above the threshold becomes silent, the same trace with a quarter of the gain does not. C154 is violated for joint whitening: if the gain of the second component is four times as high, the whitened spectrum of the first component has another shape.

* `c154_polarity_partial` [c q p] C154: For every chain of steps, every matrix of traces and all pairs: if the traces get other gains, possibly with reversed polarity, every normalised correlation gets the sign of the product of the gains of its traces, and is otherwise the same. The chain fails with the same exception or not at all. Missing for the full property: `c154_threshold_violated`, `c154_joint_violated`.
* `c154_gain_partial` [c q p] C154: Positive gains of the instruments have no influence on the normalised correlations at all, whatever steps of the time and frequency domain are used (except a mute with an absolute threshold, joint whitening, and a clip with negative factor). Missing for the full property: `c154_threshold_violated`, `c154_joint_violated`.
* `c154_threshold_violated` [c q p] C154 is violated for a mute with an absolute threshold: a trace above the threshold becomes silent, the same trace with a quarter of the gain does not.
* `c154_joint_violated` [c q p] C154 is violated for joint whitening: if the gain of the second component is four times as high, the whitened spectrum of the first component has another shape.

### C155 The amplitudes of correlations do not influence what is measured (proved)

Proofs: `Props/MeasureGain.lean`.

The full statement is proved of the model.

* `c155_stretch` [c q p] C155: If a reference is given, the velocity changes and correlations that are measured do not depend on the amplitudes of the traces, each of which may change by its own factor, nor on the amplitude of the reference.
* `c155_stretch_mean` [c q p] C155: Without a reference, which is the mean of the traces then, they do not depend on a common factor of all amplitudes, such as the unit.
* `c155_coherence` [c q p] C155: The waveform coherence does not depend on the amplitudes either.
* `c155_shift` [c q p] C155: The time shifts that are measured with a reference do not depend on the amplitudes of the traces and of the reference.
* `c155_shift_mean` [c q p] C155: The time shifts that are measured without a reference do not depend on a common factor of all amplitudes.

### C156 Adding correlations does not change what was measured before (partial)

Proofs: `Props/MeasureParts.lean`.

The code does not satisfy the full statement. C156 is violated with several references: a third time changes what was measured at the times before. The correlation at the first time is one half before and one quarter afterwards.

* `c156_stretch` [c q p] C156: The velocity changes that are measured with a given reference in a matrix of traces are those that are measured in any two parts of it, one after the other. So adding correlations does not change what was measured before.
* `c156_coherence` [c q p] C156: The same for waveform coherences.
* `c156_shift` [c q p] C156: The same for time shifts.
* `c156_references_violated` [c q p] C156 is violated with several references: a third time changes what was measured at the times before. The correlation at the first time is one half before and one quarter afterwards.

### C157 The database does not depend on the number and speed of the processes (proved)

Proofs: `Props/ParallelWrite.lean`.

The full statement is proved of the model.

* `c157_database` [c q p] For any number of processes and every order in which their actions may happen, every entry of every file in the database is the one given by the specification, in which there are no processes.
* `c157_same` [c q p] (two runs) The numbers of processes and the order of their actions do not matter.
* `c157_killed` [c q p] (killed runs) If all processes are killed at any moment, every entry that is then in the database, old or new, is the one that the complete run would have left.
* `c157_completes` [c q p] (it can be done) No process raises an exception while writing, so there is at least one possible course of the run.
* `c157_run` [c q p] (from the windows to the files) A run over any read increments and windows, on any number of processes and with any course of the writing, leaves for every file and every place what was there before, otherwise the first correlation of all windows, computed row by row and pair by pair, that belongs to this file and place.

### C158 The order of the two stations does not influence the measured velocity change (proved)

Proofs: `Props/MeasureMirror.lean`.

The full statement is proved of the model.

* `c158_stretch` [c q p] C158: The velocity changes and correlations that are measured on both sides are the same for the mirrored correlations with the mirrored reference, or without a given reference. Those of the left side become those of the right side and vice versa.
* `c158_coherence` [c q p] C158: The same for the waveform coherence.

### C159 The order in which data arrive has no influence (proved)

Proofs: `Props/OrderFree.lean`.

The full statement is proved of the model.

* `c159_traces` [c q p] (traces) The pairs that are correlated in a window, and their order, do not depend on the order in which the traces of the window are collected, if no two of them have the same network, station and channel.
* `c159_processes` [c q p] (processes) Whatever the codes: the traces of a window, collected from any number of processes, are in the same order, so the same pairs are correlated.
* `c159_database` [c q p] (correlations) The database does not depend on the order in which correlations are added, if no two belong to the same place of the same file.

### C160 A run over stations with codes of equal length can always be resumed, and repeating it computes nothing (proved)

Proofs: `Props/SameLength.lean`.

The full statement is proved of the model.

* `c160_lookup` [c q p] (looking up never fails) For stations with codes of the same length and a directory of their correlations `find_existing_times` returns, for every method and every list of requested combinations.
* `c160_resume` [c q p] (a run can always be resumed) Let a run over stations with codes of the same length be started on a directory of their correlations (or an empty one), be killed at any point, started again, killed again, and so on. A further run looks up the existing data without an error and ends, and afterwards every file contains under every path exactly what an uninterrupted run leaves there.
* `c160_again` [c q p] (repeating computes nothing) After a complete run over stations with codes of the same length (all pairs requested), a run over the same windows, or over some of them, finds every correlation and computes nothing.

### C161 Repeating a processing step changes nothing (proved)

Proofs: `Props/Again.lean`.

The full statement is proved of the model.

* `c161_mirror` [c q p] (mirroring) Mirroring a bulk that was mirrored changes nothing: neither the samples nor any entry of the header.
* `c161_trim` [c q p] (trimming) Trimming a bulk again to the same lags changes nothing, if the first lag is that of a sample.
* `c161_resample` [c q p] (resampling in time) Resampling a bulk again to the same bins changes nothing, if every bin ends before the next one starts.
* `c161_axis` [c q p] (resampling the lags) Resampling the lag axis again to the same frequency changes nothing.
* `c161_slice` [c q p] (cutting a period) Cutting the same period out of the result again changes nothing, if the result has not exactly one correlation.
* `c161_normalise` [c q p] (normalisation) Normalising again, in the same window by the energy, the mean or the largest amplitude, changes nothing.
* `c161_td` [c q p] (signs, standard deviation) Repeating the one-bit normalisation or the normalisation by the standard deviation changes nothing.
* `c161_demean` [c q p] (mean) Removing the mean again changes nothing, also with gaps.
* `c161_detrend` [c q p] (trend) Removing the linear trend of traces without gaps again changes nothing.
* `c161_whitening` [c q p] (whitening) Whitening spectra again changes nothing.
* `c161_select` [c q p] (selections) Selecting again what was selected, dropping again what was dropped, and removing duplicates, short or empty traces again changes nothing.

### C162 Every correlation of a bulk is processed and measured on its own (proved)

Proofs: `Props/EachAlone.lean`.

The full statement is proved of the model.

* `c162_lags` [c q p] (lag axis) Trimming, mirroring, decimating and resampling the lag axis: each correlation becomes what it becomes alone, with the same header.
* `c162_values` [c q p] (amplitudes) Normalising, clipping (each row with its own level), tapering at the ends and in the centre, filtering, and taking the envelope: each correlation becomes what it becomes alone.
* `c162_smooth` [c q p] (smoothing over the lags) Each correlation becomes what it becomes alone.
* `c162_correct` [c q p] (corrections) Applying one stretch or shift for each correlation: the correlation becomes what it becomes alone with its value.
* `c162_calls` [c q p] (any sequence) After any sequence of processing steps that all succeed, correlation `i` of the bulk is what the same steps make of a bulk with correlation `i` only, with the same header.
* `c162_measure` [c q p] (measurements) Comparing correlations with given references (stretching, shifting or the waveform coherence): the values of each correlation are those that are measured for it alone.
* `c162_reference` [c q p] (whole measurements) Measuring the stretch or the clock shift of correlations against a given reference: the value and the similarity of each correlation are those that are measured for it alone.
* `c162_td` [c q p] (preprocessing in the time domain) Muting, the running normalisation, clipping, one-bit normalisation and normalisation by the standard deviation treat every trace as if it were alone.

### C163 Results do not depend on the time at which the data were recorded (proved)

Proofs: `Props/Later.lean`.

The full statement is proved of the model.

* `c163_select` [c q p] (selecting) What is selected from correlations of later data, with arguments that are later by the same time, is what is selected from the original ones, later.
* `c163_slide` [c q p] (windows) The windows of later data are the windows, later.
* `c163_stack` [c q p] (stacking) The stacks of later data are the stacks, later: for all data in one stack and for stacks of a given length with any delay, for daily stacks with a delay of whole days.
* `c163_calls` [c q p] (any sequence of calls on a bulk) Processing a bulk of later data, with times in the arguments that are later by the same time, gives the same samples and the same header, later.
* `c163_convert` [c q p] (conversion) Bulks and streams of later data are those of the original data, later.
* `c163_times` [c q p] (monitoring times) A later period has the same monitoring times, later.
* `c163_shift` [c q p] (shift correction) The shift between two curves does not depend on their common time.
* `c163_timeofday` [p] (time of day) A selection by the time of day gives the same correlations for data that are whole days later.

### C164 Adding stations does not change the correlations of the others (partial)

Proofs: `Props/OtherStations.lean`.

The code does not satisfy the full statement. C164 is violated by whitening: with a station that recorded nothing but zeros in the window, no station is whitened. C164 is violated by the removal of responses: if the response of one channel is not known, the data of all stations that are read by the process are lost for the whole read increment.

* `c164_alone_partial` [c q p] (values) What is computed for two traces in a window with any number of traces is what is computed for these two traces alone, if no spectrum is zero at a frequency when it is whitened. Missing for the full property: `c164_silent_violated`, `c164_response_violated`.
* `c164_values_partial` [c q p] (values) Two windows with any stations each: the correlation of two traces that are in both is the same, if no spectrum is zero at a frequency when it is whitened. Missing for the full property: `c164_silent_violated`, `c164_response_violated`.
* `c164_pairs` [c q p] (pairs) Of the pairs that are computed for a window, those whose traces both satisfy `P` (for example: belong to the stations of an earlier run) are exactly the pairs that are computed, in the same order, if there are no other traces.
* `c164_run` [c q p] (run) The same for all windows of a run, with the values and places in the database of the correlations.
* `c164_silent_violated` [c q p] C164 is violated by whitening: with a station that recorded nothing but zeros in the window, no station is whitened.
* `c164_response_violated` [c q p] C164 is violated by the removal of responses: if the response of one channel is not known, the data of all stations that are read by the process are lost for the whole read increment.

### C165 Correlations in files of the predecessor are imported with their samples, lags and times (partial)

Proofs: `Props/OldMat.lean`.

The code does not satisfy the full statement. C165 Not so: no correlation of an imported matrix can be accessed by its number, whatever the file holds (unless its header has an entry `ntrcs`). C165 Not so: the correlations of an imported matrix end in 1970, whenever they begin.

* `c165_trace` [c q p] (single correlations). A file with the headers of two seismograms of equal sampling rate and the lags of the first and of the last sample is imported: every sample has the lag that the file gives, or, if the codes are not in alphabetical order, the stations are exchanged and the lag has the opposite sign. Times are those that both seismograms cover.
* `c165_matrix_partial` [c q p] (matrices). A file with a matrix, the times of its correlations and a header is imported with the rows unchanged, the times in their order, and the codes, the sampling rate, and the lags of the header: the first lag is that of the file, and further samples follow with the sampling interval. Parts of it have the rows and the times of the part. Missing: access to a single correlation, and the ends of the correlations (see below).
* `c165_part` [c q p] (single correlations of a part). A part of an imported matrix gives its correlations by their number: each with its row, its time, the lags that belong to the samples, and the codes.
* `c165_single_violated` [c q p] Not so: no correlation of an imported matrix can be accessed by its number, whatever the file holds (unless its header has an entry `ntrcs`).
* `c165_end_violated` [c q p] Not so: the correlations of an imported matrix end in 1970, whenever they begin.

### C166 Processing functions are found by their full names (proved)

Proofs: `Props/Names.lean`.

The full statement is proved of the model.

* `c166_function` [q p] A name denotes the function after its last dot in the module before it, wherever this module is; every other name is an exception.
* `c166_missing` [q p] An attribute that the module lacks is an `AttributeError`, whatever other modules have.

### C167 Traces of the same channel are recognised by their codes (proved)

Proofs: `Props/Names.lean`.

The full statement is proved of the model.

* `c167_compare` [p] Two traces whose codes have no dots are equal for the comparison iff network, station and channel agree, and, if it is regarded, the location.

### C168 Reversed polarity of sensors does not influence what is measured (proved)

Proofs: `Props/Polarity.lean`.

The full statement is proved of the model.

* `c168_stretch` [c q p] (velocity changes). If the signs of all traces and of the reference are reversed, whatever their amplitudes, the velocity changes that are measured and their correlations stay the same.
* `c168_stretch_mean` [c q p] (velocity changes without reference). If no reference is given, a factor of any sign that all traces have in common has no influence.
* `c168_shift` [c q p] (time shifts). The same holds for the measurement of time shifts with a reference,
* `c168_shift_mean` [c q p] (time shifts without reference) and without one.
* `c168_coherence` [c q p] (waveform coherence). The coherence with a reference stays the same if the signs of all traces and of the reference are reversed.
* `c168_run` [c q p] (from seismograms to velocity changes). Let sensors have other gains, some of them with reversed polarity, during all windows. Then either the processing fails for both, with the same exception, or the velocity changes of every pair are the same (no step may depend on absolute amplitudes).

### C169 Averaging in time and linear processing of the lag axis can be done in either order (proved)

Proofs: `Props/AverageOrder.lean`.

The full statement is proved of the model.

* `c169_order` [c q p] a bulk whose correlations have no `nan`, or are missing as a whole. First the linear call, then `resample`; or first `resample`, then the linear call: one yields a bulk if and only if the other does, and the bulks are equal, samples and header.

### C170 A period can be correlated in parts (proved)

Proofs: `Props/Periods.lean`.

The full statement is proved of the model.

* `c170_parts` [c q p] (in parts) A period is divided at multiples of the read increment. The runs over the parts, one after another, leave the same correlations as one run over the whole period; none of them raises an exception.
* `c170_any_order` [c q p] (in any order) The runs may be done in any order, overlap, and be repeated: if they read at the same times as the run over the whole period, and no two pairs of traces claim the same place with different correlations, they leave the same.

### C171 Times without data do not influence the other times (proved)

Proofs: `Props/MonitorGaps.lean`.

The full statement is proved of the model.

* `c171_reference` [c q p] (reference) A reference of any kind that is extracted from a matrix is the same without the rows of the time windows that have no data.
* `c171_velocity` [c q p] (velocity) If a change of velocity can be measured in at least two traces, it can be measured if there are time windows without data between, before or after them: the traces have the same results, the others have none.

### C172 Filling of missing values by the documented recipe (proved)

Proofs: `Props/Helpers.lean`.

The full statement is proved of the model.

* `c172_filled` [c q p] If there is at least one number, filling missing values by the documented recipe leaves every number as it is. A missing value between two numbers is put on the straight line between the nearest ones. One before all numbers gets the first number, one after all numbers the last one.
* `c172_no_number` [c q p] (nothing to go by) Without any number it is a `ValueError`.

### C173 Trimming by durations removes exactly the samples of these durations (proved)

Proofs: `Props/Helpers.lean`.

The full statement is proved of the model.

* `c173_trace` [c q p] A trace that is trimmed by the duration of `a` samples at the start and of `b` samples at the end lacks exactly these samples; the time of its first sample is adapted. If there are not more samples than that, it is a `ValueError`.
* `c173_stream` [c q p] (stream) So is each trace of a stream, according to its own times.

### C174 Rounding to halves (proved)

Proofs: `Props/Helpers.lean`.

The full statement is proved of the model.

* `c174_nearest` [c q p] The result is a multiple of a half, and no multiple of a half is nearer.
* `c174_order` [c q p] (order) A smaller number never has a larger result, and multiples of a half stay.

### C175 Figures of velocity changes show the measurements (proved)

Proofs: `Props/PlotDv.lean`.

The full statement is proved of the model.

* `c175_publication` [c q p] (part) The figure `publication` with given limits shows exactly one point for each time that has a similarity, in the order of time: at the start time of this measurement, at minus its value in percent, with the colour of its similarity.
* `c175_limits` [c q p] (part) Without given limits the time axis goes from the first to the last point that is shown, so all points are inside. Only if no time has a similarity there is no figure, but a `ValueError`.
* `c175_technical` [c q p] (part) The figure `technical` of a known kind of measurement shows minus the value of every time, with the index of the time in the first panel and with its start time in the second, and the similarity of every time in the third.
* `c175_technical_limits` [c q p] (part) The axis of the first panel of the figure `technical`, which counts the times, begins with the time closest to the first limit and ends with the time closest to the second; without limits it shows all times.

### C176 The similarity matrix in a figure lies below its measurements (partial)

Proofs: `Props/PlotDv.lean`.

The code does not satisfy the full statement. C176 (negation of a part) If all similarities of a time are negative, normalising turns their order around: the smallest similarity is shown as the largest. If one similarity is missing, the figure shows none of this time.

* `c176_pixel` [c q p] (part) Panel 1 of the figure `technical`, for an axis that is equidistant from -A to A: the similarity of time `i` with the `j`-th value of the axis is drawn as a pixel that contains the point (i, minus this value). So the point of a measurement lies on the similarity that it was measured with, since both change their sign.
* `c176_normalize_partial` [c q p] (part) Normalising the matrix for the figure divides each time by its largest similarity. If this is positive, the largest value becomes 1 and the order of the similarities of this time does not change. Missing for the full property: `c176_normalize_violated`.
* `c176_normalize_violated` [c q p] (negation of a part) If all similarities of a time are negative, normalising turns their order around: the smallest similarity is shown as the largest. If one similarity is missing, the figure shows none of this time.

### C177 Saving figures does not destroy files (partial)

Proofs: `Props/PlotDv.lean`.

The code does not satisfy the full statement. C177 (negation of a part) The default name should give a new file for each figure. But of any number of figures that are saved into an empty directory only the first and the last one remain: the search looks for files `plot_default_0_change.png`, which are never written, so the second and all later figures have the same name.

* `c177_others` [c q p] (part) The search for a file name ends for every directory, and saving a figure with any name leaves all files but the one it writes as they are.
* `c177_extension` [c q p] (part) A name with an extension `.png`, `.svg`, `.pdf` or `.jpg` (in small or capital letters) is the name of the file, every other name is completed by `.png`. (A name without any dot that is itself the name of a format, such as `png`, is taken as it is.)
* `c177_fresh_partial` [c q p] (part) The default name: if the directory has no figure with this name, a new file is written and no file is replaced. Missing for the full property: `c177_default_violated`.
* `c177_default_violated` [c q p] (negation of a part) The default name should give a new file for each figure. But of any number of figures that are saved into an empty directory only the first and the last one remain: the search looks for files `plot_default_0_change.png`, which are never written, so the second and all later figures have the same name.

### C178 A figure of several velocity changes has one curve for each file (partial)

Proofs: `Props/PlotCorr.lean`.

The code does not satisfy the full statement. C178 (negation of a part) A file that matches two filters is drawn twice. C178 (negation of a part) A damaged file should be skipped. Instead the curve of the file before it is drawn a second time, and if the damaged file comes first there is no figure, but an `UnboundLocalError`. C178 (negation of a part) The start times are not compared: the median of curves of different times is drawn at the times of the last file.

* `c178_curves_partial` [c q p] (part) If all selected files can be read, the figure has exactly one curve for each entry of the list of selected files, in this order: minus the value (or its modulus) at each start time. Missing for the full property: `c178_filters_violated`, `c178_damaged_violated`, `c178_times_violated`.
* `c178_selected` [q p] (part) The selected files: without a filter all, otherwise those that match one of the filters.
* `c178_plain` [c q p] (part) A filter without wildcards selects the files whose path contains it.
* `c178_median_partial` [c q p] (part) The median curve, for files with the same start times: at each time it is the median of the values that are shown for this time, each file counted once, and it ignores missing values. Missing for the full property: `c178_filters_violated`, `c178_damaged_violated`, `c178_times_violated`.
* `c178_filters_violated` [c q p] (negation of a part) A file that matches two filters is drawn twice.
* `c178_damaged_violated` [c q p] (negation of a part) A damaged file should be skipped. Instead the curve of the file before it is drawn a second time, and if the damaged file comes first there is no figure, but an `UnboundLocalError`.
* `c178_times_violated` [c q p] (negation of a part) The start times are not compared: the median of curves of different times is drawn at the times of the last file.

### C179 Figures of correlations show each correlation at its lags (partial)

Proofs: `Props/MorePlot.lean`, `Props/PlotCorr.lean`, `Props/PlotRagged.lean`.

The code does not satisfy the full statement. C179 (negation of a part) If the farthest station is to the west, its lags with the opposite sign are the limits of the axis: the axis goes from right to left, for every set of increasing lags. C179 (negation of a part) The lag times are not compared: for two traces with the same number of samples but different lags there is a figure, and the earlier one is drawn at the lag times of the later one. C179 (negation of a part) For lags that are not symmetric the coloured figure is wrong for stations to the west: with the lags 0, 1 and 2 the data of lag 0 are drawn at lag 2.

* `c179_section_time` [c q p] (part) The figure with lines over time: the lines are in the order of time, and the line of a trace has for each sample the point at its lag and at the start time plus the amplitude times 100000 seconds times the scaling (1 if the scaling is zero). If all traces have the same lags, the axis goes from the first to the last lag unless limits are given.
* `c179_axis_partial` [c q p] (part) The lag axis of the figure with lines over distance: if all traces have the same lags and the farthest station is not to the west, the axis goes from the first to the last lag. Missing for the full property: `c179_axis_violated`, `c179_lags_violated`, `c179_west_violated`.
* `c179_axis_violated` [c q p] (negation of a part) If the farthest station is to the west, its lags with the opposite sign are the limits of the axis: the axis goes from right to left, for every set of increasing lags.
* `c179_time_partial` [c q p] (part) The figure of correlations over time, for traces with the same lag times: the rows are a reordering of the stream of the user, which is sorted in place, in the order of time; each row has the start time and the data of its trace, and sample `k` is drawn at lag `k` of the axis. Missing for the full property: `c179_axis_violated`, `c179_lags_violated`, `c179_west_violated`.
* `c179_lags_violated` [c q p] (negation of a part) The lag times are not compared: for two traces with the same number of samples but different lags there is a figure, and the earlier one is drawn at the lag times of the later one.
* `c179_distance_partial` [c q p] (part) The coloured figure of correlations over distance, for traces with the same lag times, which are symmetric to zero: the rows are in the order of distance, and each sample of each trace is drawn in the row of its trace at its lag, which changes its sign for stations to the west. Missing for the full property: `c179_axis_violated`, `c179_lags_violated`, `c179_west_violated`.
* `c179_west_violated` [c q p] (negation of a part) For lags that are not symmetric the coloured figure is wrong for stations to the west: with the lags 0, 1 and 2 the data of lag 0 are drawn at lag 2.
* `c179_section` [c q p] (part) The figure with lines over distance is right for all lag times: the line of a trace has for each sample the point at its lag, which changes its sign for stations to the west, and at the distance plus the scaled amplitude.
* `c179_ragged` [q p] There is no coloured figure, neither over time nor over distance, of traces with different numbers of samples (at least two): no trace is drawn incompletely or beyond the axis.

### C180 The image of a correlation matrix has the right axes (proved)

Proofs: `Props/PlotCorr.lean`.

The full statement is proved of the model.

* `c180_regular` [c q p] (part) A matrix of correlations is drawn if and only if it has rows and their start times have a constant distance; otherwise there is no figure, but an exception.
* `c180_pixel` [c q p] (part) In the figure of a matrix with sorted start times each value is drawn in a pixel that contains the start time of its row and the lag of its column, and the rows go from the top to the bottom.

### C181 Figures of spectra do not depend on units and gains (partial)

Proofs: `Props/SpecPlot.lean`.

The code does not satisfy the full statement. C181 (negation of a part) The time that is closest to the upper limit is not shown: with the first and the last time as limits the last spectrum is missing in the figure.

* `c181_time_gain` [c q p] (part) With the normalisation of the times (`norm='t'`) the figure does not depend on the amplitude of the single times: other positive gains for the times give the same figure, for each method and each choice of limits.
* `c181_frequency_gain` [c q p] (part) With the normalisation of the frequencies (`norm='f'`) the figure does not depend on the amplitude of the single frequencies: other positive gains for the frequencies, such as another instrument response, give the same figure.
* `c181_unit` [c q p] (part) The figure does not depend on the unit of the spectra: multiplying all values with the same positive number gives the same figure, with and without normalisation and for each choice of limits.
* `c181_one` [c q p] (part) The values that are shown for energies, which are not negative: they are between 0 and 1, and 1 occurs, unless all are 0.
* `c181_unknown` [c q p] (part) Unknown normalisations are errors: with rows that are not empty there is no figure for another method than `linalg`, `mean` and `median`, nor for another normalisation than `f` and `t`.
* `c181_frequency_limits` [c q p] (part) Limits of the frequency, for increasing frequencies: the frequencies that are closest to the limits are shown, and with them all frequencies between the limits.
* `c181_time_limits_partial` [c q p] (part) Limits of the time, for increasing times: all times between the limits are shown, except the last one. Missing for the full property: `c181_time_limits_violated`.
* `c181_time_limits_violated` [c q p] (negation of a part) The time that is closest to the upper limit is not shown: with the first and the last time as limits the last spectrum is missing in the figure.

### C182 Data of traces that were put into a matrix (partial)

Proofs: `Props/Consume.lean`.

The code does not satisfy the full statement. C182: a call that fails, here because the traces are of different stations, has deleted the data nevertheless

* `c182_history` [c q p] C182: whatever calls of `create_corr_bulk` were made before, on this or on other streams that share the traces, with any selection and also if they failed: each matrix that is returned is the matrix of the original traces, never one of other or missing data, and no header and no remaining data of any trace have been changed
* `c182_kept` [c q p] C182: with `inplace=False` the traces stay as they are, and the result, also an exception, is that of the selected traces
* `c182_default` [c q p] C182: without `inplace=False` the result, also an exception, is the same; if a matrix is returned, then exactly the selected traces with the sampling rate of the first one have lost their data
* `c182_others` [c q p] C182: traces that are not selected are not touched, whatever the outcome of the call
* `c182_again` [c q p] C182: the same call again is an AttributeError and not a matrix of other data
* `c182_failed_violated` [q p] C182: a call that fails, here because the traces are of different stations, has deleted the data nevertheless

### C183 Reference trace that a matrix remembers (partial)

Proofs: `Props/RefMemory.lean`.

The code does not satisfy the full statement. C183 (part, violated) The documentation of `stretch` says that a reference is extracted if none is given. After `extract_trace` and a processing of the matrix, here `trim`, it is the old reference that is used, even if it does not fit the matrix any more.

* `c183_history` [c q p] (part) Whatever is called, on this or on other matrices: the reference that a matrix remembers is the one that was extracted last from it, as it was at that time, or the one that it had at the beginning if none was extracted.
* `c183_used` [c q p] (part) A measurement uses the reference that is given; if none is given, `stretch` and `find_clock_shift` use the one that is remembered, and without one the measurement computes its own from the present data; `measure_shift` never uses the one that is remembered. A given reference is not remembered.
* `c183_extract` [c q p] (part) What is extracted is the reference of the data at this time, and it is what is remembered; if the extraction fails, the old reference is kept.
* `c183_new` [c q p] (part) A copy remembers the same reference; a part of a matrix (`slice`, `[a:b]`, `select_corr_time`) remembers none. The new matrix has the next free number, and all other matrices are as before.
* `c183_stale_violated` [c q p] (part, violated) The documentation of `stretch` says that a reference is extracted if none is given. After `extract_trace` and a processing of the matrix, here `trim`, it is the old reference that is used, even if it does not fit the matrix any more.

### C184 Blocks that open a correlation file close it and lose nothing (partial)

Proofs: `Props/DbContext.lean`.

The code does not satisfy the full statement. C184 (violated: emptied by a failing block). Opening a file in mode `w` with an unknown compression raises the error only after the file has been emptied. C184 (violated: left open). A file that is refused because of other options is not closed. C184 (violated: lost without an error). Adding to a file that was opened for reading only is not an error where h5py reports the refusal as `ValueError`: the correlation is reported as already being in the file and is not written.

* `c184_closed` [p] C184 (closing). A block that has been entered leaves the files open that were open before and no other, whatever is done in it and whichever exception ends it, and this exception is passed on.
* `c184_crash` [q p] C184 (crash point). If an exception interrupts the block at any point, then the file holds what the same block without the rest of the statements would have written.
* `c184_others` [p] C184 (other files). A block does not touch any file but its own, the path of which ends with `.h5`.
* `c184_readonly` [q p] C184 (reading). Without correlation options (and without the private argument `_force`) no block changes any file, whatever mode is asked for and whatever is called in the block.
* `c184_refused` [q p] C184 (refusal). A block that is refused because the file has been made with other options changes no file.
* `c184_history` [q p] C184 (history). Through any sequence of blocks on any files, successful, failing or refused, which open no file in mode `w` and remove nothing, every correlation of every file stays as it is, and so do the options of the file.
* `c184_read_back` [q p] C184 (what was written is read). A correlation written in one block under a new path is found under this path by a later block that reads it, whatever blocks without removal and mode `w` ran between them.
* `c184_emptied_violated` [p] C184 (violated: emptied by a failing block). Opening a file in mode `w` with an unknown compression raises the error only after the file has been emptied.
* `c184_leak_violated` [p] C184 (violated: left open). A file that is refused because of other options is not closed.
* `c184_silent_violated` [p] C184 (violated: lost without an error). Adding to a file that was opened for reading only is not an error where h5py reports the refusal as `ValueError`: the correlation is reported as already being in the file and is not written.

### C185 A delayed signal is found at its delay (partial)

Proofs: `Props/Delay.lean`.

The code does not satisfy the full statement. C185 is violated if the padded length is odd: the recording `0, 1` is the recording `1, 0` one sample later, and the value at the lag `-1` is as large as the one at the lag `1`.

* `Xcorr.c185_delay_partial` [c q p] Let the second recording be the first one, `D` seconds later and multiplied by `c`, with the whole signal inside both windows. Then the saved correlation (normalised or not) has its only largest value at the lag `D` if `c` is positive, and its only smallest value at the lag `D` if `c` is negative: a signal that comes later to the second station is found at a positive lag. Missing for the full property: odd padded lengths and fractions of samples, as in C12, see below.
* `Xcorr.c185_delay_violated` [c q p] is violated if the padded length is odd: the recording `0, 1` is the recording `1, 0` one sample later, and the value at the lag `-1` is as large as the one at the lag `1`.

### C186 The map of a grid shows each grid point at its place (partial)

Proofs: `Props/MorePlot.lean`.

The code does not satisfy the full statement. C186 (negation of a part) The pixels are smaller than the cells of the grid, so that a station may be marked on the pixel of another cell than its own: on a grid with three points in a distance of one kilometre, the station at 0.6 km belongs to the second grid point, but lies inside the pixel of the first one.

* `c186_map` [c q p] The map of a grid shows the change of each grid point (times -100: in percent, and positive for a faster medium) in a pixel that contains this grid point, for all sizes and resolutions with at least two points in each direction. North is at the top, east on the right, and the pixels of points farther east lie farther to the right.
* `c186_station_violated` [c q p] (negation of a part) The pixels are smaller than the cells of the grid, so that a station may be marked on the pixel of another cell than its own: on a grid with three points in a distance of one kilometre, the station at 0.6 km belongs to the second grid point, but lies inside the pixel of the first one.
* `c186_before` [c q p] (part) Before the first inversion there is no map, but an exception.

### C187 Figures of single correlations are complete and do not replace each other (partial)

Proofs: `Props/MorePlot.lean`.

The code does not satisfy the full statement. C187 (negation of a part) The vertical axis always goes from -1 to 1: any sample of a correlation that is not normalised and exceeds one is not visible. C187 (negation of a part) Of two correlations that start in the same second (half a second apart) only one figure remains.

* `c187_line_partial` [c q p] (part) The figure of a correlation has for each sample the point at its lag and amplitude; the horizontal axis has the given limits, or goes from the first to the last lag, so that all points with amplitudes between -1 and 1 (correlation coefficients) are visible. Missing for the full property: `c187_visible_violated`, `c187_files_violated`.
* `c187_visible_violated` [c q p] (negation of a part) The vertical axis always goes from -1 to 1: any sample of a correlation that is not normalised and exceeds one is not visible.
* `c187_files_partial` [c q p] (part) The figures of two correlations are written to the same file of a directory if and only if they have the same identifier and start in the same second; correlations that start in different seconds never replace each other. Missing for the full property: `c187_visible_violated`, `c187_files_violated`.
* `c187_name` [p] (part) The name of the file begins with the identifier and has the extension of the format.
* `c187_files_violated` [c q p] (negation of a part) Of two correlations that start in the same second (half a second apart) only one figure remains.

### C188 Correlations of superposed recordings (proved)

Proofs: `Props/Superpose.lean`.

The full statement is proved of the model.

* `Xcorr.c188_first` [c q p] The first recording is a superposition: the correlation is the superposition of the correlations, with the same lags. If one of the three correlations fails, all do.
* `Xcorr.c188_second` [c q p] The same for the second recording.

### C189 Averages over components can be computed repeatedly and by several methods (partial)

Proofs: `Props/AverageRun.lean`.

The code does not satisfy the full statement. C189 violated: results that are computed after the average never enter it. The average of two components remains although there are three results, which a run without the old average would combine.

* `c189_run_partial` [c q p] Every averaging run ends without an error and averages, for each pair of stations, exactly the readable results that the method asks for, unless an average of this name exists or there are less than two. Partial: of well named results.
* `c189_files_partial` [c q p] A run adds the averages that are due to the directory, under the names of the station pairs, and removes nothing. Missing for the full property: `c189_stale_violated`.
* `c189_again_partial` [c q p] Repeating a run, with the files in any order, computes nothing and leaves the directory as it is. Missing for the full property: `c189_stale_violated`.
* `c189_methods_partial` [c q p] Averages of one method do not influence those of another one: with the averages of method `m` in the directory, method `m'` averages the same results. Missing for the full property: `c189_stale_violated`.
* `c189_stale_violated` [p] violated: results that are computed after the average never enter it. The average of two components remains although there are three results, which a run without the old average would combine.

### C190 Looking at a stream does not change what it holds or what it answers (partial)

Proofs: `Props/Queries.lean`.

The code does not satisfy the full statement. C190 is violated by the order of the rows of a matrix: the same call makes another matrix of the stream if a selection has been made before.

* `c190_nothing_lost` [p] No query loses, adds or changes a correlation: after any number of queries the stream holds what it held before.
* `c190_same_answers` [c q p] Selections by time, sliding windows and stacks of time windows are the same after any history of such calls.
* `c190_stack_all` [c q p] Stacks of all correlations are the same, too; they may come in another order.
* `c190_after_plots` [q p] With plots in the history, the selected correlations are still the same, but those with the same start may come in another order.
* `c190_distinct_starts` [c q p] If no two correlations start at the same time, every call of any history has the same answer, plots or not.
* `c190_rows_violated` [c q p] is violated by the order of the rows of a matrix: the same call makes another matrix of the stream if a selection has been made before.
* `c190_windows` [q p] The windows of `slide` begin at the given start, or with the first correlation, and follow each other by the step; windows without correlations are left out.

### C191 Printed summaries show the correlations of a stream (partial)

Proofs: `Props/Summary.lean`.

The code does not satisfy the full statement. C191 (negation of a part) The sampling rate is shown with one decimal only: two correlations with different rates can have the same line.

* `c191_lines` [c q p] The lines of a summary of a stream that is not too long: the number of correlations and one line for each correlation, in the order of the stream
* `c191_short` [c q p] A longer stream is summarised by its number of correlations, its first and its last correlation and the number of those left out
* `c191_columns` [c q p] In the lines of a stream the identifiers are padded with blanks to the same width, so all columns are below each other: the identifier (network, station, location and channel) is followed by blanks up to the width of the longest one, then the times of start and end follow.
* `c191_tells` [c q p] Two correlations of a stream are described by the same line only if they have the same identifier, start and end (to the microsecond) and number of samples.
* `c191_init` [p] A stream is made of a list of correlations, in their order, and of nothing else.
* `c191_rate_violated` [c q p] (negation of a part) The sampling rate is shown with one decimal only: two correlations with different rates can have the same line.

### C192 Rounding does not influence the distribution of work (proved)

Proofs: `Props/FloatWork.lean`.

The full statement is proved of the model.

* `c192_same_process` [c q p] The process that rounded arithmetic assigns to an item is the one of exact arithmetic.
* `c192_same_items` [c q p] Each process works on the items it would work on without rounding.
* `c192_distribution` [c q p] Every item is worked on by exactly one process, the blocks of the processes are contiguous and in order, and their lengths differ by at most one.

### C193 Lags in the header belong to the samples despite rounding (partial)

Proofs: `Props/ClaimDetails.lean`, `Props/FloatLags.lean`.

The code does not satisfy the full statement. C193 (negation of a part) The start lags are kept in single precision. Of correlations with 25 Hz of which 12.4 s are saved on each side, the header starts at -12.399999618... instead of -12.4, it is not symmetric, and no sample has the lag zero. C193 (negation of a part) Of correlations with 100 Hz, 8 samples are saved on each side for a `lengthToSave` of 0.07 s, although 7 cover it.

* `c193_offset_partial` [c q p] C193 (part): with an offset of the starts of the two traces of whole seconds, and whole numbers for the rate and `lengthToSave`, the start lag is exactly `-lengthToSave - offset`, in seconds. Missing: other offsets, see `c193_exact_violated`.
* `c193_saved` [c q p] The number of saved samples is the smallest one that covers `lengthToSave`, up to the rounding of a product.
* `c193_error` [c q p] The start lag in the header differs from the lag of the first sample by less than `2^-23` of it.
* `c193_nearest` [c q p] The sample at zero lag is found from the header if the product of lag and rate is rounded to the nearest whole number, as `measure_shift` does.
* `c193_exact_partial` [c q p] (part) The start lag in the header is exact if it has at most 24 binary digits. Missing for the full property: `c193_exact_violated`, `c193_saved_violated`.
* `c193_whole_partial` [c q p] (part) In particular this is so if the rate and `lengthToSave` are whole numbers: `lengthToSave` times the rate samples are saved on each side and the start lag is `-lengthToSave`. Missing for the full property: `c193_exact_violated`, `c193_saved_violated`.
* `c193_exact_violated` [c q p] (negation of a part) The start lags are kept in single precision. Of correlations with 25 Hz of which 12.4 s are saved on each side, the header starts at -12.399999618... instead of -12.4, it is not symmetric, and no sample has the lag zero.
* `c193_saved_violated` [c q p] (negation of a part) Of correlations with 100 Hz, 8 samples are saved on each side for a `lengthToSave` of 0.07 s, although 7 cover it.

### C194 Cutting, mirroring and tapering find the right samples despite rounding (partial)

Proofs: `Props/FloatTrim.lean`.

The code does not satisfy the full statement. C194 (negation of a part) Correlations with 25 Hz of which 12.4 s were saved on each side are trimmed to lags from -10.4 s to 10.4 s: samples 49 to 569 are kept instead of 50 to 570. The sample at zero lag, number 310, is then at place 261, where the new header has the lag 0.04 s. C194 (negation of a part) The same correlations with 25 Hz and 12.4 s cannot be mirrored: the function returns the number 0 because `start_lag*sampling_rate` is not whole. C194 (negation of a part) On the same correlations a taper of 2 s begins at sample 284 instead of 285, so it is not centred at sample 310.

* `c194_index` [c q p] The sample found for a lag is at most one away from the one that exact numbers give.
* `c194_trim_partial` [c q p] (part) Trimming takes the samples that exact numbers give if the distance of the lags from the start lag, in seconds and in samples, has at most 53 binary digits. Missing for the full property: `c194_trim_violated`, `c194_mirror_violated`, `c194_taper_violated`.
* `c194_trim_whole_partial` [c q p] (part) Correlations with a whole rate, of which a whole number of seconds is saved, are trimmed to whole seconds as with exact numbers. Missing for the full property: `c194_trim_violated`, `c194_mirror_violated`, `c194_taper_violated`.
* `c194_trim_violated` [c q p] (negation of a part) Correlations with 25 Hz of which 12.4 s were saved on each side are trimmed to lags from -10.4 s to 10.4 s: samples 49 to 569 are kept instead of 50 to 570. The sample at zero lag, number 310, is then at place 261, where the new header has the lag 0.04 s.
* `c194_mirror_partial` [c q p] (part) Mirroring gives what exact numbers give if the number of samples before zero lag is whole and zero lag is not the last sample. Missing for the full property: `c194_trim_violated`, `c194_mirror_violated`, `c194_taper_violated`.
* `c194_mirror_violated` [c q p] (negation of a part) The same correlations with 25 Hz and 12.4 s cannot be mirrored: the function returns the number 0 because `start_lag*sampling_rate` is not whole.
* `c194_taper_partial` [c q p] (part) The taper around zero lag begins where exact numbers put it if its length is even, as it always is, and the number of samples before zero lag is whole. Missing for the full property: `c194_trim_violated`, `c194_mirror_violated`, `c194_taper_violated`.
* `c194_taper_length` [c q p] The taper around zero lag has an even number of samples, the smallest one that is not less than its width if the width is a whole number of samples.
* `c194_taper_violated` [c q p] (negation of a part) On the same correlations a taper of 2 s begins at sample 284 instead of 285, so it is not centred at sample 310.

### C195 Ratios of sampling rates and sampling intervals survive rounding (partial)

Proofs: `Props/FloatTimes.lean`.

The code does not satisfy the full statement. C195 (negation of a part) Rates that are decimal fractions: 1 Hz is five times 0.2 Hz and ten times 0.1 Hz, 10 Hz is a hundred times 0.1 Hz, but the quotients rounded down are 4, 9 and 99. These matrices are resampled instead of decimated. C195 (negation of a part) It is not always the same: 49 Hz becomes 49.000...007 Hz.

* `c195_multiple` [c q p] A rate that is a whole multiple of the requested one, as numbers on the machine, is recognised.
* `c195_only` [c q p] Matrices are decimated only by a factor that is the ratio of the rates up to the rounding of one quotient, and not larger than it.
* `c195_whole_partial` [c q p] (part) The test gives what exact numbers give whenever both rates are whole numbers. Missing for the full property: `c195_decimal_violated`, `c195_interval_violated`.
* `c195_decimal_violated` [c q p] (negation of a part) Rates that are decimal fractions: 1 Hz is five times 0.2 Hz and ten times 0.1 Hz, 10 Hz is a hundred times 0.1 Hz, but the quotients rounded down are 4, 9 and 99. These matrices are resampled instead of decimated.
* `c195_interval` [c q p] The rate that a header has after the interval of another header is assigned to it differs from the rate of that header by at most `2^-51` of it.
* `c195_interval_violated` [c q p] (negation of a part) It is not always the same: 49 Hz becomes 49.000...007 Hz.

### C196 Times of windows are exact despite rounding (partial)

Proofs: `Props/FloatTimes.lean`.

The code does not satisfy the full statement. C196 (negation of a part) With a step of 0.1 s that begins in the year 2020 the windows come 95 nanoseconds too early per window: window 1000 begins more than 95 microseconds before its time.

* `c196_dyadic` [c q p] Times of windows are exact if start, end and step are multiples of a common binary fraction of a second (or of a second) and less than `2^51` of them.
* `c196_whole` [c q p] In particular for whole seconds.
* `c196_error` [c q p] For any other step the windows of a recording are displaced by at most a microsecond per window (the times are seconds since 1970, up to the year 2038).
* `c196_decimal_violated` [c q p] (negation of a part) With a step of 0.1 s that begins in the year 2020 the windows come 95 nanoseconds too early per window: window 1000 begins more than 95 microseconds before its time.

### C197 Lengths in seconds become the right numbers of samples despite rounding (partial)

Proofs: `Props/FloatResample.lean`, `Props/FloatSamples.lean`.

The code does not satisfy the full statement. C197 (violated: a sample is lost) From 20 Hz to 15 Hz, 164 samples (8.2 s) are 123 new samples, but 122 are kept: the last one of the time axis is lost. C197 (negation of a part) At 100 Hz a window of 0.07 s has 8 samples for the measurement and for smoothing, a taper of 0.29 s has 28 and a window for shifts from 0.07 s to 0.29 s begins and ends one sample off. C197 (negation of a part) 205 samples with 25 Hz are resampled to 122 samples with 15 Hz instead of 123.

* `c197_lengths_partial` [c q p] (lengths, part) If both sampling rates are whole numbers (and the matrix is not extremely long), the numbers of samples with which the lag axis is resampled are the exact ones, in particular those of C44, although durations are compared as floats: unless the duration is a whole number of new samples. Missing: that case, see `c197_duration_partial` and `c197_lost_violated`, and other rates.
* `c197_duration_partial` [c q p] (whole duration, part) If the duration is a whole number of new samples, at least two, the matrix is padded and resampled correctly, but one of the new samples may be cut off. Missing: that all are kept, see `c197_lost_violated`.
* `c197_lost_violated` [c q p] (violated: a sample is lost) From 20 Hz to 15 Hz, 164 samples (8.2 s) are 123 new samples, but 122 are kept: the last one of the time axis is lost.
* `c197_close` [c q p] The number of samples in a time in seconds, rounded down, up or towards zero, is at most one off.
* `c197_whole_partial` [c q p] (part) If the limits of a window fall on samples, the window of a measurement consists of the samples from the first limit up to but without the second, the smoothing window and the taper have the length given. Missing for the full property: `c197_lost_violated`, `c197_decimal_violated`, `c197_resampled_violated`.
* `c197_decimal_violated` [c q p] (negation of a part) At 100 Hz a window of 0.07 s has 8 samples for the measurement and for smoothing, a taper of 0.29 s has 28 and a window for shifts from 0.07 s to 0.29 s begins and ends one sample off.
* `c197_resampled_partial` [c q p] (part) The number of samples after resampling is that of exact arithmetic if the duration has at most 53 binary digits. Missing for the full property: `c197_lost_violated`, `c197_decimal_violated`, `c197_resampled_violated`.
* `c197_resampled_violated` [c q p] (negation of a part) 205 samples with 25 Hz are resampled to 122 samples with 15 Hz instead of 123.
* `c197_search` [c q p] The search for a common length of the two series of samples, which compares durations with `!=`, takes the same steps as with exact numbers if the rates are whole numbers.

### C198 A database contains what was added and not removed since (proved)

Proofs: `Props/H5Tree.lean`.

The full statement is proved of the model.

* `c198_single` [c q p] (explicit times) After any history of sessions, additions and removals, a request with codes, tag and both times gives the correlation that was added first for this place after the last removal, and a `KeyError` if there is none.
* `c198_all` [c q p] (open times) After any history, a request with codes and tag and without start or end time gives exactly the correlations of these codes (and of the given time) that were added and not removed since, each once. It only raises an error if there are none.

### C199 Correlations are read in the order of time (proved)

Proofs: `Props/H5Tree.lean`.

The full statement is proved of the model.

* `c199_order` [c q p] After any history whatever, every read returns the correlations in alphabetical order of their places, none twice.
* `c199_chronological` [c q p] In particular the correlations of one component combination come in the order of time: by start, and for the same start by end (to 0.1 ms, the resolution of the names).

### C200 The tested stretches and shifts are the requested ones despite rounding (partial)

Proofs: `Props/FloatAxes.lean`.

The code does not satisfy the full statement. C200 (negation of a part) With a range of 0.05 and 601 steps the value in the middle is not zero but about 7e-18.

* `c200_close` [c q p] There are as many stretches (or shifts) as requested, and each differs from the requested value by at most `2^-50` of the range.
* `c200_ends` [c q p] The first and the last one are exactly the ends of the range.
* `c200_increasing` [c q p] They increase strictly, so that no two of up to `2^48` values coincide.
* `c200_zero_partial` [c q p] (part) With an odd number of steps zero is tested if the increment has at most 53 binary digits. Missing: other increments, see `c200_zero_violated`.
* `c200_zero_violated` [c q p] (negation of a part) With a range of 0.05 and 601 steps the value in the middle is not zero but about 7e-18.

### C201 Masks, tapers and moved similarity matrices hit the right samples despite rounding (partial)

Proofs: `Props/FloatAxes.lean`.

The code does not satisfy the full statement. C201 (negation of a part) 2.1 s hold three increments of 0.7 s, but the processes without data pass four windows.

* `c201_taper` [c q p] A taper whose length is a whole number of samples (in seconds, as close as a float can be) has this number of samples.
* `c201_roll` [c q p] Similarity matrices are moved by the number of steps that is next to the shift, if the shift is within a quarter of a step of it: the increment of the axis is good enough for up to a million steps.
* `c201_windows_partial` [c q p] The number of windows of a process without data is the one of exact arithmetic if the lengths are whole numbers of seconds. Missing for the full property: `c201_windows_violated`.
* `c201_windows_violated` [c q p] (negation of a part) 2.1 s hold three increments of 0.7 s, but the processes without data pass four windows.
* `c201_mask` [c q p] Every sample inside an interval with an end in the trace is masked, and no sample that is two samples or more away from all intervals (with `reverse` the other way round), whatever the rounding of times (`secs`, here up to a quarter of a sample) and products.

### C202 All processes work on the same traces in the same order (partial)

Proofs: `Props/WindowOrder.lean`.

The code does not satisfy the full statement. C202 is violated: the second of two stations has a gap and the windows are preprocessed one by one. With two processes, what is stored as the correlation of the stations AAA and BBB is the correlation of AAA with itself, whatever the processing; one process computes the right one.

* `c202_plain` [c q p] (data preprocessed before the windows are cut, always the case if there are no existing correlations) However the traces of a window were read by the processes, and for every number of processes: the pairs that are correlated are those of the whole window, and what is computed for a pair is the correlation of these two traces.
* `c202_subdiv_partial` [c q p] (windows that are preprocessed one by one) The same holds for one process, and for several if the preprocessed window is in alphabetical order. Missing: windows in another order, see `c202_gap_violated`.
* `c202_complete_partial` [c q p] (windows that are preprocessed one by one) If the traces of the window have no gaps and begin together, then every number of processes gives the same correlations as one process. Missing: windows with gaps, see `c202_gap_violated`.
* `c202_gap_violated` [c q p] is violated: the second of two stations has a gap and the windows are preprocessed one by one. With two processes, what is stored as the correlation of the stations AAA and BBB is the correlation of AAA with itself, whatever the processing; one process computes the right one.

### C203 The windows of a read period hold the data of their times (partial)

Proofs: `Props/CorrWindows.lean`.

The code does not satisfy the full statement. C203 is violated for windows that are preprocessed one by one (nothing is cut or padded before). The windows of a process begin with its own data: if they begin 5 samples late, so do all its windows, and of the window with the samples 10 to 19 only half is left when it is cut to its time. If they begin more than a window late, the process has a window less, and the others wait for it forever. C203 is violated for windows that are preprocessed one by one: the trace that is first in the list is not the earliest one. The windows begin with the earliest trace but are cut as if they began with the first one, so that of 10 samples in each window 5 are lost. C203 is violated for windows that are preprocessed one by one: after a gap longer than a window all data are lost.

* `c203_windows_partial` [c q p] (streams whose traces all reach from `s` to `e`, as after preprocessing) The windows begin at `s`, `s + inc`, … before `e`, and each holds the samples of its interval. Missing: streams whose traces begin or end at different times, see the `c203_…_violated` theorems.
* `c203_samples_partial` [c q p] (streams whose traces all reach from `s` to `e`) In terms of samples: the window with number `k` has `len` samples beginning at `s + k * inc`. It holds a value for a channel and a time iff the time is in its interval and the stream has this value. Every time before `e` is in a window if the windows are at least as long as the step, and in one only if they are as long. Missing: see `c203_windows_partial`.
* `c203_processes_partial` [c q p] (processes) If the traces of all processes reach from `s` to `e` and the read period has as many increments, there is no deadlock, and what is gathered in turn `k` are the samples of all processes in the same interval. Processes may have no data. Missing: see `c203_windows_partial`.
* `c203_correlations_partial` [c q p] (from the preprocessed streams of all processes to the correlations) If the traces of all processes reach from `s` to `e` and each channel is one trace, then for every turn of the loop: the pairs that are correlated are pairs of traces with samples in the interval of the turn, chosen as if one process had read everything, and the results are the correlations of the samples of this interval (followed by one missing sample, since windows are cut to `len + 1` samples in the end), for any number of processes. Missing: see `c203_windows_partial`.
* `c203_preprocessed` [q p] The traces that `preprocess_stream` returns reach from its start to its end, so the theorems above hold for them.
* `c203_late_violated` [p] is violated for windows that are preprocessed one by one (nothing is cut or padded before). The windows of a process begin with its own data: if they begin 5 samples late, so do all its windows, and of the window with the samples 10 to 19 only half is left when it is cut to its time. If they begin more than a window late, the process has a window less, and the others wait for it forever.
* `c203_first_violated` [p] is violated for windows that are preprocessed one by one: the trace that is first in the list is not the earliest one. The windows begin with the earliest trace but are cut as if they began with the first one, so that of 10 samples in each window 5 are lost.
* `c203_gap_violated` [p] is violated for windows that are preprocessed one by one: after a gap longer than a window all data are lost.

### C204 Sampling rates in headers survive copying and storing despite rounding (partial)

Proofs: `Props/RateAssign.lean`, `Props/RateCopy.lean`.

The code does not satisfy the full statement. C204 is violated: a correlation whose rate was set to 49 Hz (by an assignment to its header, or by the resampling of obspy) is not equal to itself: a matrix of this single correlation is refused because of different sampling rates. The same correlation is accepted after it was copied.

* `c204_assign` [c q p] (assignments) After any assignment to any header, the sampling interval and the last lag belong to the rate, the first lag and the number of samples. The assigned field has the assigned value (an assigned interval becomes a rate, up to rounding), and the other fields are kept.
* `c204_once` [c q p] The sampling rate changes at most once, when a header is copied for the first time: a copy of a copy has the rate of the copy, for every positive float. The change is at most `2^-51` of the rate.
* `c204_kept` [c q p] Rates less than `√2` times a power of two (1, 2.5, 5, 10, 20, 40, 80 Hz, ...) are not changed at all.
* `c204_history` [c q p] The header of a correlation of two traces with the same sampling rate is the same after it was copied, and written and read, any number of times in any order. Its rate is the one of the traces up to `2^-51` of it.
* `c204_end` [c q p] (last lag) The last lag in the header of a correlation of two traces with the same sampling rate, after any history, is the first lag plus the number of samples less one, times the sampling interval of the header, up to rounding; the interval is one over the rate of the header, rounded.
* `c204_bulk_partial` [c q p] (part) Correlations of traces with the same sampling rate, with the same lags and numbers of samples, can be put into one matrix, whatever happened to the header of each of them. Missing: headers in which a rate was set and that were not copied since (`c204_set_violated`).
* `c204_set_violated` [c q p] is violated: a correlation whose rate was set to 49 Hz (by an assignment to its header, or by the resampling of obspy) is not equal to itself: a matrix of this single correlation is refused because of different sampling rates. The same correlation is accepted after it was copied.

### C205 Correlations have the sampling rate that was requested (partial)

Proofs: `Props/RateRun.lean`.

The code does not satisfy the full statement. C205 is violated: one process has traces with 100 Hz and with 20 Hz, and 50 Hz are requested. The second trace keeps its rate, and is correlated with the first one. The header of this correlation has the default rate of 1 Hz: the lags of its samples, with 2 s requested on both sides, go from -2 s to 198 s. C205 is violated: the same with two stations with 20 Hz. Their correlation has 20 Hz in its header, but its first lag was computed with 50 Hz: the sample at zero lag, number 100, is said to be at 3 s. C205 is violated: whether a trace with a lower rate is used depends on the number of processes. If the process that reads it has no other traces, it skips the read period (and the gathers that the other process waits for).

* `c205_rate_partial` [c q p] (part) If no trace has a rate below the requested one, then, for any distribution of the traces over processes, every process has its traces afterwards, all with the requested rate; every correlation of two of them has this rate in its header, its samples are one over the rate apart, and it begins a whole number of samples before zero lag: `n`, or what is left of the row if the order of the stations is exchanged. Missing: traces with a lower rate, see `c205_mixed_violated`, `c205_low_violated` and `c205_processes_violated`.
* `c205_mixed_violated` [c q p] is violated: one process has traces with 100 Hz and with 20 Hz, and 50 Hz are requested. The second trace keeps its rate, and is correlated with the first one. The header of this correlation has the default rate of 1 Hz: the lags of its samples, with 2 s requested on both sides, go from -2 s to 198 s.
* `c205_low_violated` [c q p] is violated: the same with two stations with 20 Hz. Their correlation has 20 Hz in its header, but its first lag was computed with 50 Hz: the sample at zero lag, number 100, is said to be at 3 s.
* `c205_processes_violated` [c q p] is violated: whether a trace with a lower rate is used depends on the number of processes. If the process that reads it has no other traces, it skips the read period (and the gathers that the other process waits for).

### C206 Making a correlation does not change what later correlations get (partial)

Proofs: `Props/SacHeader.lean`.

The code does not satisfy the full statement. C206 is violated (coordinates). Two recordings of SAC files, without an inventory. Their cross-correlation has the coordinates of both stations if it is made first. After the auto-correlation of the first recording it has no distance and only the coordinates of the first station. C206 is violated (sampling rate). The recordings were resampled to 25 samples per second. Their cross-correlation has this rate. If it is made once more, the rate in its header is that of the files, 100, since the first time has changed the headers of the recordings.

* `c206_once` [c q p] (one correlation). If the headers of both recordings have coordinates, these are used; otherwise, if the SAC parts of both have coordinates, these; if the header of the first has none at all, those of the inventory.
* `c206_history_partial` [c q p] Full statement: making a correlation does not change the headers of the recordings, so that the header of each correlation, with its geometry and sampling rate, is the same as if no correlation had been made before. Proved for recordings without SAC parts, for any sequence of correlations. Missing: recordings read from SAC files, see `c206_coordinates_violated` and `c206_rate_violated`.
* `c206_inventory_partial` [c q p] (SAC files and an inventory). If the inventory has all stations, with the same coordinates as the SAC files, each correlation has the coordinates and the distance of its stations, whatever was correlated before. The first station is the one that comes first in the alphabet. Missing for the full property: `c206_coordinates_violated`, `c206_rate_violated`.
* `c206_coordinates_violated` [c q p] C206 is violated (coordinates). Two recordings of SAC files, without an inventory. Their cross-correlation has the coordinates of both stations if it is made first. After the auto-correlation of the first recording it has no distance and only the coordinates of the first station.
* `c206_rate_violated` [c q p] C206 is violated (sampling rate). The recordings were resampled to 25 samples per second. Their cross-correlation has this rate. If it is made once more, the rate in its header is that of the files, 100, since the first time has changed the headers of the recordings.
* `c206_rate_partial` [c q p] (sampling rate, part) The header of a correlation has the sampling rate of its two recordings if their present headers agree about it, and none otherwise. Missing: that the headers still have the sampling rates with which they were read, see `c206_rate_violated`.

### C207 A lapse time window holds the requested lags on the requested sides (partial)

Proofs: `Props/LapseWindow.lean`.

The code does not satisfy the full statement. C207 is violated: a window from 0.5 s to 2.5 s at 25 Hz, that is from 12.5 to 62.5 samples. Used are the lags from 11 to 60 samples and from -63 to -14 samples, instead of 13 to 62 samples on both sides: samples before the window enter, samples of the window do not, and the two sides differ by three samples.

* `c207_whole_partial` [c q p] Full statement: a measurement in a lapse time window from `tw_start` to `tw_start + tw_len` uses the samples whose lags are in the window, on the requested side or on both sides. Proved for windows that begin and end on samples `a` and `T`. Missing: other windows, see `c207_between_samples_violated` and `c207_close`.
* `c207_close` [c q p] (all windows). For windows that begin or end between two samples, at `a` and `T` samples: no sample that is two or more samples outside of the window is used, and all samples of the requested sides that are three or more samples inside are used.
* `c207_between_samples_violated` [c q p] C207 is violated: a window from 0.5 s to 2.5 s at 25 Hz, that is from 12.5 to 62.5 samples. Used are the lags from 11 to 60 samples and from -63 to -14 samples, instead of 13 to 62 samples on both sides: samples before the window enter, samples of the window do not, and the two sides differ by three samples.

### C208 What is quiet survives muting (partial)

Proofs: `Props/MuteExact.lean`, `Props/MuteQuiet.lean`.

The code does not satisfy the full statement. C208 is violated by a taper of one sample: it consists of a zero, so every trace of two samples or more becomes zero everywhere, whatever its amplitudes and the threshold. C208 is violated at the ends of a trace: a constant trace that never exceeds the threshold is not returned as it is. Here four ones with a taper of two samples come back as `0, 1, 1, 1`. C208 is violated by the rounding of the moving average when muted segments are to be extended: with a taper of ten samples (1 s at 10 Hz) the rounded mean of ten ones is below one, so every sample counts as part of a muted segment and every trace longer than the taper becomes zero everywhere, whatever its amplitudes and the threshold.

* `c208_powers_partial` [c q p] (rounding) If muted segments are not extended, or if the number of samples of the taper is a power of two, rounding does not influence what is muted: the result is that of exact arithmetic, so quiet samples survive as in `c208_quiet_partial`. Partial: for other lengths of the taper see `c208_rounding_violated`.
* `c208_quiet_partial` [c q p] (exact arithmetic, a taper of two samples or more) Muting never enlarges an amplitude and never changes a sign, and a sample survives unchanged if it is farther than the taper from both ends of the trace and the trace in which large amplitudes are searched stays at or below the threshold within one taper length of the sample. Missing: a taper of one sample (`c208_one_violated`), samples near the ends (`c208_ends_violated`) and rounding (`c208_rounding_violated`).
* `c208_one_violated` [c q p] C208 is violated by a taper of one sample: it consists of a zero, so every trace of two samples or more becomes zero everywhere, whatever its amplitudes and the threshold.
* `c208_ends_violated` [c q p] C208 is violated at the ends of a trace: a constant trace that never exceeds the threshold is not returned as it is. Here four ones with a taper of two samples come back as `0, 1, 1, 1`.
* `c208_rounding_violated` [c q p] C208 is violated by the rounding of the moving average when muted segments are to be extended: with a taper of ten samples (1 s at 10 Hz) the rounded mean of ten ones is below one, so every sample counts as part of a muted segment and every trace longer than the taper becomes zero everywhere, whatever its amplitudes and the threshold.
* `c208_rounding_exact_partial` [c q p] (the call of `c208_rounding_violated` in exact arithmetic) It returns the middle of a quiet trace as it is.

### C209 Testing more stretches or shifts never gives a worse match (partial)

Proofs: `Props/Refine.lean`.

The code does not satisfy the full statement. C209 is violated by wider ranges of stretches: if the reference compressed most does not reach the window, the result that the narrower range gives is lost for every trace, although all stretches of the narrower range are tested, too. Here a trace is compared with itself on one lag: with the stretches from `-r` to `r` its correlation is one, with those from `-3 r` to `3 r` there is none.

* `Xcorr.c209_stretch` [c q p] (stretches). The same traces are compared with the same reference twice, on the same window and sides: once with `n` tested stretches from `-range` to `range`, and once with more of them that contain the first ones: `m` steps instead of each one, or the same steps in a range that is an odd number of times as wide. If the second comparison gives a correlation for a trace, the first one does, too, and it is not larger.
* `Xcorr.c209_clock_shift` [c q p] (clock shifts). The same for the delays that are tested for clock shifts.
* `Xcorr.c209_measure_partial` [c q p] (`measure_shift`, finer steps). Two measurements with the same windows and the same largest shift, the second with `m` steps instead of each one: the correlation of no trace becomes smaller. Missing: larger ranges of shifts, because the part of the reference that is interpolated depends on the range.
* `Xcorr.c209_wider_violated` [c q p] C209 is violated by wider ranges of stretches: if the reference compressed most does not reach the window, the result that the narrower range gives is lost for every trace, although all stretches of the narrower range are tested, too. Here a trace is compared with itself on one lag: with the stretches from `-r` to `r` its correlation is one, with those from `-3 r` to `3 r` there is none.

### C210 Stacking in steps (partial)

Proofs: `Props/StackSteps.lean`.

The code does not satisfy the full statement. C210 is violated by `CorrStream.stack`, which normalises each stack: stacks of windows of 20 that are stacked again differ from the stack of all correlations, even in the proportions of the samples. C210 is violated by gaps: a stack counts with the time from its first to its last correlation, so a stack of few correlations with a long gap gets a large weight. C210 is violated by means of groups of different sizes. C210 (normalisation before stacking) is violated: `norm` is documented to normalise the correlations before they are stacked, so that all of them count alike. The stack is normalised instead: a correlation a hundred times as large as another one outweighs it.

* `c210_length_partial` [c q p] (weighted by length) Consecutive correlations are divided into groups of any sizes. The stack of the stacks of the groups is the stack of all correlations, header and samples, if the stacks are weighted by length and not normalised. Missing: normalised stacks, which `CorrStream.stack` makes (`c210_norm_violated`), gaps (`c210_gap_violated`) and missing samples.
* `c210_mean_partial` [c q p] (means) Correlations in the order of their start are divided into groups of equal size. The mean of the means of the groups is the mean of all correlations, header and samples, if the stacks are not normalised. Missing: normalised stacks (`c210_norm_violated`), groups of different sizes (`c210_sizes_violated`) and missing samples.
* `c210_norm_violated` [c q p] C210 is violated by `CorrStream.stack`, which normalises each stack: stacks of windows of 20 that are stacked again differ from the stack of all correlations, even in the proportions of the samples.
* `c210_gap_violated` [c q p] C210 is violated by gaps: a stack counts with the time from its first to its last correlation, so a stack of few correlations with a long gap gets a large weight.
* `c210_sizes_violated` [c q p] C210 is violated by means of groups of different sizes.
* `c210_prior_violated` [c q p] (normalisation before stacking) is violated: `norm` is documented to normalise the correlations before they are stacked, so that all of them count alike. The stack is normalised instead: a correlation a hundred times as large as another one outweighs it.

### C211 Selecting and cutting in steps (partial)

Proofs: `Props/SelectSteps.lean`.

The code does not satisfy the full statement. C211 is violated without `include_partially_selected`: a correlation over the time at which the period is divided is in none of the parts. C211 is violated for periods that share no time: there is nothing that is in both, but a period that ends before it begins (or has no length) still selects the correlations that end exactly at its end. C211 is violated for a first lag between two samples: of samples at the lags -2 to 2, cut to `[-1/2, 2]` and then to `[0, 2]`, the sample of lag -1 is kept and said to be at lag 0.

* `c211_time_partial` [c q p] (periods). Selecting the correlations of one period and of these those of another one gives the correlations of the time that the periods share. Partial: periods that share no time, see `c211_disjoint_violated`.
* `c211_parts_partial` [c q p] (parts). A period that is divided at any time: each correlation of the period is in exactly one of the parts. Partial: with `include_partially_selected`, otherwise see `c211_parts_violated`.
* `c211_parts_violated` [c q p] is violated without `include_partially_selected`: a correlation over the time at which the period is divided is in none of the parts.
* `c211_disjoint_violated` [c q p] is violated for periods that share no time: there is nothing that is in both, but a period that ends before it begins (or has no length) still selects the correlations that end exactly at its end.
* `c211_drop` [q p] (dropping). Dropping the correlations at some times and then those at others is dropping those at all of these times; the order of the times does not matter, and it does not matter whether a period is selected before or afterwards.
* `c211_daytime` [c q p] (times of day). Selecting two times of day one after the other gives the correlations in the time they share, and it does not matter whether a period is selected before or afterwards.
* `c211_cut_partial` [c q p] (lags). Cutting a matrix to lags `[a, b]` and the result to lags `[c, d]` inside gives the samples and the header of cutting to `[c, d]` at once, if `a` is the lag of a sample. Partial: `a` between two samples, see `c211_cut_violated`.
* `c211_cut_violated` [c q p] is violated for a first lag between two samples: of samples at the lags -2 to 2, cut to `[-1/2, 2]` and then to `[0, 2]`, the sample of lag -1 is kept and said to be at lag 0.

### C212 The windows in which correlations are stacked are exact despite the rounding of times (partial)

Proofs: `Props/FloatSlide.lean`.

The code does not satisfy the full statement. C212 is violated for steps with fractions of a second: ten correlations of 0.1 s each are to be put into ten windows of 0.1 s. The windows begin earlier and earlier, so that number 4 is in two windows, each later window holds the correlation before its own, and the last correlation is lost. C212 is violated for times between two microseconds: a correlation of an hour that begins 5501 ns after a full second is in no window of an hour, so that its stack is empty.

* `c212_windows_partial` [c q p] The windows of a stream (as they are stacked) are those of exact times, and each has the same correlations: if the times of the correlations are whole microseconds between July 2006 and January 2038 and the step is a whole number of seconds. Partial: steps with fractions of a second, see `c212_fraction_violated`, and other times, see `c212_nanoseconds_violated`.
* `c212_fraction_violated` [c q p] is violated for steps with fractions of a second: ten correlations of 0.1 s each are to be put into ten windows of 0.1 s. The windows begin earlier and earlier, so that number 4 is in two windows, each later window holds the correlation before its own, and the last correlation is lost.
* `c212_nanoseconds_violated` [c q p] is violated for times between two microseconds: a correlation of an hour that begins 5501 ns after a full second is in no window of an hour, so that its stack is empty.

### C213 Grids of velocity changes can be used whatever their resolution, despite rounding (partial)

Proofs: `Props/FloatGrid.lean`.

The code does not satisfy the full statement. C213 (violated: resolution) A grid with a resolution of 0.1 km and an extent of 0.3 km or more cannot be used: each kernel, for whichever stations, lapse time and velocity, is refused, because the differences of the values on the axis are not exactly the same. C213 (violated: extent) A grid with a resolution of 0.1 km and an extent of 0.2 km has a column too many, beyond its end. C213 (violated: interval of integration) With an interval of 0.01 s there is no kernel for a lapse time of 16 s, although this is a multiple of the interval: rounding adds a time after the lapse time. For 15 s there is one.

* `c213_axis_partial` [c q p] (axes, part) If the resolution and the extent of a grid are multiples of a binary fraction (for example whole, half or quarter kilometres), the axis consists of exact multiples of the resolution, which reach to the end of the extent and not a whole step farther. Missing: other resolutions, see `c213_resolution_violated` and `c213_extent_violated`.
* `c213_kernels_partial` [c q p] (kernels, part) Then the kernels of the grid can be computed for every pair of stations and all lapse times that are multiples of the interval of the integration, if this is also a multiple of a binary fraction, with any velocity. Missing: other resolutions and intervals, see `c213_resolution_violated` and `c213_interval_violated`.
* `c213_resolution_violated` [c q p] (violated: resolution) A grid with a resolution of 0.1 km and an extent of 0.3 km or more cannot be used: each kernel, for whichever stations, lapse time and velocity, is refused, because the differences of the values on the axis are not exactly the same.
* `c213_extent_violated` [c q p] (violated: extent) A grid with a resolution of 0.1 km and an extent of 0.2 km has a column too many, beyond its end.
* `c213_interval_violated` [c q p] (violated: interval of integration) With an interval of 0.01 s there is no kernel for a lapse time of 16 s, although this is a multiple of the interval: rounding adds a time after the lapse time. For 15 s there is one.

### C214 Every spectrum of a spectrogram is that of the data in its time window (partial)

Proofs: `Props/SpecWindows.lean`.

The code does not satisfy the full statement. C214 (violated: channels) Of several channels of the station only one is used, and which one depends on the gaps: without gaps the first one, but a second one with a gap takes its place.

* `c214_spectrum_partial` [c q p] (one channel, part) A stream with one trace is skipped if and only if it has no samples or preprocessing fails for one of its contiguous parts. Otherwise windows follow each other from the first to the last sample, and each sample of a window is missing, if it is missing in the data, or that of the contiguous part of the trace around it, preprocessed alone. Missing: streams with several channels, see `c214_channel_violated`.
* `c214_series` [q p] (series) Every spectrum of the series, with any number of processes, is that of the samples of a window of one of the streams, at the start of the window.
* `c214_channel_violated` [p] (violated: channels) Of several channels of the station only one is used, and which one depends on the gaps: without gaps the first one, but a second one with a gap takes its place.

### C215 The unit of lag time has no influence on what is measured (proved)

Proofs: `Props/TimeUnit.lean`.

The full statement is proved of the model.

* `c215_shift` [c q p] (time shifts) If lags, windows and the range of shifts are given in another unit of time, the measured shifts are the same, in this unit, with the same correlations, and the same inputs are refused.
* `c215_stretch` [c q p] (stretches) If the lags are given in another unit of time, the measured stretches and correlations are the same. Windows are given in samples.
* `c215_correct` [c q p] (corrections) Traces are corrected for a stretch, and for shifts in the unit of the lags, to the same samples.
* `c215_processing` [c q p] (cutting, mirroring, tapering) The samples of the other functions of the lag axis are the same, too, and their headers have the new unit.

### C216 Sensitivity kernels do not depend on the coordinate system and its units (partial)

Proofs: `Props/KernelUnits.lean`.

The shape of a kernel depends on the unit of length (c216_length_violated): the coherent term has the dimension 1/length, the scattered term 1/area.

* `c216_moved` [c q p] (position) The kernel depends on the positions of stations and grid relative to each other only: it is the same wherever the origin of the coordinates is.
* `c216_axes` [c q p] (axes) Exchanging the two axes of the coordinate system exchanges rows and columns of the kernel, and nothing else.
* `c216_time` [c q p] (time) In another unit of time (lapse time and sampling interval multiplied by `c`, the velocity divided by it), the kernel, which is a time per area, is the same in this unit, and the same input is refused.
* `c216_length_partial` [c q p] (length), partial: in another unit of length (positions, velocity and mean free path multiplied by `k`), the same input is accepted, and the kernel is positive at the same grid points. Missing for the full property: the values, which should be those of the first unit divided by `k ^ 2`, see `c216_length_violated`.
* `c216_length_violated` [c q p] (length), violated: in metres instead of kilometres, the kernel has another shape. The arriving front is not spread over its width, so its intensity is one per length, while that of the scattered waves is one per area. Stations at (0, 0) and (1, 0), 2 s after the excitation, `dt` of 1 s, for which there is no warning on a grid with a spacing of 2.

### C217 Inverted grids are superposed like the data and do not depend on units (proved)

Proofs: `Props/InversionSymmetry.lean`.

The full statement is proved of the model.

* `c217_superposition` [c q p] (superposition) For the same correlations, the grid of a sum of velocity changes is the sum of the grids, with any weights.
* `c217_units` [c q p] (units) Apart from the kernels, the units of time (of window and frequencies) and of length (of positions, correlation length and scaling factor) and the origin of the coordinates have no influence on the inverted grid and its uncertainty.

### C218 Averages of velocity changes do not depend on the order or the repetition of the inputs (partial)

Proofs: `Props/DvOrder.lean`.

Proved for inputs on one grid of times and stretches (memory saving variant: if no input is an average itself). Violated otherwise: only results on the grid of the first input are used, so the order decides which measurements contribute.

* `c218_order_partial` [c q p] If all results are given on the same grid of times and stretches, the order in which they are passed has no influence on `average_components`: similarities, values, correlations, codes and the number of stations are the same, so are the exceptions, and the scatter contains the same curves. Partial: without a common grid see `c218_order_violated`.
* `c218_mem_save_partial` [c q p] The memory saving variant does not depend on the order either if no input is an average itself.
* `c218_order_violated` [c q p] violated: if the grids differ, only the results on the grid of the first one are averaged, so the order decides which measurements contribute
* `c218_coords_partial` [c q p] The average of the results inside of a region (`average_dvs_by_coords`) does not depend on the order of the results either. Partial: without a common grid see `c218_order_violated`.
* `c218_copies` [c q p] The average of any number of copies of one result has its similarities and its codes, the same value and correlation at each time for any number of copies, and counts a copy wherever the correlation is defined.

### C219 Offsets and drifts of instruments do not influence detrended correlations (proved)

Proofs: `Props/Drift.lean`.

The full statement is proved of the model.

* `c219_linear` [c q p] (linear). If detrending is the first step of the preprocessing in the time domain, offsets and linear drifts of the instruments, which may be different for each trace and each time window, have no influence: whatever the other steps and options are, the same correlations with the same lags are computed for all pairs, or there is the same exception.
* `c219_constant` [c q p] (constant). If only the mean is removed first (detrending with type constant), offsets have no influence.
* `c219_velocity` [c q p] (velocity changes). With detrending as first step the velocity changes of every pair are the same if the instruments drift, in each time window by other amounts.

### C220 An unchanged trace is reported as unchanged (partial)

Proofs: `Props/Unchanged.lean`.

Proved for odd numbers of tested stretches from three and references that do not vanish on the window for any tested stretch. Violated for even numbers (100 is the default of time_stretch_estimate): zero is not tested, so it is never reported; and for a single step.

* `c220_stretch_partial` [c q p] (stretch). A trace agrees with a multiple of the reference on the lags of the time window. If three or any larger odd number of stretches is tested, the correlation is one, and the reported stretch is one that gives a multiple of the trace; so it is zero unless the reference can be stretched without effect. Partial: for other numbers of stretches see `c220_even_violated` and `c220_one_violated`. No stretched reference may vanish on the window.
* `c220_shift` [c q p] (shift). `measure_shift` refuses even numbers of shifts. If a trace agrees with a multiple of the reference on the lags of all windows and a shift is reported, its correlation is one.
* `c220_even_violated` [c q p] violated: with an even number of stretches (the default of `time_stretch_estimate` and `multi_ref_vchange_and_align` is 100) a change of zero is never reported, whatever the traces are.
* `c220_one_violated` [c q p] violated: if a single stretch is tested, it is not zero but the lower end of the range, and reported for each trace that is compared

### C221 Only the lags of the time window of a trace matter (partial)

Proofs: `Props/WindowOnly.lean`.

Proved for a given reference. Not satisfied if the reference is trimmed too: compressed references have nothing to compare with beyond the trimmed lags and the result is nan.

* `c221_stretch` [c q p] (stretch). Two sets of traces, the first with lags from `-a` to `b`, the second with lags from `-a'` to `b'`, that agree at the lags of the time window, are given the same stretches and the same correlations with a reference. What the traces are at other lags, and how far they reach, does not matter.
* `c221_trim_partial` [c q p] (trimming). Trimming the traces to lags from `-a'` to `b'` before measuring with a given reference does not change the result, as long as the time window is kept. Missing: a reference that is trimmed too, see `c221_reference_violated`.
* `c221_reference_violated` [c q p] (not satisfied: references that are trimmed). If the reference is trimmed like the traces, as it is if it is extracted afterwards, the result changes although the time window is kept: where the trimmed reference is compressed, there is nothing to compare with. A trace that equals the reference, one at all lags, is compared at a lag of two samples with the stretches -1, 0 and 1. The similarity is one, but `nan` after trimming to lags from -2 to 2.

### C222 One-bit normalisation is the same in the time domain and in the frequency domain (partial)

Proofs: `Props/SignDomains.lean`.

Proved for traces whose length is even after padding. Not satisfied for odd lengths, since the inverse transform always returns an even number of samples.

* `c222_domains_partial` [c q p] For every chain of steps in the time domain that yields traces of `n` samples, all further steps in the frequency domain, all pairs, start times and settings: the one-bit normalisation as the first step in the frequency domain gives the same correlations as the one-bit normalisation as the last step in the time domain, if the length of the padded traces is even. Missing: an odd number of samples, see `c222_odd_violated`.
* `c222_odd_violated` [c q p] C222 is violated if the length of the padded traces is odd. Two samples 1, 1 that are padded to three are their own signs. Their autocorrelation at zero lag is another one if the normalisation is done in the frequency domain.

### C223 Correlations have no preferred direction of time (proved)

Proofs: `Props/TimeReversal.lean`.

The full statement is proved of the model.

* `Xcorr.c223_exchange` [c q p] For all recordings of the same number of samples, all start times, sampling rates and settings: the correlation of the recordings in reversed time is the correlation of the two stations in exchanged order. Reversing time at `T` maps the first samples to the last ones, so that the difference of the start times changes its sign.
* `Xcorr.c223_mirror` [c q p] The correlation of the recordings in reversed time is the reversed correlation, and its lags have the opposite sign: what was the last lag is the first one.

### C224 Responses of the instruments do not influence whitened correlations (proved)

Proofs: `Props/Responses.lean`.

The full statement is proved of the model.

* `c224_response` [c q p] For all matrices of traces, all pairs and all settings: with whitened spectra (and filters after the whitening), instruments with other responses record the same correlations if all have the same phase response. Their amplitude responses can all be different.

### C225 Autocorrelations are symmetric and largest at zero lag (proved)

Proofs: `Props/AutoCorr.lean`.

The full statement is proved of the model.

* `Xcorr.c225_symmetric` [c q p] For every spectrum, that is after any processing, and every start time: the autocorrelation has the same value at opposite lags, and its lags are symmetric to zero.
* `Xcorr.c225_largest` [c q p] The value in the middle, at zero lag, is not exceeded in absolute value by any other one.

### C226 Averages do not exceed the range of what is averaged (partial)

Proofs: `Props/RangeKept.lean`.

Holds for averages in bins and for mirroring. Violated for smoothing near the ends of a trace, where the excess is at most the width of the range.

* `c226_resample` [c q p] (averages in time) Whatever the bins, no average exceeds the range of the correlations.
* `c226_mirror` [c q p] (mirroring) The averages of the two sides do not exceed the range of the correlations.
* `c226_smooth_partial` [c q p] (smoothing) With every window, smoothed values lie in the range of the trace at least half a window away from its ends. Near the ends they leave it by the width of the range at most. Missing for the full property: `c226_smooth_violated`.
* `c226_smooth_violated` [c q p] is violated for smoothing: near its ends, a smoothed trace leaves the range of its values.

### C227 The times listed as available are those with a correlation (partial)

Proofs: `Props/DvAvail.lean`.

The code does not satisfy the full statement. C227 (violated). Smoothing gives a time in a gap a correlation, but the time is not listed as available: shifts between curves do not use it until the object is saved and read again. C227 (violated). A threshold can remove all similarities of a time. The time is still listed as available, although it has no correlation.

* `c227_stored` [c q p] (new objects). After any history, an object that is saved and read again lists exactly the times with a correlation as available. The same holds for every object that was just made.
* `c227_kept_partial` [c q p] (what is available has a correlation). However often a measurement is smoothed without a threshold, with any windows, and saved and read in between: this never fails, and every time that is listed as available has a correlation.
* `c227_gap_violated` [c q p] (violated). Smoothing gives a time in a gap a correlation, but the time is not listed as available: shifts between curves do not use it until the object is saved and read again.
* `c227_threshold_violated` [c q p] (violated). A threshold can remove all similarities of a time. The time is still listed as available, although it has no correlation.

### C228 The matrix of a stream has one row for each correlation that was asked for (partial)

Proofs: `Props/ToMatrix.lean`.

The code does not satisfy the full statement. C228 (violated). A correlation of a single sample is not refused but repeated over its whole row.

* `c228_rows_partial` [c q p] (rows). If all correlations that were asked for have the number of samples `n` that their headers tell, and there is at least one, the matrix has one row for each of them, with its data, in order of time; the headers are in the same order.
* `c228_none` [c q p] (nothing found). If no correlation was asked for, there is an `IndexError`.
* `c228_refused` [c q p] (different lengths). If two correlations that were asked for have different numbers of samples, none of them one, there is a `ValueError`: nothing is cut or filled.
* `c228_single_violated` [c q p] (violated). A correlation of a single sample is not refused but repeated over its whole row.

### C229 Tapering before the correlation touches the ends of the traces only (partial)

Proofs: `Props/TdTaper.lean`.

The code does not satisfy the full statement. C229 (violated). Of two samples only the second one is tapered.

* `c229_weights_partial` [c q p] (weights). A cosine taper of the fraction `p` of at least three samples multiplies all traces with the same weights: those within `p/2` of the length from an end rise from 0 to 1 and the others are 1. Without `p` it is a tenth. Missing: traces of two samples (`c229_two_samples_violated`).
* `c229_each_partial` [c q p] (shape and amplitude). Whatever window is used, a trace keeps its place, and no trace influences another one; with the cosine taper its samples keep their number, and no amplitude grows.
* `c229_refused` [c q p] (refused). Fractions outside of zero to one, unknown tapers and a missing type are refused.
* `c229_zero` [c q p] (no taper). The fraction zero changes nothing.
* `c229_two_samples_violated` [c q p] (violated). Of two samples only the second one is tapered.

### C230 The printed summary of a velocity change names what was measured and when (partial)

Proofs: `Props/DvStr.lean`.

The code does not satisfy the full statement. C230 (violated). For time shifts the processing is not shown: different processing, same summary. C230 (violated). A velocity change without times cannot be printed.

* `c230_span_partial` [q p] (time span). The summary of every velocity change with at least one time, in whatever order the times are, names the station and channel codes, the earliest start and the latest end. For other measurements than time shifts it names the method, the type of the value and the processing, too.
* `c230_time_shift_violated` [q p] (violated). For time shifts the processing is not shown: different processing, same summary.
* `c230_empty_violated` [none] (violated). A velocity change without times cannot be printed.
