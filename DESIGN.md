# Formal model of cddm: design

`cddm` (cross-differential dynamic microscopy) turns pairs of video streams into
correlation functions.  This directory holds a Lean 4 model of its algorithms and
machine-checked proofs of the properties listed in `properties.jsonl`.

This file is put together by `tools/design.py` from `tools/design.head.md`, `tools/plan.json`,
`tools/design.tail.md`, `properties.jsonl` and `MANIFEST.json`.

## Layout

* `lean/Verif/Model/*.lean`  -- the model, function by function.  Every definition cites the
  file and lines in `/repo` that it models and says where it simplifies.
* `lean/Verif/Spec/*.lean`   -- small independent specifications used in theorem statements.
* `lean/Verif/Lemmas/*.lean` -- helper lemmas.
* `lean/Verif/Props/*.lean`  -- the property theorems `Cnn_...`, examples that meet their
  hypotheses, and refutations (`_refuted`, `_false`) of claims that the code does not satisfy.
* `MANIFEST.json`            -- property -> status and theorem names.
* `AXIOMS.md`                -- the axioms of every property theorem, from `#print axioms`.
* `seeded/LOG.jsonl`         -- mutation attempts (wrong programs) and what they showed.

## Trusted base

* Lean 4.33.0's kernel, and the axioms `propext`, `Classical.choice`, `Quot.sound`
  (no other axiom; no `sorry`, `native_decide`, `bv_decide`).  `AXIOMS.md` lists them per theorem.
* Mathlib's definitions that occur in statements (`ℝ`, `Complex.exp`, `Real.cos`, `Finset.sum`, `List`, `IsLeast`, ...).
* The reading of the Python source: the code is not executed; each definition cites what it models.
* Numbers: floating point is modelled by exact arithmetic (a commutative ring, an ordered field,
  or the reals), except in C107 to C109 where every operation is rounded.  Overflow and NaN propagation are not modelled, `fastmath` only in C127,
  except where a definition says so (a value that is not finite is an explicit `none`).
* numpy / numba: `guvectorize` applies a kernel to each core slice and rejects mismatching core
  dimensions; `moveaxis`/`reshape`/slicing/broadcasting behave as documented; compiled loops run
  sequentially as written.  Out-of-bounds access is an explicit `none` (kernels) or the result
  `undefined` (API), so that a theorem saying "returns ok" includes memory safety.
* Uninitialised memory (`np.empty`, output of a `guvectorize` kernel) is an argument of the model;
  theorems quantify over it.
* FFT libraries compute the exact discrete Fourier transform.
* Threads: `queue.Queue` operations are atomic; a schedule is an arbitrary interleaving.
* Random numbers are arguments of the model; theorems quantify over them.
* Python exceptions are values of `PyErr`; the message is not modelled.

## What is modelled

One module per topic; the header of each module and the comment of each definition give the lines
and the simplifications.

| Module | Source | Simplifications |
|---|---|---|
| `Cx`, `Py`, `Err`, `Slice`, `Arr2` | shared vocabulary: complex numbers over a ring, Python indices and slices, exceptions, 2-D arrays | exact numbers |
| `Kernels` | `_core_nb.py` kernels for arbitrary times (correlation, difference, sums, counts) | one signal |
| `Regular` | `_core_nb.py` kernels for regular times | one signal |
| `Vec` | `_core_nb.py` `*_vec` kernels and the API on frame stacks | 2-D data, `axis=0` |
| `Core` | `core.py` `cross_correlate` ... `auto_count`, argument checks, default sizes | one signal (any axes: `AnyAxis`); contiguity is a Boolean argument |
| `Fft` | FFT variants of these functions | exact DFT |
| `Ccorr` | `core.py` `ccorr`, `acorr` | one signal; printing omitted |
| `Stats` | `core.py` `stats`, `subtract_background` | samples x pixels |
| `Reshape` | `core.py` `reshape_input`, `reshape_output`, `thread_frame_shape`, masks | arrays as shape and C-ordered elements |
| `Norm` | `norm.py` flags and strings, background/variance/scale inspection, `normalize`, weights, noise; `_core_nb.py` formulas | one wave vector; `out` and printing omitted |
| `NormMulti` | `multitau.py` `normalize_multi` | row by row (arrays: `NormMultiAny`) |
| `Noise` | `norm.py` `noise_level`, `noise_mean`, `weight_prime_from_data` | one real curve |
| `Fold` | `norm.py` `take_data`, `shift_data`, `equalize_data`, `fold_data` | one pixel |
| `Filters` | `_core_nb.py` median, convolve, increasing/decreasing, interpolate; `avg.py` | no NaN in the input |
| `LogAvg`, `Counts` | `multitau.py` log averaging, merging, effective counts | one pixel (arrays: `LogAny`) |
| `Multitau` | `multitau.py` `ccorr_multi`, `acorr_multi` | one pixel (arrays: `MultiAny`) |
| `MultitauIter`, `IterApi` | `multitau.py` `_compute_multi_iter` and the four iterative functions | one pixel (frames: `IterAny`, `MaskAny`) |
| `IterYield` | the same as generators: intermediate yields, viewer, `stats=False` | a yield is the content of the arrays; what the viewer does is omitted |
| `Fft2` | `fft.py` transforms, normalization of videos, `dls` | one video at a time, exact DFT |
| `Rfft2`, `Sector`, `KSelect` | `map.py` full-space conversion, cropping, sector maps, `k_select` | one frame / lag time (arrays: `KSelectAny`) |
| `SimWalk` | `brownian_walk`, `brownian_particles`, `particles_video`, `simple_brownian_video` with their arguments | reals; random numbers are arguments; a generator is the list of its yields and its end |
| `Sim` | `sim.py`, `_sim_nb.py` walks, boundaries, drawing, ADC, random times, triggers, dual camera | reals; sequential drawing |
| `Video` | `video.py` arrays <-> videos, arithmetic, playing, threads, display | frames are of any type |
| `Conf` | `conf.py`, `print_tools.py` settings and messages | number of threads omitted |
| `Window` | `window.py` | reals |
| `Viewer` | `viewer.py` state machines of sliders, buttons and check-boxes | drawing omitted |
| `ViewerAvg` | `viewer.py` `DataViewer`: masks, averages, representations | one lag time; drawing and times omitted |
| `TimeCount` | `sim.py` `random_time_count` | real numbers |
| `DrawParallel` | `_sim_nb.py` `draw_psf` with `NUMBA_PARALLEL`: workers that read and write one image | any division of the particles, any interleaving of reads and writes of whole pixels |
| `FormFactor` | `sim.py` `form_factor` | exact transforms; the window is an array of reals; intensity fits the dtype |
| `VideoCrop` | `video.py` `crop`, `mask` | frames of two axes; slices of whole numbers or None; masks that are boolean arrays of two axes |
| `FrameShow` | `video.py` `norm_rfft2`, the image of `show_diff` | exact transforms; nan as `none`, infinities clipped |
| `ParallelKernel` | the kernels of `_core_nb.py` with `target="parallel"` as updates of memory made by workers | a load and a store per update, any division of the positions among workers, any interleaving |
| `CamFrame` | `video.py` subtract, add, multiply and show_diff on frames of unsigned integers, `_cv_imshow` | numpy's result types and wrap-around, floating-point exact; shapes equal |
| `Stamp64` | the kernels with time stamps of `_core_nb.py` and the functions of `core.py` around them, in `int64` arithmetic | every difference, negation and absolute value reduced to 64 bits; one signal |
| `Stamp64Vec` | the kernels for several pixels at once and the functions of `core.py` on stacks of frames, in `int64` arithmetic | as `Vec` and `Stamp64` |
| `Stamp64Fft` | the FFT kernels with time stamps and the functions of `core.py` around them, in `int64` arithmetic | as `Fft` and `Stamp64`; no memory limit |
| `CropAny` | `rfft2_crop`, `fft2_crop` of arrays with any number of axes | the matrix model applied to the last two axes |
| `PointKernel` | `k_point_kernel` | two-dimensional windows, exact transform |
| `RandomVideo` | `random_video` | random numbers a sequence of fractions, exact arithmetic, no pauses |
| `Decorators` | `decorators.py` | single inheritance; the module `warnings` as documented, without the actions once and module and without text patterns |
| `IntFrame` | `subtract`, `add`, `multiply` of signed and unsigned integer frames of any shapes | frames of two axes; floating-point results exact |
| `RealStamp` | the conversion of float time stamps in `core.py` | truncation of real numbers |
| `Mixed` | `_core_nb.py` `auto_tau_times`, `cross_tau_times`, `auto_count_mixed`, `cross_count_mixed` | unbounded numbers; period not negative |
| `AnyAxis` | `core.py` `_move_axis_and_align`, `_default_out`, `_is_aligned` and `cross_correlate` ... `auto_sum` on arrays of any number of axes | an array is its shape and a function of the position; both arrays of the same shape and layout; dtypes omitted |
| `AnyAxisFft`, `AnyAxisCcorr` | `core.py` `cross_correlate_fft` ... `auto_sum_fft`, `ccorr`, `acorr` on arrays of any number of axes | as `AnyAxis` and `Ccorr`; given squares have the shape of the data |
| `NormAny` | `norm.py` `normalize`, `take_data`, `_inspect_background`, `scale_factor` on arrays of any shape, with levels and mask | the formulas are those of `Norm`; arguments that stretch the data, data without wave vectors, a variance that does not fit and a weight of another shape than the data not modelled |
| `LogAny` | `multitau.py` `multilevel`, `choose_data`, `merge_multilevel`, `log_average`, `log_merge`; `norm.py` `fold_data` on arrays of any shape | computation on the last axis; the convolution and the folding of a row are those of `LogAvg`, `Fold` |
| `NormMultiAny` | `multitau.py` `normalize_multi` on arrays of any shape, with mask | as `NormAny` |
| `KSelectAny` | `map.py` `k_select` on data with leading axes and delays | the maps are those of `Sector` |
| `MultiAny` | `multitau.py` `ccorr_multi`, `acorr_multi` on arrays of any shape with `thread_divisor`; `core.py` `reshape_input`, `reshape_output` around them | mask: `MaskAny`; `ccorr`, `acorr` are those of `AnyAxis`; results whose level axis is reshaped away not modelled |
| `IterAny` | `multitau.py` `_compute_multi_iter`, `core.py` `iccorr`, `iacorr` on frames of any shape with `thread_divisor` | mask: `MaskAny`; frames in buffers are functions of the position; the reshaping of results yielded before the end omitted |
| `MaskAny` | `core.py` `reshape_input`, `reshape_output`, `reshape_frame` with a mask, around the functions of `MultiAny` and `IterAny` | boolean masks of the frame shape; NaN is a separate value; the reshaping of results yielded before the end omitted |
| `Chain` | `multitau.py` `normalize_multi` of what the functions of `MultiAny` and `IterAny` return | the levels, a list of arrays in the model, are stacked into one array here; data without levels not modelled |
| `Fastmath` | `_core_nb.py` kernels of `Kernels` and `Regular` compiled with `fastmath`, `conf.py` 125-129 | the kernels run on expressions; the rewritings a compiler may apply are a relation, taken from the description of LLVM's flags, not from the compiler |
| `NormRound` | `core.py` `ccorr`, `acorr`, `norm.py` `normalize` with the functions of `_core_nb.py` it calls, on machine numbers | double precision; no weighted norms, scale, mask or aout |
| `ConfStart` | `conf.py` the decisions on import: home directory, switches, types, libraries, threads | environment variables and options as what `int` and `ConfigParser` make of them; numba's `set_num_threads` as documented (ValueError outside of 1 to `NUMBA_NUM_THREADS`); creating the directory and the file not modelled |
| `Rounding` | machine numbers: the operations of `_core_nb.py` with a rounding function | no overflow, no NaN, no subnormal numbers; applied to the kernels of `Kernels` and `Regular` (C107 to C109) |
| `CorrViewer` | `viewer.py` `CorrViewer`, `MultitauViewer`: what is plotted for raw correlation data | arrays of cells, one for each pixel; folding and log-averaging of curves with inf or NaN not modelled |
| `ArrViewer` | `viewer.py` `DataArrayViewer`, `CorrArrayViewer`, `MultitauArrayViewer`: indices, data, what is plotted | an array is its shape and a function of the position; an index for the axis of the times not modelled; drawing omitted |


## What is not modelled

* Drawing and windows (`matplotlib`, `pyqtgraph`, `cv2`), the layout of figures, `plot_*` functions.
* Files: reading and writing of configuration files, memory-mapped arrays (`load_config`, `mmap`).
* Rounding outside of C107 to C109, C127 and C128, overflow except of camera frames (C111, C112) and time stamps (C113); number formatting; run times and printed percentages.
* Parallel execution inside numba (`target="parallel"`) except the parallel drawing loop (C97) and the correlation, difference and sum
  kernels (C110: loads and stores are atomic and in program order for each worker, a complex number is one cell); thread-pool FFTs.
* MKL threading, seeds of random number generators.
* Distributions of random numbers (except the first two moments in C80): statements hold for every outcome.

## Properties: what is modelled and how it is proved

`proved`: the whole statement.  `partial`: the note says what is missing; where the claim is false of
the code, the failure is proved as well.

* **C01 Cross-correlation sums every pair of frames once** (proved; `cddm/core.py:cross_correlate`, `cddm/_core_nb.py:_cross_corr`) -- Double index loop in the Option monad (out-of-bounds = none); spec = sum over the list product of (time, sample) pairs. Fold lemma.
* **C02 Complex cross-correlation keeps the sign of the delay** (proved; `cddm/core.py:cross_correlate`, `cddm/_core_nb.py:_cross_corr_complex`) -- Same with Python negative indexing; spec over signed delay.
* **C03 Auto-correlation counts each unordered pair once, oriented forward in time** (proved; `cddm/core.py:auto_correlate`, `cddm/_core_nb.py:_auto_corr`, `cddm/_core_nb.py:_auto_corr_complex`) -- Triangular loop; spec = sum over index pairs i<=j; complex oriented by time.
* **C04 Difference functions sum squared distances of the right pairs** (proved; `cddm/core.py:cross_difference`, `cddm/core.py:auto_difference`, `cddm/_core_nb.py:_cross_diff`, `cddm/_core_nb.py:_auto_diff`) -- Same loops with |b-a|^2; order statements over an ordered commutative ring.
* **C05 Tau-dependent sums run over the same pairs as the correlation** (proved; `cddm/core.py:cross_sum`, `cddm/_core_nb.py:_cross_sum`, `cddm/_core_nb.py:_cross_sum_complex`, `cddm/_core_nb.py:_cross_sum_complex_regular`, `cddm/_core_nb.py:_cross_sum_complex_regular_inverted`) -- Same loops with f[i]; time inversion = negated stamps.
* **C06 Occurrence counts equal the number of contributing pairs** (proved; `cddm/core.py:cross_count`, `cddm/core.py:auto_count`, `cddm/_core_nb.py:_add_count_cross`, `cddm/_core_nb.py:_add_count_cross_complex`, `cddm/_core_nb.py:_add_count_auto`) -- Count loops over Nat/Int; equality with number of pairs in the filtered product.
* **C07 Regularly sampled fast path equals the general algorithm** (proved; `cddm/_core_nb.py:_cross_corr_regular`, `cddm/_core_nb.py:_cross_corr_complex_regular`, `cddm/_core_nb.py:_auto_corr_regular`, `cddm/_core_nb.py:_auto_corr_complex_regular`, `cddm/_core_nb.py:_cross_diff_regular`, `cddm/_core_nb.py:_auto_diff_regular`, `cddm/_core_nb.py:_cross_sum_regular`) -- Slices with Python semantics and running sums; equality with the irregular kernels on 0..N-1.
* **C08 Fast path never reads outside its input** (partial; `cddm/_core_nb.py:_cross_corr_regular`, `cddm/_core_nb.py:_cross_corr_add`, `cddm/_core_nb.py:_cross_diff_regular`) -- Exact characterisation: in bounds iff n <= N+1 (N >= 2); counterexample beyond, so partial.  *Note:* The property as stated is false of the code: C08_cross_correlate_unsafe_iff shows that regular aligned data of N>=2 samples is read out of bounds exactly when the output is longer than N+1 (C08_refuted is a concrete call). Proved part: safe for every output length <= N+1, for the default n, for unaligned/irregular data with any n, and for real auto functions with any n.
* **C09 FFT method equals the direct method** (proved; `cddm/core.py:cross_correlate_fft`, `cddm/core.py:auto_correlate_fft`, `cddm/_core_nb.py:_cross_corr_fft`, `cddm/_core_nb.py:_cross_corr_fft_regular`, `cddm/_core_nb.py:_auto_corr_fft`, `cddm/_core_nb.py:_auto_corr_fft_regular`) -- DFT over the complex numbers, zero padding, `_fill_data`; orthogonality of roots of unity; cyclic delays are distinct.
* **C10 FFT sums equal direct sums** (proved; `cddm/core.py:cross_sum_fft`, `cddm/core.py:auto_sum_fft`, `cddm/_core_nb.py:_cross_sum_fft`, `cddm/_core_nb.py:_cross_sum_complex_fft`) -- Same with indicator signal and negated stamps.
* **C11 Default output length loses no pair** (proved; `cddm/core.py:_determine_full_length_cross`, `cddm/core.py:_determine_full_length_auto`, `cddm/core.py:cross_count`, `cddm/core.py:auto_count`) -- Length formula; totals by summing counts over delays.
* **C12 Accumulating into aout is additive** (proved; `cddm/core.py:ccorr`, `cddm/core.py:cross_correlate`, `cddm/core.py:_default_out`) -- Corollary of the specs: additive in aout and under append. Sums over the frame pairs within given blocks are the sum over the blocks, for correlation, difference, counts and sums, real and complex.
* **C13 Correlation depends only on time differences and not on frame order** (proved; `cddm/core.py:cross_correlate`, `cddm/core.py:cross_difference`, `cddm/core.py:_inspect_cross_arguments`) -- Corollaries of the specs: List.Perm and shift invariance, swap.
* **C14 Difference equals squares minus twice the correlation** (proved; `cddm/core.py:ccorr`, `cddm/core.py:acorr`, `cddm/core.py:cross_difference`, `cddm/core.py:auto_sum`) -- Corollary of specs and |b-a|^2 = |a|^2+|b|^2-2Re(conj a b).
* **C15 Real output is the folded complex output** (proved; `cddm/_core_nb.py:_cross_corr`, `cddm/_core_nb.py:_cross_corr_complex`, `cddm/_core_nb.py:_auto_corr_complex`) -- Corollary of specs.
* **C16 Auto-correlation is the one-stream special case of cross-correlation** (proved; `cddm/core.py:auto_correlate`, `cddm/core.py:cross_correlate`, `cddm/core.py:auto_sum`, `cddm/core.py:auto_count`) -- Corollary of specs with Nodup times; counterexample for repeated times (auto_sum).
* **C17 Thread-layout kernels equal the per-pixel kernels** (proved; `cddm/_core_nb.py:_cross_corr_vec`, `cddm/_core_nb.py:_cross_corr_complex_vec`, `cddm/_core_nb.py:_auto_corr_vec`, `cddm/_core_nb.py:_cross_diff_vec`, `cddm/_core_nb.py:_cross_sum_vec`) -- Frame x pixel kernels; projection to a pixel commutes with the fold.
* **C18 ccorr/acorr argument handling** (proved; `cddm/core.py:ccorr`, `cddm/core.py:acorr`, `cddm/core.py:_default_norm`, `cddm/core.py:_default_method`, `cddm/core.py:_inspect_cross_arguments`) -- Model of argument inspection with errors as values; decision table.
* **C19 ccorr(method='fft') and ccorr(method='corr') return the same tuple** (proved; `cddm/core.py:ccorr`, `cddm/core.py:acorr`) -- Assembly of C09/C10/C06 at the ccorr level.
* **C20 Normalization strings and flags always decode to a supported norm** (proved; `cddm/norm.py:norm_from_string`, `cddm/norm.py:norm_flags`) -- Parser over token lists plus string splitting; finite bit facts by decide over the whole table, lifted.
* **C21 Subtracted normalization equals correlating background-free data** (partial; `cddm/norm.py:normalize`, `cddm/_core_nb.py:_normalize_corr_subtracted_real`, `cddm/_core_nb.py:_normalize_corr_subtracted_complex`) -- Field identities on spec sums.  *Note:* Proved for real and complex cross-correlation, real auto-correlation and the real part of complex auto-correlation (C21_auto_complex_partial). False of the code for the imaginary part of complex auto-correlation data: acorr returns both parts of the spectrum of one signal but the subtraction term is formed from one running sum only (C21_auto_complex_refuted, a concrete call).
* **C22 Structured normalization is variance minus half the mean squared difference** (proved; `cddm/norm.py:normalize`, `cddm/_core_nb.py:_normalize_struct_baseline_real`, `cddm/_core_nb.py:_normalize_struct_subtracted_real`, `cddm/_core_nb.py:_normalize_struct_subtracted_complex`) -- Field identities; sums of squares are nonnegative.
* **C23 Difference-mode and correlation-mode normalization agree** (proved; `cddm/norm.py:_normalize_cdiff_1`, `cddm/norm.py:_normalize_cdiff_3`, `cddm/norm.py:_diff2corr`, `cddm/norm.py:_corr2diff`, `cddm/norm.py:normalize`) -- Field identities.
* **C24 Compensated normalization does not depend on the background** (partial; `cddm/_core_nb.py:_normalize_corr_compensated_real`, `cddm/_core_nb.py:_normalize_struct_compensated_real`, `cddm/norm.py:normalize`) -- Field identities; invariance under f -> f + c.  *Note:* Proved for real and complex cross-correlation, real auto-correlation, and the real part of complex auto-correlation (C24_auto_complex_partial). False of the code for the imaginary part of complex auto-correlation data (C24_auto_complex_refuted).
* **C25 The automatic weight is the optimal weight** (partial; `cddm/_core_nb.py:weight_from_g`, `cddm/_core_nb.py:weight_prime_from_g`, `cddm/_core_nb.py:sigma_weighted`, `cddm/_core_nb.py:sigma_prime_weighted`) -- Completing the square over an ordered field.  *Note:* weight_from_g/weight_from_d fully proved. weight_prime_from_g is the minimiser for physical data |g|^2 <= 1 - delta^2 (C25_prime_partial) but not for arbitrary data: C25_prime_refuted gives g = 3, backgrounds +-2, where the returned weight is the maximum.
* **C26 Weighted normalization interpolates between standard and structured** (proved; `cddm/_core_nb.py:weighted_sum`, `cddm/norm.py:normalize`) -- Ordered field inequality.
* **C27 The error estimate is a real number for physical data** (proved; `cddm/_core_nb.py:sigma_weighted`, `cddm/norm.py:noise_delta`, `cddm/norm.py:scale_factor`) -- Ordered field inequality using Cauchy-Schwarz hypothesis.
* **C28 normalize rejects what it cannot compute** (proved; `cddm/norm.py:normalize`, `cddm/norm.py:_norm_from_ccorr_data`, `cddm/norm.py:_norm_from_cdiff_data`, `cddm/norm.py:_default_norm_from_data`, `cddm/norm.py:_method_from_data`) -- Decision logic model of normalize's availability checks.
* **C29 Folding, equalising and shifting complex correlation data** (partial; `cddm/norm.py:fold_data`, `cddm/norm.py:equalize_data`, `cddm/norm.py:shift_data`, `cddm/norm.py:take_data`) -- Index maps on lists; counterexample for mode -1.  *Note:* Proved: fold_data mode 0 and 1, equalize_data, shift_data moduli and symmetry, take_data, refusals. False of the code for fold_data(mode=-1): cell k holds delay -(k+1) and the last cell the largest positive delay (C29_fold_negative_partial states what is returned, C29_fold_negative_refuted a concrete array).
* **C30 Streaming binning equals block averages** (proved; `cddm/multitau.py:_add_data1`, `cddm/multitau.py:_add_data2`) -- Invariant by induction over the stream.
* **C31 Chunked 'full' correlation equals the un-chunked one** (proved; `cddm/multitau.py:_compute_multi_iter`, `cddm/core.py:iccorr`, `cddm/core.py:iacorr`) -- Induction over chunks on pair lists; separation hypothesis; proved for regular and per-period stamps.
* **C32 'chunk' mode is the sum of independent chunk results** (proved; `cddm/multitau.py:_compute_multi_iter`) -- Fold over chunks.
* **C33 How many frames are processed, and failure on short input** (partial; `cddm/multitau.py:_get_frames`, `cddm/multitau.py:_default_chunk_size`, `cddm/multitau.py:_compute_multi_iter`) -- Loops with fuel/termination; inequalities by induction; stream consumption model.  *Note:* Default and given chunk sizes, the number of frames consumed and the ValueError for too short inputs are proved for every call. The error claim is false in one corner: an empty iterator with one requested frame raises UnboundLocalError instead of ValueError (C33_empty_one_frame_false), so the theorems carry the side condition that the input is non-empty or more than one frame is requested.
* **C34 Iterative multiple-tau equals in-memory multiple-tau** (partial; `cddm/multitau.py:iccorr_multi`, `cddm/multitau.py:ccorr_multi`, `cddm/multitau.py:_compute_multi`, `cddm/multitau.py:_compute_multi_iter`) -- Combination of C30, C31, C38 per level.  *Note:* Proved (streaming = in-memory, all arrays of the fast part and every level) for real data, block-mean binning, spaced frame times, level size >= 5 and default nlevel or nlevel not above the number of chunk doublings. False for level sizes below 5, which only the in-memory version refuses (C34_small_level_false), and for complex data (C34_complex_false: slow levels of the in-memory version have 2n+1 cells).
* **C35 BINNING_FIRST selects the same frames in both algorithms** (partial; `cddm/multitau.py:slice_data`, `cddm/multitau.py:_add_data1`, `cddm/multitau.py:_add_data2`) -- False of the code: counterexample, and exact characterisation of what both do.  *Note:* The claim is false of the code: the streaming buffers keep the last frame of every block and the in-memory slicing keeps the first one, so streamed slow levels differ from four chunks on (C35_iccorr_multi_false). Proved outright: what every streamed level contains (C35_*_levels, C35_buffers) and what the in-memory function contains (C35_memory); equality with the in-memory result for at most two chunks and default nlevel (C35_*_partial).
* **C36 Passing the default number of levels explicitly changes nothing** (partial; `cddm/multitau.py:_compute_multi_iter`) -- False of the code: counterexample and exact characterisation.  *Note:* False of the code when the default number of levels exceeds the number of times the chunk can be doubled (C36_iccorr_multi_false, e.g. the default arguments with 64 frames, C36_case): the counts of the last levels stay zero. Proved for block-mean binning when the default number of levels is within the number of doublings (C36_*_partial, cross and auto, real and complex, both modes).
* **C37 Complex iterative auto-correlation includes cross-chunk pairs** (partial; `cddm/multitau.py:_compute_multi_iter`, `cddm/core.py:iacorr`) -- False of the code: counterexample and exact statement (result equals chunk mode).  *Note:* The claim is false of the code. Whenever the frame times increase from chunk to chunk, mode 'full' returns exactly what mode 'chunk' returns (C37_iacorr_*_full_is_chunk), so pairs of frames in different chunks are missing; C37_iacorr_complex_false compares the counts [4,2] with acorr's [4,3] for any four frames. Equality with acorr is proved for a single chunk (C37_iacorr_multi_complex_partial).
* **C38 In-memory slow levels are block averages of sufficient length** (proved; `cddm/multitau.py:_compute_multi`, `cddm/multitau.py:_determine_lengths`, `cddm/multitau.py:mean_data`, `cddm/multitau.py:slice_data`) -- Induction over levels on lists.
* **C39 Statistics returned by the iterators are mean and variance of the processed frames** (proved; `cddm/multitau.py:_calc_stats`, `cddm/multitau.py:_compute_multi_iter`, `cddm/core.py:stats`) -- Running sums over chunks; variance identity.
* **C40 auto_background subtracts one fixed background from every frame** (proved; `cddm/multitau.py:_calculate_background`, `cddm/multitau.py:_remove_background`, `cddm/multitau.py:_compute_multi_iter`) -- Stream transformation lemma.
* **C41 Triangular kernel is a normalised average** (proved; `cddm/multitau.py:triangular_kernel`) -- Closed form, Finset sums.
* **C42 Log-averaging levels are triangular averages at the stated times** (proved; `cddm/multitau.py:multilevel`, `cddm/_core_nb.py:convolve`) -- Induction over levels with the 1-2-1 filter; lengths by Nat arithmetic.
* **C43 Merged log-spaced time axis is strictly increasing and matches its data** (proved; `cddm/multitau.py:merge_multilevel`, `cddm/multitau.py:log_average`) -- List of times; Pairwise <.
* **C44 log_merge produces a strictly increasing time axis** (partial; `cddm/multitau.py:log_merge`, `cddm/multitau.py:t_multilevel`, `cddm/multitau.py:_period_from_data`) -- Proved for periods that are powers of two; counterexample otherwise.  *Note:* log_merge concatenates the linear axis and the doubled level axes, and the points with valid data are always strictly increasing (C44_valid_increasing). The whole axis is strictly increasing exactly when the criterion of C44_increasing_iff holds, in particular for a period that is a power of two (C44_increasing_partial); for other periods it is false of the code (C44_increasing_refuted: period 3).
* **C45 Median filter returns true medians** (proved; `cddm/_core_nb.py:_median`, `cddm/_core_nb.py:_median_slow`, `cddm/_core_nb.py:median`) -- Case analysis in a linear order; in-place variant as array program.
* **C46 Smoothing keeps bounds and constants** (proved; `cddm/_core_nb.py:convolve`, `cddm/avg.py:denoise`) -- Ordered field.
* **C47 Monotone filters return monotone output anchored at the first sample** (partial; `cddm/_core_nb.py:decreasing`, `cddm/_core_nb.py:increasing`) -- Running extremum by induction; `increasing` refuted (first cell never written).  *Note:* `decreasing` is fully proved. For `increasing` the property as stated is false of the code: out[0] is never written (C47_increasing_refuted); C47_increasing_partial proves the envelope for every other cell, and C47_increasing_general gives the exact result from whatever out[0] contained.
* **C48 Interpolation is exact at nodes and for straight lines** (proved; `cddm/_core_nb.py:interpolate`, `cddm/_core_nb.py:_log_interpolate`) -- Loop model over an ordered field.
* **C49 Half-space / full-space FFT conversion round trip** (proved; `cddm/map.py:as_rfft2_conj`, `cddm/map.py:as_rfft2_data`, `cddm/map.py:from_rfft2_data`, `cddm/map.py:as_fft2_shape`, `cddm/map.py:as_rfft2_mask`) -- Index functions on matrices; arithmetic modulo shape.
* **C50 Cropping an FFT keeps the right frequencies** (partial; `cddm/fft.py:rfft2_crop`, `cddm/fft.py:fft2_crop`, `cddm/fft.py:_determine_cutoff_indices`) -- Slice assignment model; cutoff 0 is an error (refutation of the unconditional claim). Arrays with leading axes: the entries of the matrix are arrays over the leading axes.  *Note:* False of the code for cutoff 0 along a signed axis with more than one row or column: the slice [-0:] is the whole axis and the assignment raises ValueError (C50_rfft2_crop_zero_false, C50_fft2_crop_zero_false). For every other cutoff all frequencies are kept and all cells written (C50_*_crop_partial); too large cutoffs raise ValueError (C50_*_crop_error). For arrays with any number of leading axes (several frames) the same holds in every frame (C50_*_frames_*); an array of one axis raises IndexError as soon as a cutoff is given (C50_rfft2_crop_one_axis_false).
* **C51 Sector index map assigns each wave vector to at most one bin** (proved; `cddm/map.py:sector_indexmap`, `cddm/map.py:fft2_sector_indexmap`) -- Ordered field model of angles; boundary cases.  *Note:* Directions between -pi (included) and pi, which is what fft2_kangle gives; one of the two edges of the sector belongs to it, the upper one if the sector crosses +-180 (+-90) degrees and the lower one otherwise, see C51_edges. Positive k step.
* **C52 k_select works for one k and for many** (partial; `cddm/map.py:k_select`, `cddm/map.py:_k_select_real`, `cddm/map.py:_k_select_complex`) -- Call/exception model; refuted for scalar k and for real (rfft2) data.  *Note:* False of the code for a single k, which always ends in TypeError (C52_one_false, C52_one_type_error), and for half-space data, the default mode, of three or more columns: conj_mask has the wrong shape and the call raises IndexError or, with a mask, ValueError (C52_rfft2_false, C52_rfft2_many_false). For full-space data and a list of k, or none, the claim holds (C52_fft2_many_partial). One lag time, no leading axes (arrays: C122).
* **C53 Mirror boundary maps every coordinate into the box** (proved; `cddm/_sim_nb.py:mirror`, `cddm/sim.py:brownian_walk`) -- Loop over an Archimedean ordered field; termination, range, congruence.  *Note:* Exact reals. A box with x1 < x0 makes mirror hang (C53_mirror_hangs). Rounding, by which huge float coordinates never reach the box, is not modelled.
* **C54 Particle rendering stays inside the image and wraps periodically** (partial; `cddm/_sim_nb.py:draw_psf`, `cddm/_sim_nb.py:draw_points`) -- Integer index model.  *Note:* In-bounds drawing, exact periodic placement and conservation of the light are proved for sequential drawing on exact reals. The total does not depend on whole-pixel shifts; that it is the same for all positions is false, the light depends on where in its pixel the particle is (C54_position_refuted). A psf larger than the image is drawn outside (C54_too_large). Parallel drawing: C97.
* **C55 ADC conversion saturates and is monotone** (proved; `cddm/sim.py:adc`, `cddm/_sim_nb.py:adc_clean`) -- Ordered field / Nat clamp.  *Note:* Exact reals. With Gaussian noise monotone for a non-negative black level and the same random number; false for a negative one (C55_gaussian_not_monotone). Zero saturation, NaN and more than 16 bits are not modelled.
* **C56 Random trigger times respect the minimum spacing** (proved; `cddm/sim.py:create_random_time`, `cddm/sim.py:create_random_times1`, `cddm/sim.py:create_random_times2`) -- All outcomes: the random numbers are universally quantified.
* **C57 data_trigger yields exactly the requested items** (partial; `cddm/sim.py:data_trigger`) -- Loop model over lists.  *Note:* Proved for non-empty index lists without negative indices. One negative index suppresses everything and an empty list raises IndexError (C57_negative, C57_refuted).
* **C58 Dual-camera simulation pairs the right frames** (proved; `cddm/sim.py:particles_video`, `cddm/sim.py:create_random_times1`) -- State machine over the tick stream.
* **C59 Video to array and back** (partial; `cddm/video.py:asarrays`, `cddm/video.py:fromarrays`, `cddm/video.py:asmemmaps`, `cddm/video.py:load`) -- List model with uninitialised cells explicit.  *Note:* Round trip, too many frames, rejected arguments and load are proved for all inputs. "Missing rows are never presented" is false of the code: asarrays succeeds with uninitialised rows (C59_missing_refuted), also when a later multi-frame has fewer cameras. Negative counts and print timing are not modelled.
* **C60 Frame-wise arithmetic on videos** (proved; `cddm/video.py:subtract`, `cddm/video.py:add`, `cddm/video.py:multiply`) -- List zip model with errors at the position they occur.  *Note:* The operation on two frames is a parameter, so all dtypes are covered; add undoes subtract in every commutative group (also integers that wrap around).
* **C61 Threaded video delivers every frame once and in order** (partial; `cddm/video.py:threaded`, `cddm/video.py:play_threaded`) -- Two-thread transition system, all interleavings; `threaded` yields a trailing None (refuted), `play_threaded` exact.  *Note:* Worker and consumer are interleaved step by step under every schedule. play_threaded yields exactly the frames. threaded yields a None after them (C61_threaded_refuted). Termination assumes that both threads are scheduled again and again. An exception of the video in the worker is not passed on: the stream just ends.
* **C62 Displaying frames never changes, drops or blocks the stream** (partial; `cddm/video.py:play`, `cddm/video.py:show_video`, `cddm/video.py:show_diff`) -- Transition system with arbitrary clock and display consumer.  *Note:* play and show_video as claimed (fps not 0, id a camera). show_diff drops frames beyond the given times and raises for a number of cameras other than two (refuted). The drawing itself is not modelled.
* **C63 Nested print suppression restores the level** (partial; `cddm/print_tools.py:disable_prints`, `cddm/print_tools.py:enable_prints`, `cddm/conf.py:set_verbose`) -- State machine over op sequences; suppression under nesting refuted.  *Note:* Code with nested regions is modelled as a tree and executed for every tree and level. The level is restored from every level >= 0 if nothing is raised; nothing is printed in regions that contain no other region. Refuted: after an inner region the outer one prints; negative levels and levels after an exception are not restored; the argument of enable_prints is ignored.
* **C64 Selected FFT library is always an installed one** (proved; `cddm/conf.py:set_fftlib`, `cddm/conf.py:set_rfft2lib`, `cddm/conf.py:set_showlib`, `cddm/fft.py:_fft`) -- State machine over op sequences with arbitrary installed set.  *Note:* All histories of the four setters and all subsets of installed libraries. Levels are integers; the number of threads is not modelled.
* **C65 Window functions are valid apodisation windows** (proved; `cddm/window.py:blackman`, `cddm/window.py:tukey`, `cddm/window.py:hann`, `cddm/window.py:gaussian`) -- Real analysis (cos) on the pixel grid.  *Note:* Over the reals; rounding to the float type is not modelled.
* **C66 Thread reshaping is invertible** (partial; `cddm/core.py:thread_frame_shape`, `cddm/core.py:reshape_input`, `cddm/core.py:reshape_output`, `cddm/core.py:reshape_frame`) -- Shape arithmetic on lists of dimensions; refuted for 1-D frames with divisors and for masks with divisors.  *Note:* Frames of two or more axes with time along axis 0 or last, any divisor without levels, two axes with levels: the results are exactly those of the direct computation; masks of two axes (more without levels) without divisor: NaN outside. thread_frame_shape keeps the number of pixels or raises. False of the code, with proofs of the failure: 1-D frames gain an axis or raise, mask with divisor, 1-D masks, shape=None with a mask, 3-D frames with levels and divisor, time along a middle axis mixes pixels and times, divisor 0 is ZeroDivisionError. Normalized (single array) data and masks of only some axes not modelled.
* **C67 iccorr/iacorr work with their default arguments** (partial; `cddm/core.py:iccorr`, `cddm/core.py:iacorr`, `cddm/core.py:_default_norm`) -- Argument model; refuted for both functions.  *Note:* The claim is false of the code: iccorr and iacorr never return a result when n is omitted (TypeError, C67_*_no_result, C67_iccorr_default_false), and iacorr rejects its own default norm=0 (ValueError, C67_iacorr_*default_false). With n (and for iacorr a supported norm) given, the result is that of ccorr / acorr (C67_*_partial).
* **C68 Video viewer shows the selected frame** (partial; `cddm/viewer.py:VideoViewer`) -- State machine over slider events.  *Note:* Lists: the image is always that of the selected frame, after any history of slider, buttons and playing. Generators: the image is always that of the furthest frame selected so far; moving forward beyond it shows the selected frame, moving back leaves the image. Missing because false of the code: moving forward after moving back, without passing the furthest frame, does not show the selected frame (C68_generator_forward_refuted). Drawing and matplotlib itself are not modelled.
* **C69 Norm check-boxes keep the viewer in a supported state** (proved; `cddm/viewer.py:CorrViewer`, `cddm/norm.py:_default_norm_from_data`) -- State machine over clicks.  *Note:* All click histories for fixed data. Outside the claim, shown to fail: set_data does not check the norm (then a click can recurse without end) and set_norm does not update the boxes.
* **C70 Weighted normalization does not depend on the scale flag** (partial; `cddm/norm.py:normalize`, `cddm/norm.py:noise_delta`, `cddm/norm.py:weight_from_data`) -- Field identities: normalize with scale=True is the unscaled result over the scale factor.  *Note:* Proved for a single variance or two equal variances (C70_scale_partial). False of the code for different variances: noise_delta is not divided by the scale factor when scale=False although the data are (C70_refuted).
* **C71 Aligned correlation data are left alone by equalize_data and shift_data** (partial; `cddm/norm.py:equalize_data`, `cddm/norm.py:shift_data`) -- Polar form over the reals; sign analysis of equalize_data and shift_data.  *Note:* Proved for equalize_data and data with positive real parts (C71_equalize_partial). False of the code otherwise: equalize_data changes the sign of values with negative real part (C71_equalize_refuted); shift_data returns the moduli of aligned data (C71_shift_actual, C71_shift_refuted), because it takes the half difference of the phases instead of the half sum.
* **C72 Cells and counts of the slow levels of complex in-memory multiple tau** (partial; `cddm/multitau.py:_compute_multi`, `cddm/multitau.py:ccorr_multi`) -- Array lengths of the complex in-memory multiple tau by induction over levels.  *Note:* False of the code for the slow levels (C72_complex_levels_false): 2n+1 correlation cells against n counts. The fast part is proved right (C72_complex_fast_partial).
* **C73 Effective counts follow the averaging of the data** (partial; `cddm/multitau.py:multilevel_count`, `cddm/multitau.py:log_average_count`) -- Convolution with the triangular kernel over a field; effective count = (sum w)^2-type formula; index case analysis at the borders.  *Note:* Effective counts proved for every level size from 4 on (and for 2 and 3 whenever the kernel is not longer than the data), with bounds, the constant case, missing cells and log_average_count; for level size 2 the claim is refuted when the kernel is longer than the data, because np.convolve then centres it differently.
* **C74 Multi-tau count arrays belong to the multi-tau data** (partial; `cddm/multitau.py:ccorr_multi_count`, `cddm/multitau.py:acorr_multi_count`, `cddm/multitau.py:log_merge_count`) -- Closed forms of the count arrays by induction over levels; comparison with pair counts.  *Note:* Closed forms of both count arrays without averaging; slow levels compared with the counts of ccorr_multi/acorr_multi (equal if the block length divides the number of frames, else less than one pair (two counts) below); time axis of log_merge_count. Refuted: number of levels unless the number of frames is n*2^k, delay 0 of slow cross-correlation levels (doubled), the linear part (delay 0 of acorr is 0, last cell one delay too far).
* **C75 FFT of a video gives the Fourier components of every frame** (partial; `cddm/fft.py:_fft2`, `cddm/fft.py:_rfft2`, `cddm/fft.py:rfft2_video`, `cddm/fft.py:fft2_video`) -- Exact 2-D DFT by rows and columns; the three libraries as separate definitions, compared cell by cell with the Fourier sum; cropping from C50.  *Note:* Proved for frames of real numbers with all cutoffs except 0 on an axis of signed frequencies (fails, C50) and exact arithmetic. For complex frames the libraries differ (C75_complex_refuted).
* **C76 Normalizing frames to their intensity** (proved; `cddm/video.py:normalize_video`, `cddm/fft.py:normalize_fft`) -- Streams as lists; the intensity of frame 0 / of each frame divides; algebra over the reals.  *Note:* One video at a time, exact numbers; a frame with zero mean is an explicit non-finite value.
* **C77 DLS-like imaging is a windowed Fourier component** (partial; `cddm/fft.py:dls`, `cddm/fft.py:_build_kf`, `cddm/fft.py:_build_kernel`, `cddm/fft.py:_convolve_fft`, `cddm/fft.py:dls_video`) -- Orthogonality of the 2-D Fourier basis; convolution theorem.  *Note:* The convolution is proved for all frames and windows; with cutoffs except 0. The claim about which wave vector passes is false: it is the opposite one (C77_uniform, C77_opposite_refuted); for real frames this is the complex conjugate (C77_real).
* **C78 Mean, variance and background of a data set** (proved; `cddm/core.py:stats`, `cddm/core.py:subtract_background`) -- Two-dimensional sums and means over either axis; errors and rejected shapes as values.
* **C79 Normalization of multiple tau data** (proved; `cddm/multitau.py:normalize_multi`, `cddm/norm.py:normalize`, `cddm/multitau.py:ccorr_multi`, `cddm/multitau.py:acorr_multi`) -- Row by row reduction of normalize_multi to normalize (C20-C28); bounds by Cauchy-Schwarz.
* **C80 Camera noise estimates** (proved; `cddm/norm.py:noise_level`, `cddm/norm.py:noise_mean`) -- Finite probability spaces as weighted sums; expectation of |DFT|^2 of uncorrelated noise; clamp to [0,1].
* **C81 Weights for data with background** (partial; `cddm/norm.py:weight_prime_from_data`, `cddm/_core_nb.py:weight_prime_from_g`, `cddm/_core_nb.py:weight_prime_from_d`, `cddm/_core_nb.py:increasing`, `cddm/_core_nb.py:decreasing`) -- Model of the filter chain from C45-C47; the chain preserves monotonicity and bounds; optimality from C25.  *Note:* Mode corr (the default) and unfiltered data are proved. False of the code for mode diff with pre_filter: the running maximum never writes its first element, so the first weight depends on uninitialised memory only (C81_diff_refuted); with the right content in that memory the claim holds (C81_diff_partial). One real curve; zero scale factor not modelled; optimality for delta = 0.
* **C82 Normalised correlation is an unbiased estimate** (proved; `cddm/core.py:ccorr`, `cddm/core.py:acorr`, `cddm/norm.py:normalize`) -- Finite probability space and signals with constant means, variances and covariance (Spec/Process.lean). The normalisation theorems C21, C22 and C23 give each value as a formula over the pairs of samples at that delay; expectation is linear, so it passes through the mean over the pairs of times, and each pair has the covariance of its distance. The bias of the compensated norm is a counterexample: a signal constant in time.
* **C83 Multiple tau levels estimate the triangular average of the covariance** (proved; `cddm/multitau.py:ccorr_multi`, `cddm/multitau.py:acorr_multi`, `cddm/multitau.py:normalize_multi`, `cddm/multitau.py:multilevel`) -- C79 gives each slow level as a formula over all pairs of frames in blocks at distance k; the expectation of each pair is the covariance of its time distance, and counting the pairs of two blocks by distance gives the triangular weights. Log averaging: C42.
* **C84 The viewer shows the average over the selected wave vectors** (partial; `cddm/viewer.py:DataViewer.set_mask`, `cddm/viewer.py:DataViewer.get_data`, `cddm/viewer.py:DataViewer.get_k`, `cddm/viewer.py:data_repr`, `cddm/map.py:as_rfft2_mask`, `cddm/map.py:as_rfft2_conj`) -- State machine of DataViewer; invariant over all sequences of calls (data, maps and masks belong together). The mean over the half space is carried to the full space by the map that sends a conjugated cell to its opposite; it is one-to-one because a half-open sector of at most 180 degrees never holds two opposite wave vectors (C51 for the index map, C49 for the half-space masks). Counterexample for Nyquist wave vectors evaluated from the same lemmas.  *Note:* False of the code for selections that contain Nyquist wave vectors (even sizes): C84_nyquist_refuted shows 3/2 instead of 2. Without them (C84_odd, C84_ring give conditions) the average is right after any sequence of calls (C84_average_partial). get_k raises IndexError for data of the computed cells only (C84_wave_number_masked_refuted), and a viewer cannot be used again for data of another size (C84_other_size_refuted). One lag time; drawing omitted.
* **C85 The viewer of an iterative computation shows the results so far** (partial; `cddm/multitau.py:_compute_multi_iter`, `cddm/multitau.py:iccorr_multi`, `cddm/multitau.py:iacorr_multi`, `cddm/core.py:iccorr`, `cddm/core.py:iacorr`) -- The generator is modelled as the list of its yields and its end; the loop of the callers selects from it. Lemmas/IterYield shows that the yields are the arrays after each half-chunk and that the last one is the value of the model used for C31-C39. The invariant of C31 (buffers and sums after i frames), proved there by induction over the frames, is read off at the end of every chunk instead of at the end only. Selection by position: list lemmas for every interval.  *Note:* False of the code: the viewer ends with the returned result only if viewer_interval divides the number of chunks (C85_iccorr_multi_last, C85_iccorr_multi_ends; C85_last_shown_refuted is the witness). Everything else is proved: result independent of viewer and stats and the selection of yields for all inputs; contents for all valid calls. Slow levels: binning by averaging and mode full; in-between contents of complex auto-correlation in mode full are omitted (already the result is wrong there, C37).
* **C86 The simulated walk is Brownian motion with drift** (partial; `cddm/sim.py:brownian_walk`, `cddm/_sim_nb.py:make_step`, `cddm/_sim_nb.py:mirror`) -- Induction over the steps: the coordinates are congruent modulo the box to a closed formula. Random numbers are functions on a probability space of Mathlib; the mean of a phase that is linear in independent numbers is the product of characteristic functions. A wave of the box has the same value at congruent points, so the result holds for the wrapped coordinates. Existence of such random numbers (product measure) is proved, so the hypothesis is not empty.  *Note:* Proved for numbers and arrays as step size and velocity. For functions of the coordinates the documented step law is proved except where it is false of the code: a function as velocity is not multiplied by dt (C86_velocity_refuted), a function delta with values of the documented shape fails or acts on the coordinates (C86_delta_refuted, C86_delta_two_refuted).
* **C87 The simulated particles have the scattering function of free diffusion** (proved; `cddm/sim.py:brownian_particles`) -- As C86, with the uniform starting points among the independent numbers: a pair of different particles contributes a factor `∫ exp(2 pi i n u) du = 0`, a particle with itself the scattering function of C86. The double sum over particles is exchanged with the integral (bounded measurable functions).
* **C88 The simulated video shows the particles at the requested times** (proved; `cddm/sim.py:simple_brownian_video`, `cddm/sim.py:particles_video`, `cddm/sim.py:brownian_particles`) -- The loop with frames that may fail equals the loop of C58 when all frames can be drawn; drawing by C54, transformation by C53, coordinates by C86/C87, number of steps from the maximum of the times.
* **C89 Normalised correlation is unbiased on any probability space** (proved; `cddm/core.py:ccorr`, `cddm/core.py:acorr`, `cddm/norm.py:normalize`, `cddm/multitau.py:ccorr_multi`) -- `HasMean` (integrable with a known integral) is closed under linear combinations and means over lists; square integrability of the signals makes all quadratic forms of the norms integrable, and their means follow from stationarity at the frame times. The deterministic part (what is returned for given signals) is that of C82 and C83.
* **C90 Simulated particles, correlated and normalised, give the scattering function of their diffusion** (proved; `cddm/sim.py:brownian_particles`, `cddm/core.py:ccorr`, `cddm/norm.py:normalize`, `cddm/multitau.py:ccorr_multi`) -- The fields of the free walks are bounded and measurable, with mean 0 and covariance from C87 for both orders of the two times: an instance of `StationaryAt` at the simulated times. Then C89.
* **C91 The viewers of raw correlation data show the averaged, normalised curves of the selected wave vectors** (partial; `cddm/viewer.py:CorrViewer._get_avg_data`, `cddm/viewer.py:MultitauViewer._get_avg_data`, `cddm/viewer.py:CorrViewer.set_data`, `cddm/norm.py:normalize`, `cddm/norm.py:fold_data`) -- Arrays of cells, one for each pixel; the state machine and the invariant of C84 are used for arrays of whole data tuples. The selected pixels and their conjugation flags come out of the invariant; the mean over the half space is carried to the full space for each time by the lemma of C84. C21/C22 give the curve of a pixel as a formula of its signals, and these formulas at the opposite wave vector are the conjugates; C29 gives the folding. With log-averaging (C91_log_partial, C91_log_complex_partial) and for merged multi-tau data (C91_merge_partial, C91_merge_complex_partial) the curve of a pixel is the specified log-average (IsLogAverage, IsLogMerge) of the data normalised with the given norm and scale, by C43, C44 and C79; the times depend on the shape only.  *Note:* As in C84, false of selections that contain Nyquist wave vectors. False of fold=False, which folds (C91_fold_false_refuted, C91_fold_false_folds_refuted), and of the folding of MultitauViewer, which drops the negative delays (C91_multi_one_sided_refuted). Otherwise the shown curve is the mean over the selected wave vectors after any sequence of calls (C91_corr_partial, C91_multi_partial), computed from the signals themselves in C91_signals_partial (real data) and C91_signals_complex_partial (norms without squares, every delay occurs). Log-averaging and merging of finite curves normalised with any norm and scale: C91_log_partial, C91_merge_partial and their complex versions; the linear plot of multi-tau data: C91_linear_partial. Drawing omitted.
* **C92 The viewers of arrays of curves show the mean over the pixels at the chosen indices** (partial; `cddm/viewer.py:DataArrayViewer.set_indices`, `cddm/viewer.py:DataArrayViewer.set_data`, `cddm/viewer.py:DataArrayViewer._get_avg_data`, `cddm/viewer.py:CorrArrayViewer.mask`, `cddm/viewer.py:CorrArrayViewer._get_avg_data`, `cddm/viewer.py:MultitauArrayViewer._get_avg_data`) -- The index tuple of set_indices by induction over its loop; the positions selected by an index tuple as a list without repetitions whose members are exactly the positions with the chosen indices; the mean over the list is the mean over the finite set. The state (indices set last by a successful call, data set last, times set last) by induction over the calls.  *Note:* False of axes that are not the first ones in some order (C92_other_axes_refuted, C92_negative_axis_refuted) and of set_data with times of a wrong length, which fails but replaces the data (C92_wrong_times_refuted). Otherwise the shown curve is the mean over exactly the pixels at the indices set last, after any sequence of calls (C92_data_partial, C92_curves_partial), sliders included (C92_sliders_partial). An index for the axis of the times, data_repr (C84) and drawing are omitted.
* **C93 sigma_weighted and sigma_prime_weighted are the standard deviations of the normalised correlation of Gaussian signals** (partial; `cddm/_core_nb.py:sigma_weighted`, `cddm/_core_nb.py:sigma_prime_weighted`, `cddm/_core_nb.py:weight_from_g`, `cddm/_core_nb.py:weight_prime_from_g`, `cddm/norm.py:normalize`, `cddm/norm.py:noise_delta`, `cddm/norm.py:scale_factor`) -- The fourth moments of jointly Gaussian numbers (Isserlis) are derived from those of the normal distribution; with them the variance of any real quadratic form of a circular pair. A weighted norm is the mean over the pairs of such a form; the variances of independent pairs add up. The value returned by ccorr and normalize is that of C21 and C22, combined with the given weights (C26). Best weight: C25, with the Cauchy-Schwarz inequality for the covariance.  *Note:* Norms 5, 6, 7, 13, 14, 15 as stated. Norms 1, 2, 3: sigma_prime_weighted and weight_prime_from_g only with the conjugate of the correlation; for the correlation itself the claim is false (C93_conjugate_refuted), and the weights normalize computes for norm 3 are not the best ones (C93_background_weight_refuted).
* **C94 The random trigger times of cross-DDM sample every delay equally often on average** (proved; `cddm/sim.py:create_random_times1`, `cddm/sim.py:create_random_times2`, `cddm/core.py:cross_count`) -- The counts are numbers of pairs of times with a given difference (C06), that is sums of indicators over pairs of frames; the mean is the sum of the probabilities. For independent uniform draws a probability is the fraction of the pairs of outcomes with a given difference; exactly one pair of outcomes gives a delay of the window. Eq.8: the two cases of the third draw, independent of the other two.
* **C95 random_time_count is the expected number of pairs of single-camera random triggering** (partial; `cddm/sim.py:random_time_count`, `cddm/sim.py:create_random_time`, `cddm/core.py:auto_count`) -- As C94, with the draws of two frames of one camera: (n-|d-gn|)/n² for frames g periods apart, summed over g. Compared entry by entry with the array of random_time_count. With a minimum time of one period: the random part never decreases (C56), and is bounded.  *Note:* The expected number of pairs at every delay is proved for dt_min <= 1, the default; the estimate equals it for n <= d <= nframes*n, exceeds it by d(n-d)/n^3 for 0 < d < n, and is n times too large at the delay 0 (refuted there). For dt_min > 1 the estimate is refuted (C95_minimum_time_refuted), and with dt_min = n the times become regular (C95_regular_in_the_end).
* **C96 Signals recorded at the random times of cross-DDM give an unbiased correlation at every delay that was sampled** (proved; `cddm/sim.py:create_random_times1`, `cddm/core.py:ccorr`, `cddm/core.py:normalize`, `cddm/sim.py:brownian_particles`) -- The times are a function of the finitely many draws (a vector of pairs). For every vector C89 gives the mean over the signals if the delay occurs and C21/C22 the NaN if it does not; the mean over the draws is then a finite sum (product measure). The probability that a delay occurs is one minus that of its absence from all frames, which are independent; for one frame it is counted as in C94.
* **C97 Drawing particles in parallel gives the image of sequential drawing** (partial; `cddm/_sim_nb.py:draw_psf`, `cddm/conf.py:NUMBA_PARALLEL`) -- Workers as lists of updates of a shared image, each update a read step and a write step; a run is any list of worker numbers. Invariants over the steps: for every pixel what was there plus at most what is done, and for pixels of one worker the exact sum. Refuted for overlapping particles by a run of four steps.  *Note:* False of the code for particles of different workers that share a pixel: light is lost (C97_refuted). Proved: the drawing ends, pixels touched by one worker only are exact in every interleaving, images of particles that do not overlap are those of sequential drawing, and no pixel ever gets more light than with sequential drawing or less than before. Reads and writes of one pixel are atomic.
* **C98 Form factor: the power of one particle averaged over a mesh, and the factor of the power of a frame** (proved; `cddm/sim.py:form_factor`, `cddm/_sim_nb.py:draw_psf`) -- Induction over the mesh loop with the drawing theorem (C54) and the transform theorem (C75) for each term; translation of a periodic image multiplies its components by a plane wave (reindexing of finite sums). Error branches outright.
* **C99 form_factor returns the average absolute value of the FFT of the PSF** (partial; `cddm/sim.py:form_factor`) -- Refuted: in a frame of one pixel with a mesh of four points the mean is 1/4 and the result 1/2. What holds: the result is at least the mean (Cauchy-Schwarz), equal without a window for meshes of whole pixels.  *Note:* False of the code: the root mean square is returned (C99_refuted). Proved: it is at least the average absolute value, and equal to it without a window for a mesh of whole pixels.
* **C100 Cropping a video** (proved; `cddm/video.py:crop`) -- CPython's slice.indices modelled; the positions characterised by a predicate without clamping (order and membership) and proved equal for both signs of the step. Composition and commutation frame by frame.
* **C101 Masking a video** (proved; `cddm/video.py:mask`) -- Row-order list of positions, strictly increasing, membership characterised.
* **C102 The FFT image shown is a picture of levels between 0 and 1, scaled to the clip** (partial; `cddm/video.py:norm_rfft2`, `cddm/video.py:show_fft`) -- The transform theorem (C75) and a periodic shift of the rows; the fold of max characterised as a maximum. Refuted for flat frames, of which no pixel is a number.  *Note:* False of the code for flat frames without a clip (C102_flat_refuted). Proved for every given clip, and without one whenever something positive is shown.
* **C103 The difference image shown has levels between 0 and 1, grey where the frames agree** (partial; `cddm/video.py:show_diff`) -- Maximum and linear arithmetic. Refuted for frames with negative values.  *Note:* False of the code for frames with negative values (C103_negative_refuted). Proved for frames without negative values that are not both black, and with normalize.
* **C104 The compile-time settings follow environment, file and default, and agree with each other** (partial; `cddm/conf.py:_read_environ_variable`, `cddm/conf.py:_readconfig`, `cddm/conf.py:NUMBA_CACHE`, `cddm/conf.py:FDTYPE`) -- Case distinction; the value of a switch is a relation that the code's value satisfies and that has one solution (`decided_unique`). Caching refuted for numba 1.0 and later.  *Note:* Caching is false of the code for numba 1.0 and later with parallel compilation (C104_cache_refuted); the rest is proved in full.
* **C105 Importing the package with any configuration file selects installed libraries and valid settings** (partial; `cddm/conf.py:set_numba_threads`, `cddm/conf.py:detect_number_of_cores`, `cddm/conf.py:set_fftlib`, `cddm/cddm.ini`) -- The four setter calls composed (C64 for each); success characterised exactly. Refuted for the file as installed where numba is limited to fewer threads than processors: the fallback calls a function that numba does not have.  *Note:* The import fails where the number of threads is out of range, also with the file as installed (C105_shipped_refuted); success, settings and errors are proved exactly.
* **C106 The home directory is the first directory found** (partial; `cddm/conf.py:get_home_dir`) -- The loop unrolled against a search of the list of candidates. Refuted for TMP, which is not tested.  *Note:* False of the code for TMP, whose value is not tested (C106_directory_refuted); the result is proved exactly (C106_home).
* **C107 The rounding errors of the correlation and difference functions are bounded** (proved; `cddm/_core_nb.py:_cross_corr_vec`, `cddm/_core_nb.py:_auto_corr_regular`, `cddm/_core_nb.py:_cross_diff_vec`, `cddm/core.py:cross_correlate`) -- The kernels of the model run over a type with rounded operations; the relation "computed cell, exact sum, sum of moduli, number of terms" is carried through each kernel by induction over its loops (`Tracks`), for every rounding function with relative error u; rounding to nearest with p digits is one (`C107_nearest`). The bound in terms of moduli cannot be replaced by the result itself (`C107_not_relative`).
* **C108 Correlations of whole numbers are computed without error** (proved; `cddm/_core_nb.py:_cross_corr_vec`, `cddm/_core_nb.py:_cross_diff_vec`, `cddm/core.py:auto_correlate`, `cddm/conf.py:FDTYPE`) -- The same induction with the relation "equal while the sum of moduli is at most B"; needed bound shown by a counterexample beyond it (`C108_bound_needed`).
* **C109 The rounding errors of the delay sums are bounded** (partial; `cddm/_core_nb.py:_cross_sum_regular`, `cddm/_core_nb.py:_cross_sum_complex_regular`, `cddm/_core_nb.py:_cross_sum_vec`, `cddm/core.py:cross_sum`, `cddm/core.py:auto_sum`) -- With time stamps by the induction of C107. For regular data the kernels obtain a delay from the previous one by subtraction: loop invariants for the running sums give a bound by the moduli of the whole signal; the stated bound is refuted in double precision with three samples. Whole numbers exact by the same invariants. `auto_sum` halves the sums over ordered pairs; C16 (exact) turns them into sums of means over unordered pairs. Division by two is an arbitrary function that rounds half of each component (numpy divides a complex by the complex 2, whose roundings are the same up to zeros).  *Note:* With time stamps: all parts. Regular data: whole numbers exact; otherwise bounded by the moduli of the whole signal (C109_regular_partial, C109_regular_signed_partial); the stated bound is false there (C109_refuted). The same for auto_sum (C109_auto_regular_partial, C109_auto_refuted).
* **C110 Kernels run in parallel give the result of the sequential ones** (proved; `cddm/_core_nb.py:_cross_corr_vec`, `cddm/_core_nb.py:_auto_corr_vec`, `cddm/_core_nb.py:_cross_diff_vec`, `cddm/_core_nb.py:_auto_diff_vec`, `cddm/_core_nb.py:_cross_sum_vec`, `cddm/_core_nb.py:_cross_sum_regular`, `cddm/conf.py:NUMBA_TARGET`) -- Each kernel is written as a list of updates `out[m] += v` and this is proved to be the modelled kernel. The workers are a transition system of separate loads and stores; an invariant over the schedule relates the memory to the updates already made. With output cells that share memory an update is lost (C110_shared_lost).
* **C111 Arithmetic of camera frames** (partial; `cddm/video.py:subtract`, `cddm/video.py:add`, `cddm/video.py:multiply`) -- numpy's arithmetic of unsigned integers is modelled with its result types: modulo 2^bits for two integer frames, exact as soon as one is of floating-point numbers, conversion to dtype after the operation. The pixels that are right are characterised exactly; that all are is refuted. add undoes subtract by induction over the videos.  *Note:* False of two camera frames: the operation is made modulo 2^bits before the conversion to dtype (C111_refuted). Proved: which pixels are right (C111_camera_partial, C111_subtract_partial, C111_integer_type); everything as soon as one frame is of floating-point numbers (C111_float); add undoes subtract; in place. Frames of different shapes and signed integers: C130.
* **C112 The images shown of camera frames** (partial; `cddm/video.py:show_diff`, `cddm/video.py:ImageShow._cv_imshow`) -- The scale of the difference image in both versions of numpy; equality with the image of C103 by the largest pixel, refutation by 8-bit frames. OpenCV: the definition against the largest value.  *Note:* False from numpy 2 on for pixels in the upper half of the range (C112_keeps_refuted, C112_half_refuted); below that, and before numpy 2, proved (C112_keeps_partial, C112_difference). OpenCV in full.
* **C113 Time stamps in 64-bit arithmetic** (partial; `cddm/core.py:_inspect_cross_arguments`, `cddm/core.py:_inspect_auto_arguments`, `cddm/_core_nb.py:_cross_corr`, `cddm/_core_nb.py:_add_count_cross`) -- All kernels with time stamps and the functions around them are modelled a second time with every difference, negation and absolute value reduced to 64 bits. For stamps within 2^63 - 1 of each other no reduction changes a number, so that C01-C06 hold of them; stamps further apart refute the claim. Stacks of frames: the kernels for several pixels at once agree with the unbounded ones in the same way, and C17 gives the pixels. FFT functions (`Stamp64Fft`): the doubled number of delays does not wrap for stamps less than `2^62 - 1` apart, so each 64-bit function equals the unbounded one, and C09, C10 apply.  *Note:* False of stamps further than 2^63 - 1 apart (C113_refuted, C113_outside_refuted, C113_length_refuted); proved for all others. One signal, and stacks of frames (axis = 0, C113_*_frames_partial; failures C113_frames_refuted, C113_frames_outside_refuted). The FFT functions (cross/auto correlation and sums, one signal) equal the direct functions for stamps less than 2^62 - 1 apart (`C113_*_fft_partial`); with stamps 2^62 - 1 apart they refuse data the direct function accepts (`C113_fft_refuted`).
* **C114 Time stamps that are not whole numbers** (partial; `cddm/core.py:_inspect_cross_arguments`, `cddm/core.py:_inspect_auto_arguments`, `cddm/core.py:cross_count`, `cddm/core.py:auto_count`) -- The conversion truncates toward zero. The pairs of C01-C06 are carried over to real times; truncation of times of one sign is a fair rule by the inequalities of floor and ceiling. Times on both sides of the origin refute the claim.  *Note:* False of times on both sides of the origin (C114_refuted), and of auto_sum for frames less than one unit of time apart, which are counted twice at delay 0 (C114_auto_sum_refuted); proved for times of one sign, auto_sum for frames at least one unit apart (C114_auto_sum_partial).
* **C115 Pairs of frame pairs** (partial; `cddm/_core_nb.py:auto_tau_times`, `cddm/_core_nb.py:cross_tau_times`, `cddm/_core_nb.py:auto_count_mixed`, `cddm/_core_nb.py:cross_count_mixed`) -- The state of the loops after any number of frame pairs is given by the list of what was filed in each row (induction over the pairs in the order of the loops). The tables are read off from it, the counts follow from the counting kernel of C06. Times that are zero, and delays with more frame pairs than columns, refute the counts.  *Note:* False of times that are zero and of delays with more frame pairs than the table has columns (C115_refuted, C115_zero_delay_refuted); the tables are proved for all inputs, the counts for all others.
* **C116 Arrays of any number of axes, any computation axis** (proved; `cddm/core.py:_move_axis_and_align`, `cddm/core.py:_default_out`, `cddm/core.py:_is_aligned`, `cddm/core.py:cross_correlate`, `cddm/core.py:auto_correlate`, `cddm/core.py:cross_difference`, `cddm/core.py:auto_difference`, `cddm/core.py:cross_sum`, `cddm/core.py:auto_sum`) -- An array is its shape and a function of the position. A kernel run on every row (or on every plane of time x pixel) of the moved array gives at each position what it gives for that row; the vector kernels agree with the one-signal kernels column by column (C05). The rows of the moved array are the signals of the pixels, the default output array has their rows too. Argument errors come in the order of the code. The values then follow from C01 and C03 for one signal.
* **C117 The FFT functions, ccorr and acorr on arrays of any number of axes** (proved; `cddm/core.py:cross_correlate_fft`, `cddm/core.py:auto_correlate_fft`, `cddm/core.py:cross_sum_fft`, `cddm/core.py:auto_sum_fft`, `cddm/core.py:ccorr`, `cddm/core.py:acorr`, `cddm/core.py:_move_axis_and_align`) -- Whether an FFT kernel raises, and the length of what it returns, depend only on the lengths and the times, so all rows succeed or raise alike; a successful run over the rows holds the result of each row. ccorr and acorr are chains of such steps: a relation between a computation on arrays and the computations on the pixels is kept by every step of the chain (the arrays moved once by ccorr have the same signals, in another place). For regular data the kernels need rows that are not too long (a condition of the theorem, as in C06); the sums added twice into one array keep its length. The values follow from C18 for one signal.
* **C118 The compensated subtracted formula; complex difference data** (proved; `cddm/_core_nb.py:_normalize_corr_compensated_subtracted_real`, `cddm/_core_nb.py:_normalize_corr_compensated_subtracted_complex`, `cddm/_core_nb.py:_normalize_cdiff_1`, `cddm/_core_nb.py:_normalize_cdiff_3`, `cddm/norm.py:normalize`) -- Both formulas are quotients by the count; for a non-zero count they are equal by field arithmetic, for count 0 neither is a number. The mean product follows by expanding the products of shifted samples. For complex difference data every branch of normalize is followed: the step that picks the loop for the element type raises before a curve is made.
* **C119 normalize acts on every wave vector by itself** (partial; `cddm/norm.py:normalize`, `cddm/norm.py:take_data`, `cddm/norm.py:_inspect_background`, `cddm/norm.py:scale_factor`, `cddm/norm.py:noise_delta`) -- Arrays are a shape and a function of the position. Broadcasting a frame over data whose last axes before the delays have the shape of the frame reads the frame at the last coordinates of the position (induction over the shape); the count, to which axes are added before the last, is read at the first coordinates. The selection of a mask is the sorted list of its positions, which is unique. Every branch of normalize preserves the number of delays, so the rows can be put together. The refutation is two wave vectors with the backgrounds 1 and 3 in one array.  *Note:* False of a single background (or variance) array whose first axis has length two, which is unpacked as a pair (C119_two_wave_vectors_false, C119_taken_for_a_pair); proved for all others. Arguments that stretch the data are not modelled.
* **C120 Log averaging and merging of arrays act on every wave vector by itself** (proved; `cddm/multitau.py:multilevel`, `cddm/multitau.py:merge_multilevel`, `cddm/multitau.py:log_average`, `cddm/multitau.py:log_merge`) -- Arrays are a shape and a function of the position. The order of axes of merge_multilevel moves the levels before the delays; the position of an element in C order is a bijection (induction over the shape), so the reshape joins exactly the last two axes. Composition of the functions preserves 'each position by itself', from which the formulas of C43 and C44 follow for every wave vector.  *Note:* Arrays without rows (a frame axis of length zero) are covered for the shape only.
* **C121 normalize_multi acts on every wave vector by itself** (partial; `cddm/multitau.py:normalize_multi`, `cddm/norm.py:normalize`) -- Composition of C119 for the linear data (no levels) and for the multilevel data (one axis of levels); the norm depends only on which parts of the linear data exist. The results of the levels at one wave vector are put together into one list.  *Note:* False of a single background (or variance) array whose first axis has length two, which normalize unpacks as a pair (C119_two_wave_vectors_false); proved for all others.
* **C122 k_select acts on every level and delay by itself** (partial; `cddm/map.py:k_select`, `cddm/map.py:_k_select_complex`, `cddm/map.py:_k_select_real`) -- The maps and masks depend on the sizes only, so every branch before the selection is the same for the array and for each frame; the selection and the mean along one axis are computed at each position from the values of that frame. With C52 follows the formula for full-space data. The refutation: pixels of as many levels as the mask has rows, as many as it has columns.  *Note:* False of pixels inside a mask if the number of levels and the number of pixels equal the sizes of the mask: they are taken for frames (C122_pixels_taken_for_frames). Otherwise, and for whole frames, each frame gives what it gives alone (C122_frames, C122_pixels_partial); the averages are right for full-space data (C122_average_partial), for half-space data C52 is false.
* **C123 ccorr_multi and acorr_multi act on every pixel by itself** (partial; `cddm/multitau.py:_compute_multi`, `cddm/multitau.py:ccorr_multi`, `cddm/multitau.py:acorr_multi`, `cddm/core.py:reshape_input`, `cddm/core.py:reshape_output`, `cddm/core.py:thread_frame_shape`) -- Induction over the levels with C117 for each: binning along an axis bins every signal, every level is ccorr/acorr of the binned arrays, so of the binned signals. The reshaping for threads is a change of position that keeps every signal where the computation axis is the first or the last (row-major positions), and reshape_output undoes it. The refutations follow the same proof with the positions the code really uses.  *Note:* False for frames of one axis: along axis 0 the result gets an extra axis (C123_one_axis_refuted), along axis 1 the samples of different pixels are mixed (C123_last_axis_refuted). Proved for all other frames without a divisor and for frames of two axes with one. Assumed: the linear part and every level fit the data (level_size samples; twice as many and a given number of levels for acorr_multi(complex=True), which the code needs). With a mask: C125.
* **C124 The iterative functions act on every pixel by itself** (partial; `cddm/multitau.py:_compute_multi_iter`, `cddm/multitau.py:iccorr_multi`, `cddm/multitau.py:iacorr_multi`, `cddm/core.py:iccorr`, `cddm/core.py:iacorr`, `cddm/core.py:reshape_frame`) -- Simulation: the state of the loop over frames (buffers of all levels, backgrounds, sums, data) at one pixel is the state of the one-pixel loop. Storing a frame, binning and the statistics commute with taking a pixel; each call of ccorr or acorr is C117 along the first axis with the alignment the code then computes, and keeps the lengths of the rows; the loops are inductions over frames and levels. Sizes of the buffers from the parameters show that the rows of the slow levels are not too long for their data. The reshaping is a change of position undone at the end.  *Note:* False for frames of one axis: the data get an extra axis, the mean and the variance do not (C124_one_axis_refuted). Proved for frames of two or more axes without a divisor and for frames of two axes with one, with at least one pixel. With a mask: C125; a divisor that is not positive or does not divide the number of pixels, and any divisor for frames of a single number, is refused (C124_iccorr_multi_refuses, C124_iacorr_multi_refuses). Frames of a single number without a divisor are not covered.
* **C125 With a mask every selected pixel is computed by itself and all others are NaN** (partial; `cddm/core.py:reshape_input`, `cddm/core.py:reshape_output`, `cddm/core.py:reshape_frame`, `cddm/core.py:thread_frame_shape`, `cddm/multitau.py:_compute_multi_iter`, `cddm/multitau.py:ccorr_multi`, `cddm/multitau.py:iccorr_multi`) -- The selected pixels are a duplicate-free list in C order, and a pixel's place in that list is its position in the array (or frame) the functions compute on; taking pixels out reads exactly the values of that pixel. The computation on the array of selected pixels is that of C123 and C124 (frames of one axis, without reshaping). Putting back writes the row at that place for the selected pixels and NaN elsewhere, for each array, each level and the statistics.  *Note:* Proved for masks of two axes without a thread divisor and axis = 0 (and at least one selected pixel for the iterative functions; sizes as in C123). False otherwise, with proofs of the failure: a divisor of two or more and masks of one axis raise ValueError (C125_divisor_refuted, C125_one_axis_refuted), masks of three axes with two or more levels too (C125_three_axes_refuted), axis = -3 raises IndexError (C125_negative_axis_refuted). Not covered: masks that select nothing for the iterative functions, time along another axis.
* **C126 From two videos to the merged curve of every pixel: each value is the norm's formula over the pairs of frames with that delay** (partial; `cddm/multitau.py:ccorr_multi`, `cddm/multitau.py:acorr_multi`, `cddm/multitau.py:iccorr_multi`, `cddm/multitau.py:iacorr_multi`, `cddm/multitau.py:normalize_multi`, `cddm/multitau.py:log_merge`, `cddm/core.py:normalize`) -- C123 (C124 for the iterative functions) gives, at every pixel, the data of that pixel alone, of which C79 (with C34 for the iterative functions) says what they normalize to; C121 says normalize_multi of the stacked arrays is, at every pixel, normalize_multi of that pixel's data. Joining them needs that all pixels have the same arrays and the same number of levels, so the arrays stack, and that the stacked array read at a pixel is the list of that pixel's levels. For the merged curve every delay is shown to occur, and C120 is applied.  *Note:* Proved for ccorr_multi and acorr_multi with all methods and both binnings (the method diff with its norms), and for the iterative functions with the methods corr and fft and averaging; at least two levels' worth of frames and the default number of levels (with averaging also any given number that leaves level_size samples in each, at most the number k of doublings for the iterative functions), no mask, real data, the norms that are not weighted, both modes, with or without scale (then with a variance that is not zero); log_merge (default binning) in all these cases (iterative functions: default number of levels) for data without times and an even level size. Not covered: a given number of levels with binning first, masks, complex data, weighted norms.
* **C127 With fastmath the kernels still compute the documented sums: however the compiler reorders, regroups or fuses the operations, the error stays below the same kind of bound** (proved; `cddm/conf.py:CDDM_FASTMATH`, `cddm/_core_nb.py:_cross_corr`, `cddm/_core_nb.py:_cross_corr_regular`, `cddm/_core_nb.py:_auto_corr`, `cddm/_core_nb.py:_cross_diff`, `cddm/_core_nb.py:_auto_diff`, `cddm/core.py:cross_correlate`, `cddm/core.py:auto_correlate`, `cddm/core.py:cross_difference`, `cddm/core.py:auto_difference`, `cddm/_core_nb.py:_cross_sum`, `cddm/_core_nb.py:_cross_sum_complex`, `cddm/core.py:cross_sum`) -- The kernels are polymorphic in the arithmetic, so they can be run on expressions, giving for every cell the operations of the source. By induction over the relation Fast of permitted rewritings, none changes the exact value, and none increases the sum of the moduli, the number of additions or the number of multiplications on a path; by induction over expressions, any expression runs to within ((1+u)^(additions+multiplications)-1) times its modulus. The tracking lemmas of C107 bound these numbers for what the kernels build. That running the source expressions is running the kernels of C107 is naturality of the loops.  *Note:* The permitted rewritings are those of LLVM's flags reassoc, nsz and contract as described in its manual, without distributing a product over a sum; the flags on NaN and infinity are void here as no special values are modelled; the kernels neither divide nor call functions, so arcp and afn do nothing. Of the sums, cross_sum with time stamps is covered (C127_cross_sum and its variants); its running sums for regular data, where a compiler may also cancel terms, and the numpy steps of auto_sum and normalize, which are not compiled by numba with fastmath or are divisions, are not.
* **C128 Normalizing correlation data in floating point is exact up to a bound that grows only with the number of pairs** (proved; `cddm/core.py:ccorr`, `cddm/core.py:acorr`, `cddm/norm.py:normalize`, `cddm/_core_nb.py:_normalize_corr_baseline_real`, `cddm/_core_nb.py:_normalize_struct_baseline_real`, `cddm/_core_nb.py:_normalize_corr_compensated_real`, `cddm/_core_nb.py:_normalize_struct_compensated_real`, `cddm/_core_nb.py:_normalize_corr_subtracted_real`, `cddm/_core_nb.py:_normalize_struct_subtracted_real`, `cddm/norm.py:_corr2diff`) -- The relation Near u m x' x X (|x| ≤ X and |x'-x| ≤ ((1+u)^m-1)X) is closed under the machine's sums, differences, products and quotients with the exponent growing by one each. The bounds of C107 and C109 put the correlation, sums and squares of every delay into this relation; following the operations of each normalization function then gives the bound for its cell, and the sizes collapse to the formula over moduli because the total over the pairs is additive.  *Note:* All data in double precision. Weighted norms, scale, mask, aout, difference data (method diff) and data with complex results are not covered; regular data only for ccorr and norm 1 (the regular sums do not have such bounds, C109).
* **C129 The kernel of one wave vector projects a frame on its windowed Fourier component** (proved; `cddm/map.py:k_point_kernel`, `cddm/fft.py:_build_kf`, `cddm/fft.py:_build_kernel`) -- `k_point_kernel` is modelled with the exact transform of `Model/Fft2.lean`; the one-hot array transforms to the plane wave (the lemma `buildKf_ok` of C77), the rest is rearranging sums and periodicity of the transform.
* **C130 Arithmetic of integer frames of any kind and shape** (proved; `cddm/video.py:subtract`, `cddm/video.py:add`, `cddm/video.py:multiply`) -- Types are (signed, bits), pixels whole numbers, conversion keeps the low bits (`%` and `Int.bmod`). The ranges are compared for all types at once (`covers_iff`), two numbers of a type that differ by a multiple of its size are equal (`holds_unique`); the rest follows.  *Note:* C130_wraps shows the wrap-around of signed frames and the silent cut in place. Floating-point results (64 bits unsigned with signed) are exact numbers and their conversion to an integer dtype is not modelled; frames of two axes.
* **C131 Random test videos** (proved; `cddm/video.py:random_video`) -- The generator is a loop that passes on how many random numbers are used; induction over cameras and multi-frames gives the number of each pixel, division with remainder shows that no two pixels share one. Ranges and shares from the properties of the floor; loading by C59.  *Note:* C131_dual_other: true values other than True and 1 give one camera. Exact numbers, rounding to the floating-point type is not modelled, nor are maximal values the integer type does not hold.
* **C132 Decorators keep what the decorated function does** (partial; `cddm/decorators.py:DocInherit`, `cddm/decorators.py:skip_runtime_error`, `cddm/decorators.py:deprecated`) -- A class is the list of what it and its parents define; lookups by class are recursive over this list (induction), lookups by object repeat with the recursion limit as fuel (induction over it). Warnings: filters, remembered and shown warnings are a state, `simplefilter` and `warn` act on it; erasing a filter that does not apply does not change the first one that does.  *Note:* False of objects whose class inherits a decorated method or decorates it once more (infinite recursion, C132_instance_refuted; proved for the others, C132_instance_doc_partial), of calls on objects with the truth value False (C132_call), and of the filters: after a call of a deprecated function every DeprecationWarning is shown (C132_filters_refuted) and warnings already shown are shown again (C132_shown_again_refuted). The rest is proved. Single inheritance; filters without text patterns.

## Disagreements between documentation/expectation and code

All of these have a machine-checked witness in `Verif/Props`, unless said otherwise.

1. `fold_data(mode=-1)` returns delay -(k+1) at index k >= 1 and the largest positive delay in the last cell (C29).
2. `iacorr` rejects its own default `norm=0`; `iccorr`/`iacorr` with `n=None` fail on `int(None)` (C67).
3. `iacorr`/`iacorr_multi` with `complex=True, mode="full"` drop all cross-chunk pairs (C37).
4. `BINNING_FIRST`: streaming keeps the last frame of a block, in-memory the first (C35).
5. `iccorr_multi` with an explicit large `nlevel` leaves counts of the last levels at zero (C36).
6. Complex `ccorr_multi` has slow data of length 2n+1 but counts of length n (C72).
7. FFT with n > length+1 aliases negative delays; repeated times overwrite each other (C09, C10 hypotheses).
8. Regular kernels with n > length+1 read out of bounds (C08).
9. `auto_sum` at delay 0 double counts pairs with equal times (C16).
10. `enable_prints` ignores its argument; nested suppression ends early; an exception leaves prints off (C63).
11. `increasing` never writes its first output cell (C47); therefore `weight_prime_from_data(mode="diff")` has an undefined
    first weight (C81).
12. `threaded` yields a trailing `None` (C61).
13. `asarrays` returns uninitialised rows if the video is shorter than `count` (C59).
14. `k_select` with scalar k always raises; in mode `rfft2` it raises for three or more columns (C52).
15. `rfft2_crop`/`fft2_crop` fail for cutoff 0 (C50).
16. `log_merge` times are not increasing for some periods that are not powers of two (C44).
17. `reshape_output` does not invert `reshape_input` for 1-D frames or masked data with a thread divisor (C66).
18. `_add_count_cross_complex` guards with `/2`, the data kernels with `//2` (they differ only for outputs of even length, which the API never allocates; no witness).
19. `convolve` is not safe in place (median is) (C46).
20. Pairing of triggers in `particles_video` needs each camera's trigger before the next one of the other (C58).
21. Subtraction terms of complex auto-correlation data are wrong in the imaginary part (C21, C24).
22. With a single background array of first dimension 2, `scale_factor` reads it as two backgrounds (not modelled).
23. `noise_delta` is not rescaled for `scale=False` with different variances (C70).
24. `equalize_data` changes signs; `shift_data` uses the half difference of phases instead of the half sum (C71).
25. `cross_count_mixed`/`auto_count_mixed`-type merged counts drop time 0 (no witness; C74 covers the counts they are made from).
26. `weight_prime_from_g` is a maximum, not a minimum, for unphysical data (C25).
27. An empty iterator with one requested frame raises UnboundLocalError, not ValueError (C33).
28. `normalize_multi` with a weighted norm re-enables prints (no witness; follows from C63: `enable_prints` is not nested).
29. `mirror` hangs for an empty box (C53); psf drawing reads outside for a psf larger than the image, and the total light
    depends on the position inside the pixel (C54); Gaussian noise with a negative black level is not monotone (C55).
30. `data_trigger` with a negative index yields nothing; an empty index list raises IndexError (C57).
31. `show_diff` drops frames beyond the given times (C62).
32. Moving a generator-based viewer forward after moving it back does not update the image (C68).
33. `CorrViewer.set_data` does not check the norm, `set_norm` does not update the check boxes (C69).
34. `multilevel_count` is off-centre for level size 2 and a kernel longer than the data (C73).
35. `multi_count`: number of levels, delay 0 of slow cross levels, the last cell and delay 0 of acorr (C74).
36. `rfft2` of complex frames differs between scipy and the other libraries (C75).
37. `dls` selects the wave vector opposite to `kvec` (C77).
38. Not modelled, seen while reading: `conf.py:356` calls `numba.get_numba_threads`, which does not exist;
    `_add_data2` spells `np.randomd.rand()`.
39. `DataViewer` counts Nyquist wave vectors (even sizes) a wrong number of times; `get_k` fails for data of the computed
    cells only; the maps are not renewed for data of another size (C84).
40. The viewer of an iterative computation does not end with the returned result unless `viewer_interval` divides the
    number of chunks; an interval of 0 raises ZeroDivisionError after the first chunk (C85).
41. A function given as `velocity` of `brownian_walk` is not multiplied by `dt`, a constant is; a function `delta` whose
    values have the documented shape `(len(x0),)` raises ValueError for more than two particles and is applied to the
    coordinates instead of the particles for two (C86).
42. `CorrViewer` and `MultitauViewer` with `fold=False` fold complex data just as with `fold=True`; `MultitauViewer` keeps
    the positive delays only where `CorrViewer` averages both signs; the ValueError about undetermined folding is never
    reached, because `normalize` already refuses a missing background (C91).
43. The array viewers work only if `axes` are the first axes of the data in some order: any axis not smaller than the number
    of axes (for example `axes=(1,)`) raises IndexError in the constructor, and a negative axis selects on an axis counted
    from the end of the tuple of indices instead of the data.  `DataArrayViewer.set_data` with times of a wrong length
    raises ValueError but has already replaced the data, which are then shown with the old times (C92).
44. `sigma_prime_weighted` and `weight_prime_from_g` are right for the correlation of the first signal with the conjugate of
    the second.  cddm conjugates the first one; for a correlation that is not real and backgrounds with different phases
    they therefore need the conjugate of what cddm computes (C93).  `C93_conjugate_refuted` has signals whose estimate has no
    spread at all.
45. `normalize` with norm 3 computes its weights with `weight_from_g`, which ignores the background (the call of
    `weight_prime_from_g` is commented out); they are not the best weights (`C93_background_weight_refuted`).
46. `random_time_count` gives `nframes * n` pairs at the delay 0, where there are `nframes` pairs; for `0 < d < n` it is too
    large by `d(n-d)/n³`, at most `1/(4n)` pairs (C95, `C95_zero_delay_refuted`).
47. With `NUMBA_PARALLEL` the workers of `draw_psf` add to the pixels of one image without synchronisation: the light of particles
    that overlap can be lost (C97, `C97_refuted`).  No light is added twice (`C97_between`).
48. The docstring of `form_factor` says that the PSF is drawn at random and that the average absolute value is returned; it is drawn
    on a mesh and the root mean square is returned (C99, `C99_refuted`).  `navg = 0` raises ZeroDivisionError.
49. `norm_rfft2` without a clip divides by the largest value shown, which is zero for flat frames: no pixel is a number (C102,
    `C102_flat_refuted`).
50. `show_diff` scales by the largest value, not the largest modulus: frames with negative values (a background subtracted) give
    levels outside of 0 to 1 (C103, `C103_negative_refuted`).
51. `NUMBA_CACHE` with parallel compilation needs numba `0.x` with x at least 45; numba 1.0 and later count as older (C104,
    `C104_cache_refuted`).
52. On import, a number of threads that numba does not allow is to fall back to `numba.get_numba_threads()`, which numba does not
    have (it is `get_num_threads`). The import fails with AttributeError, also with the file as installed where
    `NUMBA_NUM_THREADS` is below the number of processors (C105, `C105_shipped_refuted`). A name of a library in cddm.ini that is
    not accepted makes the import fail with ValueError (`C105_errors`).
53. `get_home_dir` does not test the value of `TMP` (C106, `C106_directory_refuted`). The warning of `_read_environ_variable` about an
    invalid value comes after its `return` and is never given.
54. `cross_sum` of regular data computes each delay from the previous one by subtraction. Rounding errors of large samples stay in the
    sums of later delays: for the samples 2^-60, 1, 2^-60 the sum at delay 2 is 0 instead of 2^-59 in double precision, while with
    the time stamps 0, 1, 2 it is right (C109, `C109_refuted`).
55. `subtract`, `add` and `multiply` compute in the type of the frames and convert to `dtype` afterwards. For 8-bit camera frames a pixel of
    100 minus a background of 150 is 206, also with `dtype = float` (C111, `C111_refuted`).
56. The difference image shown of camera frames: from numpy 2 on `2* max(x.max(),y.max())` overflows in the type of the frames if a
    pixel is in the upper half of the range; levels exceed 1, and at exactly half of the range no pixel is a number (C112,
    `C112_keeps_refuted`, `C112_half_refuted`).
57. The kernels subtract time stamps in `int64`. Frames whose stamps are `2^64 - 1` apart are counted at delay 1; for frames exactly `2^63`
    apart `abs(m)` is negative, passes `m < len(out)` and memory in front of the output is written (C113, `C113_refuted`,
    `C113_outside_refuted`). `-2^63` is what numpy makes of a time stamp that is not a number.
58. Float time stamps are truncated toward zero without a warning (core.py:80-81, 144, 711, 718, 748). Frames at -0.5 and 0.5 are correlated at
    delay 0, and the delays of times that are not whole numbers depend on the origin of time (C114, `C114_refuted`,
    `C114_origin_refuted`).
59. `auto_count_mixed` and `cross_count_mixed` mark free cells of the table with -1 but use the cells that are greater than zero: frame pairs
    that start at time zero are not counted (C115, `C115_refuted`). The table has `2 * (len(t) // period)` columns; for the delay zero
    this is too few whenever the period is at least 3 (`C115_zero_delay_refuted`). `cross_tau_times` compares the shape of
    `tpos` with itself, a smaller `tneg` is written outside of its memory.
60. `_inspect_background`, `scale_factor` and `noise_delta` try to unpack their argument into two (`bg1, bg2 = background`). A single array whose
    first axis has length two is unpacked as well: the first row becomes the background of the first video and the second row that of
    the second, for all wave vectors (C119, `C119_taken_for_a_pair`, `C119_two_wave_vectors_false`).
61. `k_select` decides from `data.shape[-3:-1] != mask.shape` whether the data hold only the pixels inside the mask. Masked data of as many levels
    as the mask has rows and as many pixels as it has columns are taken for whole frames, and the average runs over levels and pixels
    (C122, `C122_pixels_taken_for_frames`).
62. `reshape_input` (used by `ccorr_multi` and `acorr_multi`) forces frames of one axis to two and inserts the computation axis at its old number.
    For data (frames, pixels) along axis 0 the results have an extra axis of length one (`C123_one_axis_refuted`); for data (pixels, frames)
    along axis 1 the reshaping to (1, frames, pixels) mixes the samples of different pixels without an error (`C123_last_axis_refuted`).
    The same happens with a `thread_divisor` if the computation axis is neither the first nor the last.
63. The iterative functions force frames of one axis to two as well (`force_2d`): the linear and multi-level data get an extra axis of length
    one, while the mean and the variance returned with them have the shape of the frames (`C124_one_axis_refuted`).
64. `reshape_output` finds the axes before the frame in `data.shape[0:-mask.ndim]`, which is right only if the frame computed on has
    `mask.ndim - 1` axes.  With a `thread_divisor` of two or more, with masks of one axis and with masks of three axes and several levels,
    the functions compute everything and then raise ValueError (`C125_divisor_refuted`, `C125_one_axis_refuted`, `C125_three_axes_refuted`).
    `axis = -3`, which names the time axis of a video of images, is valid without a mask and an IndexError with one
    (`C125_negative_axis_refuted`).
65. `create_random_time` draws each time after the one before (`max(0,dt_min-n+r1)`), so with a minimum time above 1 the draws drift to the end of
    the periods; with `dt_min = n` the random part never decreases, and once it is `n - 1` all later frames are exactly `n` apart
    (`C95_regular_in_the_end`). `random_time_count` does not know the minimum time and is wrong then (`C95_minimum_time_refuted`).
66. With real time stamps, frames less than one unit of time apart can be put at the same time; `auto_sum` then counts their pair twice at
    delay 0, `auto_count` and `auto_correlate` once, so that normalized data are wrong there (`C114_auto_sum_refuted`).
67. `doc_inherit` hands the class of the object to `super`, not the class that has the method: for objects of a derived class, or of a class
    that decorates a decorated method, the lookup recurses without end (`C132_instance_refuted`). For objects with the truth value False
    the object is not passed to the method (`C132_call`). The package itself only uses it in comments.
68. `deprecated` sets the filter `default` for DeprecationWarning instead of restoring the filters, so that after one call of a deprecated
    function filters that ignore such warnings or raise them have no effect any more (`C132_filters_refuted`), and warnings already shown
    are shown again (`C132_shown_again_refuted`).
