# Formal model of cddm: design

`cddm` (cross-differential dynamic microscopy) turns pairs of video streams into
correlation functions.  This directory holds a Lean 4 model of its algorithms and
machine-checked proofs of the properties listed in `properties.jsonl`.

This file is put together by `tools/design.py` from `tools/design.head.md`, `tools/plan.json`,
`tools/design.tail.md`, `properties.jsonl` and `MANIFEST.json`.

## Layout

* `lean/Verif/Model/*.lean`  -- the model, function by function.  Every definition cites the
  file and lines in `/repo` that it models and says where it simplifies.
* `lean/Verif/Spec/*.lean`   -- small independent specifications used in theorem statements.
* `lean/Verif/Lemmas/*.lean` -- helper lemmas.
* `lean/Verif/Props/*.lean`  -- the property theorems `Cnn_...`, examples that meet their
  hypotheses, and refutations (`_refuted`, `_false`) of claims that the code does not satisfy.
* `MANIFEST.json`            -- property -> status and theorem names.
* `AXIOMS.md`                -- the axioms of every property theorem, from `#print axioms`.
* `seeded/LOG.jsonl`         -- mutation attempts (wrong programs) and what they showed.

## Trusted base

* Lean 4.33.0's kernel, and the axioms `propext`, `Classical.choice`, `Quot.sound`
  (no other axiom; no `sorry`, `native_decide`, `bv_decide`).  `AXIOMS.md` lists them per theorem.
* Mathlib's definitions that occur in statements (`ℝ`, `Complex.exp`, `Real.cos`, `Finset.sum`, `List`, `IsLeast`, ...).
* The reading of the Python source: the code is not executed; each definition cites what it models.
* Numbers: floating point is modelled by exact arithmetic (a commutative ring, an ordered field,
  or the reals), except in C107 to C109 where every operation is rounded.  Overflow and NaN propagation are not modelled, `fastmath` only in C127,
  except where a definition says so (a value that is not finite is an explicit `none`).
* numpy / numba: `guvectorize` applies a kernel to each core slice and rejects mismatching core
  dimensions; `moveaxis`/`reshape`/slicing/broadcasting behave as documented; compiled loops run
  sequentially as written.  Out-of-bounds access is an explicit `none` (kernels) or the result
  `undefined` (API), so that a theorem saying "returns ok" includes memory safety.
* Uninitialised memory (`np.empty`, output of a `guvectorize` kernel) is an argument of the model;
  theorems quantify over it.
* FFT libraries compute the exact discrete Fourier transform.
* Threads: `queue.Queue` operations are atomic; a schedule is an arbitrary interleaving.
* Random numbers are arguments of the model; theorems quantify over them.
* Python exceptions are values of `PyErr`; the message is not modelled.

## What is modelled

One module per topic; the header of each module and the comment of each definition give the lines
and the simplifications.

| Module | Source | Simplifications |
|---|---|---|
| `Cx`, `Py`, `Err`, `Slice`, `Arr2` | shared vocabulary: complex numbers over a ring, Python indices and slices, exceptions, 2-D arrays | exact numbers |
| `Kernels` | `_core_nb.py` kernels for arbitrary times (correlation, difference, sums, counts) | one signal |
| `Regular` | `_core_nb.py` kernels for regular times | one signal |
| `Vec` | `_core_nb.py` `*_vec` kernels and the API on frame stacks | 2-D data, `axis=0` |
| `Core` | `core.py` `cross_correlate` ... `auto_count`, argument checks, default sizes | one signal (any axes: `AnyAxis`); contiguity is a Boolean argument |
| `Fft` | FFT variants of these functions | exact DFT |
| `Ccorr` | `core.py` `ccorr`, `acorr` | one signal; printing omitted |
| `Stats` | `core.py` `stats`, `subtract_background` | samples x pixels |
| `Reshape` | `core.py` `reshape_input`, `reshape_output`, `thread_frame_shape`, masks | arrays as shape and C-ordered elements |
| `Norm` | `norm.py` flags and strings, background/variance/scale inspection, `normalize`, weights, noise; `_core_nb.py` formulas | one wave vector; `out` and printing omitted |
| `NormMulti` | `multitau.py` `normalize_multi` | row by row (arrays: `NormMultiAny`) |
| `Noise` | `norm.py` `noise_level`, `noise_mean`, `weight_prime_from_data` | one real curve |
| `Fold` | `norm.py` `take_data`, `shift_data`, `equalize_data`, `fold_data` | one pixel |
| `Filters` | `_core_nb.py` median, convolve, increasing/decreasing, interpolate; `avg.py` | no NaN in the input |
| `LogAvg`, `Counts` | `multitau.py` log averaging, merging, effective counts | one pixel (arrays: `LogAny`) |
| `Multitau` | `multitau.py` `ccorr_multi`, `acorr_multi` | one pixel (arrays: `MultiAny`) |
| `MultitauIter`, `IterApi` | `multitau.py` `_compute_multi_iter` and the four iterative functions | one pixel (frames: `IterAny`, `MaskAny`) |
| `IterYield` | the same as generators: intermediate yields, viewer, `stats=False` | a yield is the content of the arrays; what the viewer does is omitted |
| `Fft2` | `fft.py` transforms, normalization of videos, `dls` | one video at a time, exact DFT |
| `Rfft2`, `Sector`, `KSelect` | `map.py` full-space conversion, cropping, sector maps, `k_select` | one frame / lag time (arrays: `KSelectAny`) |
| `SimWalk` | `brownian_walk`, `brownian_particles`, `particles_video`, `simple_brownian_video` with their arguments | reals; random numbers are arguments; a generator is the list of its yields and its end |
| `Sim` | `sim.py`, `_sim_nb.py` walks, boundaries, drawing, ADC, random times, triggers, dual camera | reals; sequential drawing |
| `Video` | `video.py` arrays <-> videos, arithmetic, playing, threads, display | frames are of any type |
| `Conf` | `conf.py`, `print_tools.py` settings and messages | number of threads omitted |
| `Window` | `window.py` | reals |
| `Viewer` | `viewer.py` state machines of sliders, buttons and check-boxes | drawing omitted |
| `ViewerAvg` | `viewer.py` `DataViewer`: masks, averages, representations | one lag time; drawing and times omitted |
| `TimeCount` | `sim.py` `random_time_count` | real numbers |
| `DrawParallel` | `_sim_nb.py` `draw_psf` with `NUMBA_PARALLEL`: workers that read and write one image | any division of the particles, any interleaving of reads and writes of whole pixels |
| `FormFactor` | `sim.py` `form_factor` | exact transforms; the window is an array of reals; intensity fits the dtype |
| `VideoCrop` | `video.py` `crop`, `mask` | frames of two axes; slices of whole numbers or None; masks that are boolean arrays of two axes |
| `FrameShow` | `video.py` `norm_rfft2`, the image of `show_diff` | exact transforms; nan as `none`, infinities clipped |
| `ParallelKernel` | the kernels of `_core_nb.py` with `target="parallel"` as updates of memory made by workers | a load and a store per update, any division of the positions among workers, any interleaving |
| `CamFrame` | `video.py` subtract, add, multiply and show_diff on frames of unsigned integers, `_cv_imshow` | numpy's result types and wrap-around, floating-point exact; shapes equal |
| `Stamp64` | the kernels with time stamps of `_core_nb.py` and the functions of `core.py` around them, in `int64` arithmetic | every difference, negation and absolute value reduced to 64 bits; one signal |
| `Stamp64Vec` | the kernels for several pixels at once and the functions of `core.py` on stacks of frames, in `int64` arithmetic | as `Vec` and `Stamp64` |
| `Stamp64Fft` | the FFT kernels with time stamps and the functions of `core.py` around them, in `int64` arithmetic | as `Fft` and `Stamp64`; no memory limit |
| `CropAny` | `rfft2_crop`, `fft2_crop` of arrays with any number of axes | the matrix model applied to the last two axes |
| `PointKernel` | `k_point_kernel` | two-dimensional windows, exact transform |
| `RandomVideo` | `random_video` | random numbers a sequence of fractions, exact arithmetic, no pauses |
| `Decorators` | `decorators.py` | single inheritance; the module `warnings` as documented, without the actions once and module and without text patterns |
| `IntFrame` | `subtract`, `add`, `multiply` of signed and unsigned integer frames of any shapes | frames of two axes; floating-point results exact |
| `RealStamp` | the conversion of float time stamps in `core.py` | truncation of real numbers |
| `Mixed` | `_core_nb.py` `auto_tau_times`, `cross_tau_times`, `auto_count_mixed`, `cross_count_mixed` | unbounded numbers; period not negative |
| `AnyAxis` | `core.py` `_move_axis_and_align`, `_default_out`, `_is_aligned` and `cross_correlate` ... `auto_sum` on arrays of any number of axes | an array is its shape and a function of the position; both arrays of the same shape and layout; dtypes omitted |
| `AnyAxisFft`, `AnyAxisCcorr` | `core.py` `cross_correlate_fft` ... `auto_sum_fft`, `ccorr`, `acorr` on arrays of any number of axes | as `AnyAxis` and `Ccorr`; given squares have the shape of the data |
| `NormAny` | `norm.py` `normalize`, `take_data`, `_inspect_background`, `scale_factor` on arrays of any shape, with levels and mask | the formulas are those of `Norm`; arguments that stretch the data, data without wave vectors, a variance that does not fit and a weight of another shape than the data not modelled |
| `LogAny` | `multitau.py` `multilevel`, `choose_data`, `merge_multilevel`, `log_average`, `log_merge`; `norm.py` `fold_data` on arrays of any shape | computation on the last axis; the convolution and the folding of a row are those of `LogAvg`, `Fold` |
| `NormMultiAny` | `multitau.py` `normalize_multi` on arrays of any shape, with mask | as `NormAny` |
| `KSelectAny` | `map.py` `k_select` on data with leading axes and delays | the maps are those of `Sector` |
| `MultiAny` | `multitau.py` `ccorr_multi`, `acorr_multi` on arrays of any shape with `thread_divisor`; `core.py` `reshape_input`, `reshape_output` around them | mask: `MaskAny`; `ccorr`, `acorr` are those of `AnyAxis`; results whose level axis is reshaped away not modelled |
| `IterAny` | `multitau.py` `_compute_multi_iter`, `core.py` `iccorr`, `iacorr` on frames of any shape with `thread_divisor` | mask: `MaskAny`; frames in buffers are functions of the position; the reshaping of results yielded before the end omitted |
| `MaskAny` | `core.py` `reshape_input`, `reshape_output`, `reshape_frame` with a mask, around the functions of `MultiAny` and `IterAny` | boolean masks of the frame shape; NaN is a separate value; the reshaping of results yielded before the end omitted |
| `Chain` | `multitau.py` `normalize_multi` of what the functions of `MultiAny` and `IterAny` return | the levels, a list of arrays in the model, are stacked into one array here; data without levels not modelled |
| `Fastmath` | `_core_nb.py` kernels of `Kernels` and `Regular` compiled with `fastmath`, `conf.py` 125-129 | the kernels run on expressions; the rewritings a compiler may apply are a relation, taken from the description of LLVM's flags, not from the compiler |
| `NormRound` | `core.py` `ccorr`, `acorr`, `norm.py` `normalize` with the functions of `_core_nb.py` it calls, on machine numbers | double precision; no weighted norms, scale, mask or aout |
| `ConfStart` | `conf.py` the decisions on import: home directory, switches, types, libraries, threads | environment variables and options as what `int` and `ConfigParser` make of them; numba's `set_num_threads` as documented (ValueError outside of 1 to `NUMBA_NUM_THREADS`); creating the directory and the file not modelled |
| `Rounding` | machine numbers: the operations of `_core_nb.py` with a rounding function | no overflow, no NaN, no subnormal numbers; applied to the kernels of `Kernels` and `Regular` (C107 to C109) |
| `CorrViewer` | `viewer.py` `CorrViewer`, `MultitauViewer`: what is plotted for raw correlation data | arrays of cells, one for each pixel; folding and log-averaging of curves with inf or NaN not modelled |
| `ArrViewer` | `viewer.py` `DataArrayViewer`, `CorrArrayViewer`, `MultitauArrayViewer`: indices, data, what is plotted | an array is its shape and a function of the position; an index for the axis of the times not modelled; drawing omitted |


## What is not modelled

* Drawing and windows (`matplotlib`, `pyqtgraph`, `cv2`), the layout of figures, `plot_*` functions.
* Files: reading and writing of configuration files, memory-mapped arrays (`load_config`, `mmap`).
* Rounding outside of C107 to C109, C127 and C128, overflow except of camera frames (C111, C112) and time stamps (C113); number formatting; run times and printed percentages.
* Parallel execution inside numba (`target="parallel"`) except the parallel drawing loop (C97) and the correlation, difference and sum
  kernels (C110: loads and stores are atomic and in program order for each worker, a complex number is one cell); thread-pool FFTs.
* MKL threading, seeds of random number generators.
* Distributions of random numbers (except the first two moments in C80): statements hold for every outcome.

## Properties: what is modelled and how it is proved

`proved`: the whole statement.  `partial`: the note says what is missing; where the claim is false of
the code, the failure is proved as well.

