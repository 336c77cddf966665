
## Disagreements between documentation/expectation and code

All of these have a machine-checked witness in `Verif/Props`, unless said otherwise.

1. `fold_data(mode=-1)` returns delay -(k+1) at index k >= 1 and the largest positive delay in the last cell (C29).
2. `iacorr` rejects its own default `norm=0`; `iccorr`/`iacorr` with `n=None` fail on `int(None)` (C67).
3. `iacorr`/`iacorr_multi` with `complex=True, mode="full"` drop all cross-chunk pairs (C37).
4. `BINNING_FIRST`: streaming keeps the last frame of a block, in-memory the first (C35).
5. `iccorr_multi` with an explicit large `nlevel` leaves counts of the last levels at zero (C36).
6. Complex `ccorr_multi` has slow data of length 2n+1 but counts of length n (C72).
7. FFT with n > length+1 aliases negative delays; repeated times overwrite each other (C09, C10 hypotheses).
8. Regular kernels with n > length+1 read out of bounds (C08).
9. `auto_sum` at delay 0 double counts pairs with equal times (C16).
10. `enable_prints` ignores its argument; nested suppression ends early; an exception leaves prints off (C63).
11. `increasing` never writes its first output cell (C47); therefore `weight_prime_from_data(mode="diff")` has an undefined
    first weight (C81).
12. `threaded` yields a trailing `None` (C61).
13. `asarrays` returns uninitialised rows if the video is shorter than `count` (C59).
14. `k_select` with scalar k always raises; in mode `rfft2` it raises for three or more columns (C52).
15. `rfft2_crop`/`fft2_crop` fail for cutoff 0 (C50).
16. `log_merge` times are not increasing for some periods that are not powers of two (C44).
17. `reshape_output` does not invert `reshape_input` for 1-D frames or masked data with a thread divisor (C66).
18. `_add_count_cross_complex` guards with `/2`, the data kernels with `//2` (they differ only for outputs of even length, which the API never allocates; no witness).
19. `convolve` is not safe in place (median is) (C46).
20. Pairing of triggers in `particles_video` needs each camera's trigger before the next one of the other (C58).
21. Subtraction terms of complex auto-correlation data are wrong in the imaginary part (C21, C24).
22. With a single background array of first dimension 2, `scale_factor` reads it as two backgrounds (not modelled).
23. `noise_delta` is not rescaled for `scale=False` with different variances (C70).
24. `equalize_data` changes signs; `shift_data` uses the half difference of phases instead of the half sum (C71).
25. `cross_count_mixed`/`auto_count_mixed`-type merged counts drop time 0 (no witness; C74 covers the counts they are made from).
26. `weight_prime_from_g` is a maximum, not a minimum, for unphysical data (C25).
27. An empty iterator with one requested frame raises UnboundLocalError, not ValueError (C33).
28. `normalize_multi` with a weighted norm re-enables prints (no witness; follows from C63: `enable_prints` is not nested).
29. `mirror` hangs for an empty box (C53); psf drawing reads outside for a psf larger than the image, and the total light
    depends on the position inside the pixel (C54); Gaussian noise with a negative black level is not monotone (C55).
30. `data_trigger` with a negative index yields nothing; an empty index list raises IndexError (C57).
31. `show_diff` drops frames beyond the given times (C62).
32. Moving a generator-based viewer forward after moving it back does not update the image (C68).
33. `CorrViewer.set_data` does not check the norm, `set_norm` does not update the check boxes (C69).
34. `multilevel_count` is off-centre for level size 2 and a kernel longer than the data (C73).
35. `multi_count`: number of levels, delay 0 of slow cross levels, the last cell and delay 0 of acorr (C74).
36. `rfft2` of complex frames differs between scipy and the other libraries (C75).
37. `dls` selects the wave vector opposite to `kvec` (C77).
38. Not modelled, seen while reading: `conf.py:356` calls `numba.get_numba_threads`, which does not exist;
    `_add_data2` spells `np.randomd.rand()`.
39. `DataViewer` counts Nyquist wave vectors (even sizes) a wrong number of times; `get_k` fails for data of the computed
    cells only; the maps are not renewed for data of another size (C84).
40. The viewer of an iterative computation does not end with the returned result unless `viewer_interval` divides the
    number of chunks; an interval of 0 raises ZeroDivisionError after the first chunk (C85).
41. A function given as `velocity` of `brownian_walk` is not multiplied by `dt`, a constant is; a function `delta` whose
    values have the documented shape `(len(x0),)` raises ValueError for more than two particles and is applied to the
    coordinates instead of the particles for two (C86).
42. `CorrViewer` and `MultitauViewer` with `fold=False` fold complex data just as with `fold=True`; `MultitauViewer` keeps
    the positive delays only where `CorrViewer` averages both signs; the ValueError about undetermined folding is never
    reached, because `normalize` already refuses a missing background (C91).
43. The array viewers work only if `axes` are the first axes of the data in some order: any axis not smaller than the number
    of axes (for example `axes=(1,)`) raises IndexError in the constructor, and a negative axis selects on an axis counted
    from the end of the tuple of indices instead of the data.  `DataArrayViewer.set_data` with times of a wrong length
    raises ValueError but has already replaced the data, which are then shown with the old times (C92).
44. `sigma_prime_weighted` and `weight_prime_from_g` are right for the correlation of the first signal with the conjugate of
    the second.  cddm conjugates the first one; for a correlation that is not real and backgrounds with different phases
    they therefore need the conjugate of what cddm computes (C93).  `C93_conjugate_refuted` has signals whose estimate has no
    spread at all.
45. `normalize` with norm 3 computes its weights with `weight_from_g`, which ignores the background (the call of
    `weight_prime_from_g` is commented out); they are not the best weights (`C93_background_weight_refuted`).
46. `random_time_count` gives `nframes * n` pairs at the delay 0, where there are `nframes` pairs; for `0 < d < n` it is too
    large by `d(n-d)/n³`, at most `1/(4n)` pairs (C95, `C95_zero_delay_refuted`).
47. With `NUMBA_PARALLEL` the workers of `draw_psf` add to the pixels of one image without synchronisation: the light of particles
    that overlap can be lost (C97, `C97_refuted`).  No light is added twice (`C97_between`).
48. The docstring of `form_factor` says that the PSF is drawn at random and that the average absolute value is returned; it is drawn
    on a mesh and the root mean square is returned (C99, `C99_refuted`).  `navg = 0` raises ZeroDivisionError.
49. `norm_rfft2` without a clip divides by the largest value shown, which is zero for flat frames: no pixel is a number (C102,
    `C102_flat_refuted`).
50. `show_diff` scales by the largest value, not the largest modulus: frames with negative values (a background subtracted) give
    levels outside of 0 to 1 (C103, `C103_negative_refuted`).
51. `NUMBA_CACHE` with parallel compilation needs numba `0.x` with x at least 45; numba 1.0 and later count as older (C104,
    `C104_cache_refuted`).
52. On import, a number of threads that numba does not allow is to fall back to `numba.get_numba_threads()`, which numba does not
    have (it is `get_num_threads`). The import fails with AttributeError, also with the file as installed where
    `NUMBA_NUM_THREADS` is below the number of processors (C105, `C105_shipped_refuted`). A name of a library in cddm.ini that is
    not accepted makes the import fail with ValueError (`C105_errors`).
53. `get_home_dir` does not test the value of `TMP` (C106, `C106_directory_refuted`). The warning of `_read_environ_variable` about an
    invalid value comes after its `return` and is never given.
54. `cross_sum` of regular data computes each delay from the previous one by subtraction. Rounding errors of large samples stay in the
    sums of later delays: for the samples 2^-60, 1, 2^-60 the sum at delay 2 is 0 instead of 2^-59 in double precision, while with
    the time stamps 0, 1, 2 it is right (C109, `C109_refuted`).
55. `subtract`, `add` and `multiply` compute in the type of the frames and convert to `dtype` afterwards. For 8-bit camera frames a pixel of
    100 minus a background of 150 is 206, also with `dtype = float` (C111, `C111_refuted`).
56. The difference image shown of camera frames: from numpy 2 on `2* max(x.max(),y.max())` overflows in the type of the frames if a
    pixel is in the upper half of the range; levels exceed 1, and at exactly half of the range no pixel is a number (C112,
    `C112_keeps_refuted`, `C112_half_refuted`).
57. The kernels subtract time stamps in `int64`. Frames whose stamps are `2^64 - 1` apart are counted at delay 1; for frames exactly `2^63`
    apart `abs(m)` is negative, passes `m < len(out)` and memory in front of the output is written (C113, `C113_refuted`,
    `C113_outside_refuted`). `-2^63` is what numpy makes of a time stamp that is not a number.
58. Float time stamps are truncated toward zero without a warning (core.py:80-81, 144, 711, 718, 748). Frames at -0.5 and 0.5 are correlated at
    delay 0, and the delays of times that are not whole numbers depend on the origin of time (C114, `C114_refuted`,
    `C114_origin_refuted`).
59. `auto_count_mixed` and `cross_count_mixed` mark free cells of the table with -1 but use the cells that are greater than zero: frame pairs
    that start at time zero are not counted (C115, `C115_refuted`). The table has `2 * (len(t) // period)` columns; for the delay zero
    this is too few whenever the period is at least 3 (`C115_zero_delay_refuted`). `cross_tau_times` compares the shape of
    `tpos` with itself, a smaller `tneg` is written outside of its memory.
60. `_inspect_background`, `scale_factor` and `noise_delta` try to unpack their argument into two (`bg1, bg2 = background`). A single array whose
    first axis has length two is unpacked as well: the first row becomes the background of the first video and the second row that of
    the second, for all wave vectors (C119, `C119_taken_for_a_pair`, `C119_two_wave_vectors_false`).
61. `k_select` decides from `data.shape[-3:-1] != mask.shape` whether the data hold only the pixels inside the mask. Masked data of as many levels
    as the mask has rows and as many pixels as it has columns are taken for whole frames, and the average runs over levels and pixels
    (C122, `C122_pixels_taken_for_frames`).
62. `reshape_input` (used by `ccorr_multi` and `acorr_multi`) forces frames of one axis to two and inserts the computation axis at its old number.
    For data (frames, pixels) along axis 0 the results have an extra axis of length one (`C123_one_axis_refuted`); for data (pixels, frames)
    along axis 1 the reshaping to (1, frames, pixels) mixes the samples of different pixels without an error (`C123_last_axis_refuted`).
    The same happens with a `thread_divisor` if the computation axis is neither the first nor the last.
63. The iterative functions force frames of one axis to two as well (`force_2d`): the linear and multi-level data get an extra axis of length
    one, while the mean and the variance returned with them have the shape of the frames (`C124_one_axis_refuted`).
64. `reshape_output` finds the axes before the frame in `data.shape[0:-mask.ndim]`, which is right only if the frame computed on has
    `mask.ndim - 1` axes.  With a `thread_divisor` of two or more, with masks of one axis and with masks of three axes and several levels,
    the functions compute everything and then raise ValueError (`C125_divisor_refuted`, `C125_one_axis_refuted`, `C125_three_axes_refuted`).
    `axis = -3`, which names the time axis of a video of images, is valid without a mask and an IndexError with one
    (`C125_negative_axis_refuted`).
65. `create_random_time` draws each time after the one before (`max(0,dt_min-n+r1)`), so with a minimum time above 1 the draws drift to the end of
    the periods; with `dt_min = n` the random part never decreases, and once it is `n - 1` all later frames are exactly `n` apart
    (`C95_regular_in_the_end`). `random_time_count` does not know the minimum time and is wrong then (`C95_minimum_time_refuted`).
66. With real time stamps, frames less than one unit of time apart can be put at the same time; `auto_sum` then counts their pair twice at
    delay 0, `auto_count` and `auto_correlate` once, so that normalized data are wrong there (`C114_auto_sum_refuted`).
67. `doc_inherit` hands the class of the object to `super`, not the class that has the method: for objects of a derived class, or of a class
    that decorates a decorated method, the lookup recurses without end (`C132_instance_refuted`). For objects with the truth value False
    the object is not passed to the method (`C132_call`). The package itself only uses it in comments.
68. `deprecated` sets the filter `default` for DeprecationWarning instead of restoring the filters, so that after one call of a deprecated
    function filters that ignore such warnings or raise them have no effect any more (`C132_filters_refuted`), and warnings already shown
    are shown again (`C132_shown_again_refuted`).
