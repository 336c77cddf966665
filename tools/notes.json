{
 "C08": [
  "partial",
  "The property as stated is false of the code: C08_cross_correlate_unsafe_iff shows that regular aligned data of N>=2 samples is read out of bounds exactly when the output is longer than N+1 (C08_refuted is a concrete call). Proved part: safe for every output length <= N+1, for the default n, for unaligned/irregular data with any n, and for real auto functions with any n."
 ],
 "C47": [
  "partial",
  "`decreasing` is fully proved. For `increasing` the property as stated is false of the code: out[0] is never written (C47_increasing_refuted); C47_increasing_partial proves the envelope for every other cell, and C47_increasing_general gives the exact result from whatever out[0] contained."
 ],
 "C21": [
  "partial",
  "Proved for real and complex cross-correlation, real auto-correlation and the real part of complex auto-correlation (C21_auto_complex_partial). False of the code for the imaginary part of complex auto-correlation data: acorr returns both parts of the spectrum of one signal but the subtraction term is formed from one running sum only (C21_auto_complex_refuted, a concrete call)."
 ],
 "C24": [
  "partial",
  "Proved for real and complex cross-correlation, real auto-correlation, and the real part of complex auto-correlation (C24_auto_complex_partial). False of the code for the imaginary part of complex auto-correlation data (C24_auto_complex_refuted)."
 ],
 "C25": [
  "partial",
  "weight_from_g/weight_from_d fully proved. weight_prime_from_g is the minimiser for physical data |g|^2 <= 1 - delta^2 (C25_prime_partial) but not for arbitrary data: C25_prime_refuted gives g = 3, backgrounds +-2, where the returned weight is the maximum."
 ],
 "C29": [
  "partial",
  "Proved: fold_data mode 0 and 1, equalize_data, shift_data moduli and symmetry, take_data, refusals. False of the code for fold_data(mode=-1): cell k holds delay -(k+1) and the last cell the largest positive delay (C29_fold_negative_partial states what is returned, C29_fold_negative_refuted a concrete array)."
 ],
 "C70": [
  "partial",
  "Proved for a single variance or two equal variances (C70_scale_partial). False of the code for different variances: noise_delta is not divided by the scale factor when scale=False although the data are (C70_refuted)."
 ],
 "C71": [
  "partial",
  "Proved for equalize_data and data with positive real parts (C71_equalize_partial). False of the code otherwise: equalize_data changes the sign of values with negative real part (C71_equalize_refuted); shift_data returns the moduli of aligned data (C71_shift_actual, C71_shift_refuted), because it takes the half difference of the phases instead of the half sum."
 ],
 "C44": [
  "partial",
  "log_merge concatenates the linear axis and the doubled level axes, and the points with valid data are always strictly increasing (C44_valid_increasing). The whole axis is strictly increasing exactly when the criterion of C44_increasing_iff holds, in particular for a period that is a power of two (C44_increasing_partial); for other periods it is false of the code (C44_increasing_refuted: period 3)."
 ],
 "C33": [
  "partial",
  "Default and given chunk sizes, the number of frames consumed and the ValueError for too short inputs are proved for every call. The error claim is false in one corner: an empty iterator with one requested frame raises UnboundLocalError instead of ValueError (C33_empty_one_frame_false), so the theorems carry the side condition that the input is non-empty or more than one frame is requested."
 ],
 "C34": [
  "partial",
  "Proved (streaming = in-memory, all arrays of the fast part and every level) for real data, block-mean binning, spaced frame times, level size >= 5 and default nlevel or nlevel not above the number of chunk doublings. False for level sizes below 5, which only the in-memory version refuses (C34_small_level_false), and for complex data (C34_complex_false: slow levels of the in-memory version have 2n+1 cells)."
 ],
 "C72": [
  "partial",
  "False of the code for the slow levels (C72_complex_levels_false): 2n+1 correlation cells against n counts. The fast part is proved right (C72_complex_fast_partial)."
 ],
 "C36": [
  "partial",
  "False of the code when the default number of levels exceeds the number of times the chunk can be doubled (C36_iccorr_multi_false, e.g. the default arguments with 64 frames, C36_case): the counts of the last levels stay zero. Proved for block-mean binning when the default number of levels is within the number of doublings (C36_*_partial, cross and auto, real and complex, both modes)."
 ],
 "C35": [
  "partial",
  "The claim is false of the code: the streaming buffers keep the last frame of every block and the in-memory slicing keeps the first one, so streamed slow levels differ from four chunks on (C35_iccorr_multi_false). Proved outright: what every streamed level contains (C35_*_levels, C35_buffers) and what the in-memory function contains (C35_memory); equality with the in-memory result for at most two chunks and default nlevel (C35_*_partial)."
 ],
 "C37": [
  "partial",
  "The claim is false of the code. Whenever the frame times increase from chunk to chunk, mode 'full' returns exactly what mode 'chunk' returns (C37_iacorr_*_full_is_chunk), so pairs of frames in different chunks are missing; C37_iacorr_complex_false compares the counts [4,2] with acorr's [4,3] for any four frames. Equality with acorr is proved for a single chunk (C37_iacorr_multi_complex_partial)."
 ],
 "C67": [
  "partial",
  "The claim is false of the code: iccorr and iacorr never return a result when n is omitted (TypeError, C67_*_no_result, C67_iccorr_default_false), and iacorr rejects its own default norm=0 (ValueError, C67_iacorr_*default_false). With n (and for iacorr a supported norm) given, the result is that of ccorr / acorr (C67_*_partial)."
 ],
 "C50": [
  "partial",
  "False of the code for cutoff 0 along a signed axis with more than one row or column: the slice [-0:] is the whole axis and the assignment raises ValueError (C50_rfft2_crop_zero_false, C50_fft2_crop_zero_false). For every other cutoff all frequencies are kept and all cells written (C50_*_crop_partial); too large cutoffs raise ValueError (C50_*_crop_error). For arrays with any number of leading axes (several frames) the same holds in every frame (C50_*_frames_*); an array of one axis raises IndexError as soon as a cutoff is given (C50_rfft2_crop_one_axis_false)."
 ],
 "C51": [
  "proved",
  "Directions between -pi (included) and pi, which is what fft2_kangle gives; one of the two edges of the sector belongs to it, the upper one if the sector crosses +-180 (+-90) degrees and the lower one otherwise, see C51_edges. Positive k step."
 ],
 "C52": [
  "partial",
  "False of the code for a single k, which always ends in TypeError (C52_one_false, C52_one_type_error), and for half-space data, the default mode, of three or more columns: conj_mask has the wrong shape and the call raises IndexError or, with a mask, ValueError (C52_rfft2_false, C52_rfft2_many_false). For full-space data and a list of k, or none, the claim holds (C52_fft2_many_partial). One lag time, no leading axes (arrays: C122)."
 ],
 "C54": [
  "partial",
  "In-bounds drawing, exact periodic placement and conservation of the light are proved for sequential drawing on exact reals. The total does not depend on whole-pixel shifts; that it is the same for all positions is false, the light depends on where in its pixel the particle is (C54_position_refuted). A psf larger than the image is drawn outside (C54_too_large). Parallel drawing: C97."
 ],
 "C57": [
  "partial",
  "Proved for non-empty index lists without negative indices. One negative index suppresses everything and an empty list raises IndexError (C57_negative, C57_refuted)."
 ],
 "C55": [
  "proved",
  "Exact reals. With Gaussian noise monotone for a non-negative black level and the same random number; false for a negative one (C55_gaussian_not_monotone). Zero saturation, NaN and more than 16 bits are not modelled."
 ],
 "C53": [
  "proved",
  "Exact reals. A box with x1 < x0 makes mirror hang (C53_mirror_hangs). Rounding, by which huge float coordinates never reach the box, is not modelled."
 ],
 "C59": [
  "partial",
  "Round trip, too many frames, rejected arguments and load are proved for all inputs. \"Missing rows are never presented\" is false of the code: asarrays succeeds with uninitialised rows (C59_missing_refuted), also when a later multi-frame has fewer cameras. Negative counts and print timing are not modelled."
 ],
 "C60": [
  "proved",
  "The operation on two frames is a parameter, so all dtypes are covered; add undoes subtract in every commutative group (also integers that wrap around)."
 ],
 "C61": [
  "partial",
  "Worker and consumer are interleaved step by step under every schedule. play_threaded yields exactly the frames. threaded yields a None after them (C61_threaded_refuted). Termination assumes that both threads are scheduled again and again. An exception of the video in the worker is not passed on: the stream just ends."
 ],
 "C62": [
  "partial",
  "play and show_video as claimed (fps not 0, id a camera). show_diff drops frames beyond the given times and raises for a number of cameras other than two (refuted). The drawing itself is not modelled."
 ],
 "C63": [
  "partial",
  "Code with nested regions is modelled as a tree and executed for every tree and level. The level is restored from every level >= 0 if nothing is raised; nothing is printed in regions that contain no other region. Refuted: after an inner region the outer one prints; negative levels and levels after an exception are not restored; the argument of enable_prints is ignored."
 ],
 "C64": [
  "proved",
  "All histories of the four setters and all subsets of installed libraries. Levels are integers; the number of threads is not modelled."
 ],
 "C65": [
  "proved",
  "Over the reals; rounding to the float type is not modelled."
 ],
 "C66": [
  "partial",
  "Frames of two or more axes with time along axis 0 or last, any divisor without levels, two axes with levels: the results are exactly those of the direct computation; masks of two axes (more without levels) without divisor: NaN outside. thread_frame_shape keeps the number of pixels or raises. False of the code, with proofs of the failure: 1-D frames gain an axis or raise, mask with divisor, 1-D masks, shape=None with a mask, 3-D frames with levels and divisor, time along a middle axis mixes pixels and times, divisor 0 is ZeroDivisionError. Normalized (single array) data and masks of only some axes not modelled."
 ],
 "C68": [
  "partial",
  "Lists: the image is always that of the selected frame, after any history of slider, buttons and playing. Generators: the image is always that of the furthest frame selected so far; moving forward beyond it shows the selected frame, moving back leaves the image. Missing because false of the code: moving forward after moving back, without passing the furthest frame, does not show the selected frame (C68_generator_forward_refuted). Drawing and matplotlib itself are not modelled."
 ],
 "C69": [
  "proved",
  "All click histories for fixed data. Outside the claim, shown to fail: set_data does not check the norm (then a click can recurse without end) and set_norm does not update the boxes."
 ],
 "C73": [
  "partial",
  "Effective counts proved for every level size from 4 on (and for 2 and 3 whenever the kernel is not longer than the data), with bounds, the constant case, missing cells and log_average_count; for level size 2 the claim is refuted when the kernel is longer than the data, because np.convolve then centres it differently."
 ],
 "C74": [
  "partial",
  "Closed forms of both count arrays without averaging; slow levels compared with the counts of ccorr_multi/acorr_multi (equal if the block length divides the number of frames, else less than one pair (two counts) below); time axis of log_merge_count. Refuted: number of levels unless the number of frames is n*2^k, delay 0 of slow cross-correlation levels (doubled), the linear part (delay 0 of acorr is 0, last cell one delay too far)."
 ],
 "C75": [
  "partial",
  "Proved for frames of real numbers with all cutoffs except 0 on an axis of signed frequencies (fails, C50) and exact arithmetic. For complex frames the libraries differ (C75_complex_refuted)."
 ],
 "C76": [
  "proved",
  "One video at a time, exact numbers; a frame with zero mean is an explicit non-finite value."
 ],
 "C77": [
  "partial",
  "The convolution is proved for all frames and windows; with cutoffs except 0. The claim about which wave vector passes is false: it is the opposite one (C77_uniform, C77_opposite_refuted); for real frames this is the complex conjugate (C77_real)."
 ],
 "C81": [
  "partial",
  "Mode corr (the default) and unfiltered data are proved. False of the code for mode diff with pre_filter: the running maximum never writes its first element, so the first weight depends on uninitialised memory only (C81_diff_refuted); with the right content in that memory the claim holds (C81_diff_partial). One real curve; zero scale factor not modelled; optimality for delta = 0."
 ],
 "C84": [
  "partial",
  "False of the code for selections that contain Nyquist wave vectors (even sizes): C84_nyquist_refuted shows 3/2 instead of 2. Without them (C84_odd, C84_ring give conditions) the average is right after any sequence of calls (C84_average_partial). get_k raises IndexError for data of the computed cells only (C84_wave_number_masked_refuted), and a viewer cannot be used again for data of another size (C84_other_size_refuted). One lag time; drawing omitted."
 ],
 "C85": [
  "partial",
  "False of the code: the viewer ends with the returned result only if viewer_interval divides the number of chunks (C85_iccorr_multi_last, C85_iccorr_multi_ends; C85_last_shown_refuted is the witness). Everything else is proved: result independent of viewer and stats and the selection of yields for all inputs; contents for all valid calls. Slow levels: binning by averaging and mode full; in-between contents of complex auto-correlation in mode full are omitted (already the result is wrong there, C37)."
 ],
 "C86": [
  "partial",
  "Proved for numbers and arrays as step size and velocity. For functions of the coordinates the documented step law is proved except where it is false of the code: a function as velocity is not multiplied by dt (C86_velocity_refuted), a function delta with values of the documented shape fails or acts on the coordinates (C86_delta_refuted, C86_delta_two_refuted)."
 ],
 "C91": [
  "partial",
  "As in C84, false of selections that contain Nyquist wave vectors. False of fold=False, which folds (C91_fold_false_refuted, C91_fold_false_folds_refuted), and of the folding of MultitauViewer, which drops the negative delays (C91_multi_one_sided_refuted). Otherwise the shown curve is the mean over the selected wave vectors after any sequence of calls (C91_corr_partial, C91_multi_partial), computed from the signals themselves in C91_signals_partial (real data) and C91_signals_complex_partial (norms without squares, every delay occurs). Log-averaging and merging of finite curves normalised with any norm and scale: C91_log_partial, C91_merge_partial and their complex versions; the linear plot of multi-tau data: C91_linear_partial. Drawing omitted."
 ],
 "C92": [
  "partial",
  "False of axes that are not the first ones in some order (C92_other_axes_refuted, C92_negative_axis_refuted) and of set_data with times of a wrong length, which fails but replaces the data (C92_wrong_times_refuted). Otherwise the shown curve is the mean over exactly the pixels at the indices set last, after any sequence of calls (C92_data_partial, C92_curves_partial), sliders included (C92_sliders_partial). An index for the axis of the times, data_repr (C84) and drawing are omitted."
 ],
 "C93": [
  "partial",
  "Norms 5, 6, 7, 13, 14, 15 as stated. Norms 1, 2, 3: sigma_prime_weighted and weight_prime_from_g only with the conjugate of the correlation; for the correlation itself the claim is false (C93_conjugate_refuted), and the weights normalize computes for norm 3 are not the best ones (C93_background_weight_refuted)."
 ],
 "C95": [
  "partial",
  "The expected number of pairs at every delay is proved for dt_min <= 1, the default; the estimate equals it for n <= d <= nframes*n, exceeds it by d(n-d)/n^3 for 0 < d < n, and is n times too large at the delay 0 (refuted there). For dt_min > 1 the estimate is refuted (C95_minimum_time_refuted), and with dt_min = n the times become regular (C95_regular_in_the_end)."
 ],
 "C97": [
  "partial",
  "False of the code for particles of different workers that share a pixel: light is lost (C97_refuted). Proved: the drawing ends, pixels touched by one worker only are exact in every interleaving, images of particles that do not overlap are those of sequential drawing, and no pixel ever gets more light than with sequential drawing or less than before. Reads and writes of one pixel are atomic."
 ],
 "C99": [
  "partial",
  "False of the code: the root mean square is returned (C99_refuted). Proved: it is at least the average absolute value, and equal to it without a window for a mesh of whole pixels."
 ],
 "C102": [
  "partial",
  "False of the code for flat frames without a clip (C102_flat_refuted). Proved for every given clip, and without one whenever something positive is shown."
 ],
 "C103": [
  "partial",
  "False of the code for frames with negative values (C103_negative_refuted). Proved for frames without negative values that are not both black, and with normalize."
 ],
 "C104": [
  "partial",
  "Caching is false of the code for numba 1.0 and later with parallel compilation (C104_cache_refuted); the rest is proved in full."
 ],
 "C105": [
  "partial",
  "The import fails where the number of threads is out of range, also with the file as installed (C105_shipped_refuted); success, settings and errors are proved exactly."
 ],
 "C106": [
  "partial",
  "False of the code for TMP, whose value is not tested (C106_directory_refuted); the result is proved exactly (C106_home)."
 ],
 "C109": [
  "partial",
  "With time stamps: all parts. Regular data: whole numbers exact; otherwise bounded by the moduli of the whole signal (C109_regular_partial, C109_regular_signed_partial); the stated bound is false there (C109_refuted). The same for auto_sum (C109_auto_regular_partial, C109_auto_refuted)."
 ],
 "C111": [
  "partial",
  "False of two camera frames: the operation is made modulo 2^bits before the conversion to dtype (C111_refuted). Proved: which pixels are right (C111_camera_partial, C111_subtract_partial, C111_integer_type); everything as soon as one frame is of floating-point numbers (C111_float); add undoes subtract; in place. Frames of different shapes and signed integers: C130."
 ],
 "C112": [
  "partial",
  "False from numpy 2 on for pixels in the upper half of the range (C112_keeps_refuted, C112_half_refuted); below that, and before numpy 2, proved (C112_keeps_partial, C112_difference). OpenCV in full."
 ],
 "C113": [
  "partial",
  "False of stamps further than 2^63 - 1 apart (C113_refuted, C113_outside_refuted, C113_length_refuted); proved for all others. One signal, and stacks of frames (axis = 0, C113_*_frames_partial; failures C113_frames_refuted, C113_frames_outside_refuted). The FFT functions (cross/auto correlation and sums, one signal) equal the direct functions for stamps less than 2^62 - 1 apart (`C113_*_fft_partial`); with stamps 2^62 - 1 apart they refuse data the direct function accepts (`C113_fft_refuted`)."
 ],
 "C114": [
  "partial",
  "False of times on both sides of the origin (C114_refuted), and of auto_sum for frames less than one unit of time apart, which are counted twice at delay 0 (C114_auto_sum_refuted); proved for times of one sign, auto_sum for frames at least one unit apart (C114_auto_sum_partial)."
 ],
 "C115": [
  "partial",
  "False of times that are zero and of delays with more frame pairs than the table has columns (C115_refuted, C115_zero_delay_refuted); the tables are proved for all inputs, the counts for all others."
 ],
 "C119": [
  "partial",
  "False of a single background (or variance) array whose first axis has length two, which is unpacked as a pair (C119_two_wave_vectors_false, C119_taken_for_a_pair); proved for all others. Arguments that stretch the data are not modelled."
 ],
 "C120": [
  "proved",
  "Arrays without rows (a frame axis of length zero) are covered for the shape only."
 ],
 "C121": [
  "partial",
  "False of a single background (or variance) array whose first axis has length two, which normalize unpacks as a pair (C119_two_wave_vectors_false); proved for all others."
 ],
 "C122": [
  "partial",
  "False of pixels inside a mask if the number of levels and the number of pixels equal the sizes of the mask: they are taken for frames (C122_pixels_taken_for_frames). Otherwise, and for whole frames, each frame gives what it gives alone (C122_frames, C122_pixels_partial); the averages are right for full-space data (C122_average_partial), for half-space data C52 is false."
 ],
 "C123": [
  "partial",
  "False for frames of one axis: along axis 0 the result gets an extra axis (C123_one_axis_refuted), along axis 1 the samples of different pixels are mixed (C123_last_axis_refuted). Proved for all other frames without a divisor and for frames of two axes with one. Assumed: the linear part and every level fit the data (level_size samples; twice as many and a given number of levels for acorr_multi(complex=True), which the code needs). With a mask: C125."
 ],
 "C124": [
  "partial",
  "False for frames of one axis: the data get an extra axis, the mean and the variance do not (C124_one_axis_refuted). Proved for frames of two or more axes without a divisor and for frames of two axes with one, with at least one pixel. With a mask: C125; a divisor that is not positive or does not divide the number of pixels, and any divisor for frames of a single number, is refused (C124_iccorr_multi_refuses, C124_iacorr_multi_refuses). Frames of a single number without a divisor are not covered."
 ],
 "C125": [
  "partial",
  "Proved for masks of two axes without a thread divisor and axis = 0 (and at least one selected pixel for the iterative functions; sizes as in C123). False otherwise, with proofs of the failure: a divisor of two or more and masks of one axis raise ValueError (C125_divisor_refuted, C125_one_axis_refuted), masks of three axes with two or more levels too (C125_three_axes_refuted), axis = -3 raises IndexError (C125_negative_axis_refuted). Not covered: masks that select nothing for the iterative functions, time along another axis."
 ],
 "C126": [
  "partial",
  "Proved for ccorr_multi and acorr_multi with all methods and both binnings (the method diff with its norms), and for the iterative functions with the methods corr and fft and averaging; at least two levels' worth of frames and the default number of levels (with averaging also any given number that leaves level_size samples in each, at most the number k of doublings for the iterative functions), no mask, real data, the norms that are not weighted, both modes, with or without scale (then with a variance that is not zero); log_merge (default binning) in all these cases (iterative functions: default number of levels) for data without times and an even level size. Not covered: a given number of levels with binning first, masks, complex data, weighted norms."
 ],
 "C127": [
  "proved",
  "The permitted rewritings are those of LLVM's flags reassoc, nsz and contract as described in its manual, without distributing a product over a sum; the flags on NaN and infinity are void here as no special values are modelled; the kernels neither divide nor call functions, so arcp and afn do nothing. Of the sums, cross_sum with time stamps is covered (C127_cross_sum and its variants); its running sums for regular data, where a compiler may also cancel terms, and the numpy steps of auto_sum and normalize, which are not compiled by numba with fastmath or are divisions, are not."
 ],
 "C128": [
  "proved",
  "All data in double precision. Weighted norms, scale, mask, aout, difference data (method diff) and data with complex results are not covered; regular data only for ccorr and norm 1 (the regular sums do not have such bounds, C109)."
 ],
 "C130": [
  "proved",
  "C130_wraps shows the wrap-around of signed frames and the silent cut in place. Floating-point results (64 bits unsigned with signed) are exact numbers and their conversion to an integer dtype is not modelled; frames of two axes."
 ],
 "C131": [
  "proved",
  "C131_dual_other: true values other than True and 1 give one camera. Exact numbers, rounding to the floating-point type is not modelled, nor are maximal values the integer type does not hold."
 ],
 "C132": [
  "partial",
  "False of objects whose class inherits a decorated method or decorates it once more (infinite recursion, C132_instance_refuted; proved for the others, C132_instance_doc_partial), of calls on objects with the truth value False (C132_call), and of the filters: after a call of a deprecated function every DeprecationWarning is shown (C132_filters_refuted) and warnings already shown are shown again (C132_shown_again_refuted). The rest is proved. Single inheritance; filters without text patterns."
 ]
}