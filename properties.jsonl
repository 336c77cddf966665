{"id": "C01", "title": "Cross-correlation sums every pair of frames once", "statement": "For irregularly sampled data, cross_correlate(f1,f2,t1,t2,n) returns an array of length n whose k-th entry is (the corresponding entry of aout, or 0) plus the sum, over every pair (frame a of f1, frame b of f2) whose time distance |t_b - t_a| equals k, of Re(conj(a)*b). No pair is skipped, counted twice or filed under a wrong delay, and no memory outside the output is touched.", "quantifier": "all signals f1,f2 of any lengths, all integer time stamps (unsorted, repeated, negative), all output lengths n, all prior contents of aout, all delays k", "why_tests_cant": "Tests compare two four-frame examples; the claim ranges over every length, every time stamp arrangement and every n, including n smaller than the largest delay.", "anchors": ["cddm/core.py:cross_correlate", "cddm/_core_nb.py:_cross_corr"]}
{"id": "C02", "title": "Complex cross-correlation keeps the sign of the delay", "statement": "With complex=True the output has 2n-1 entries; entry m (0<=m<n) holds the sum of conj(a)*b over pairs with t_b - t_a = m and entry -m (counted from the end, 1<=m<n) the sum over pairs with t_b - t_a = -m. No index is shared by two delays and no pair with |delay| >= n contributes.", "quantifier": "all signals, all integer time stamps, all n >= 1, all signed delays", "why_tests_cant": "Python's negative index wrap-around is correct only because 2n-1 cells hold exactly the 2n-1 delays; a test with one n cannot show that no pair wraps onto a wrong cell for some other n or time pattern.", "anchors": ["cddm/core.py:cross_correlate", "cddm/_core_nb.py:_cross_corr_complex"]}
{"id": "C03", "title": "Auto-correlation counts each unordered pair once, oriented forward in time", "statement": "auto_correlate(f,t,n)[k] is the sum over unordered pairs of frames (a frame paired with itself included) at time distance k of Re(conj(a)*b); with complex=True it is the sum of conj(earlier)*later, whatever order the frames are stored in.", "quantifier": "all signals, all integer time stamps in any order, all n, all delays k", "why_tests_cant": "The triangular loop and the sign branch only matter for particular orderings of the time stamps; tests use sorted stamps only.", "anchors": ["cddm/core.py:auto_correlate", "cddm/_core_nb.py:_auto_corr", "cddm/_core_nb.py:_auto_corr_complex"]}
{"id": "C04", "title": "Difference functions sum squared distances of the right pairs", "statement": "cross_difference(f1,f2,t1,t2,n)[k] is the sum of |b-a|^2 over pairs with |t_b - t_a| = k, auto_difference the same over unordered pairs; every entry is >= its initial aout value, and auto_difference at delay 0 is zero for distinct times.", "quantifier": "all signals, time stamps, output lengths and delays", "why_tests_cant": "A universal statement over all inputs and all orderings of accumulation.", "anchors": ["cddm/core.py:cross_difference", "cddm/core.py:auto_difference", "cddm/_core_nb.py:_cross_diff", "cddm/_core_nb.py:_auto_diff"]}
{"id": "C05", "title": "Tau-dependent sums run over the same pairs as the correlation", "statement": "cross_sum(f,t,t_other,n)[k] is the sum of f over pairs at distance k (each frame as often as it takes part in a pair), with complex=True per signed delay t_other - t; with time_inversion=True the sign is reversed so that cross_sum(f2,t2,t1,time_inversion=True)[m] sums f2 over exactly the pairs that cross_correlate(f1,f2,t1,t2,complex=True)[m] sums.", "quantifier": "all signals, time stamps, n, delays, both settings of complex and time_inversion", "why_tests_cant": "Consistency of three separately written loops over all inputs; a sign slip shows only for particular delays.", "anchors": ["cddm/core.py:cross_sum", "cddm/_core_nb.py:_cross_sum", "cddm/_core_nb.py:_cross_sum_complex", "cddm/_core_nb.py:_cross_sum_complex_regular", "cddm/_core_nb.py:_cross_sum_complex_regular_inverted"]}
{"id": "C06", "title": "Occurrence counts equal the number of contributing pairs", "statement": "cross_count(t1,t2,n)[k] is the number of pairs at time distance k and auto_count(t,n)[k] the number of unordered pairs; with complex=True one count per signed delay, so correlating data that are all 1 reproduces the counts at every delay.", "quantifier": "all time stamp arrays, all n, all delays", "why_tests_cant": "The count loop and the data loop are different code with different guards ((len+1)/2 versus (len+1)//2); equality for all lengths is not testable by examples.", "anchors": ["cddm/core.py:cross_count", "cddm/core.py:auto_count", "cddm/_core_nb.py:_add_count_cross", "cddm/_core_nb.py:_add_count_cross_complex", "cddm/_core_nb.py:_add_count_auto"]}
{"id": "C07", "title": "Regularly sampled fast path equals the general algorithm", "statement": "For data without time stamps, cross/auto correlation, difference and sums (real and complex) return exactly what the irregular algorithm returns with time stamps 0,1,...,N-1, for every n <= N+1; all array accesses are in bounds for those n.", "quantifier": "all signals of length N, all n <= N+1, all prior contents of aout, real and complex variants", "why_tests_cant": "The slice arithmetic x[0:N-i], y[i:] and running-sum updates are separate algorithms; equality must hold at every delay of every length.", "anchors": ["cddm/_core_nb.py:_cross_corr_regular", "cddm/_core_nb.py:_cross_corr_complex_regular", "cddm/_core_nb.py:_auto_corr_regular", "cddm/_core_nb.py:_auto_corr_complex_regular", "cddm/_core_nb.py:_cross_diff_regular", "cddm/_core_nb.py:_auto_diff_regular", "cddm/_core_nb.py:_cross_sum_regular"]}
{"id": "C08", "title": "Fast path never reads outside its input", "statement": "A caller may ask for any n. cross_correlate on regular data reads only the N input samples, whatever n is.", "quantifier": "all signal lengths N and all requested n", "why_tests_cant": "An out-of-bounds read in compiled code returns arbitrary memory; it need not crash a test.", "anchors": ["cddm/_core_nb.py:_cross_corr_regular", "cddm/_core_nb.py:_cross_corr_add", "cddm/_core_nb.py:_cross_diff_regular"]}
{"id": "C09", "title": "FFT method equals the direct method", "statement": "cross_correlate_fft and auto_correlate_fft return the same result as cross_correlate / auto_correlate for regular and irregular data, real and complex output, with aout accumulation, whenever the frames of one stream have distinct times and n does not exceed the full length (in exact arithmetic, with an exact DFT).", "quantifier": "all signals, all distinct integer time stamps per stream, all n up to the full length (+1), all delays", "why_tests_cant": "The documentation promises identical output; zero padding avoids circular wrap-around only because of an inequality between time spans and the FFT length that must hold for all time stamps.", "anchors": ["cddm/core.py:cross_correlate_fft", "cddm/core.py:auto_correlate_fft", "cddm/_core_nb.py:_cross_corr_fft", "cddm/_core_nb.py:_cross_corr_fft_regular", "cddm/_core_nb.py:_auto_corr_fft", "cddm/_core_nb.py:_auto_corr_fft_regular"]}
{"id": "C10", "title": "FFT sums equal direct sums", "statement": "cross_sum_fft and auto_sum_fft return the same as cross_sum and auto_sum for irregular data with distinct times, for real and complex delays and with time inversion.", "quantifier": "all signals, all distinct time stamps, all n up to the full length", "why_tests_cant": "Same reason: circular indexing with negative (inverted) times relies on wrap-around being harmless for all inputs.", "anchors": ["cddm/core.py:cross_sum_fft", "cddm/core.py:auto_sum_fft", "cddm/_core_nb.py:_cross_sum_fft", "cddm/_core_nb.py:_cross_sum_complex_fft"]}
{"id": "C11", "title": "Default output length loses no pair", "statement": "When n is omitted the output is exactly long enough: every pair of frames contributes to some delay, so the counts add up to N1*N2 (cross) or N(N+1)/2 (auto), and the largest delay actually occurs.", "quantifier": "all non-empty time stamp arrays", "why_tests_cant": "The length formula 1+max(t2max-t1min, t1max-t2min) must be right for every relative position of two time ranges.", "anchors": ["cddm/core.py:_determine_full_length_cross", "cddm/core.py:_determine_full_length_auto", "cddm/core.py:cross_count", "cddm/core.py:auto_count"]}
{"id": "C12", "title": "Accumulating into aout is additive", "statement": "Calling a correlation function with aout adds to it exactly what a fresh call of the same length would return; hence processing two disjoint blocks of frames in sequence (all block pairs) gives the same arrays as one call on the concatenated data, in any order.", "quantifier": "all signals, splits of the signals, time stamps, prior outputs", "why_tests_cant": "Chunked processing relies on it for all splits.", "anchors": ["cddm/core.py:ccorr", "cddm/core.py:cross_correlate", "cddm/core.py:_default_out"]}
{"id": "C13", "title": "Correlation depends only on time differences and not on frame order", "statement": "Shifting all time stamps of both streams by one constant, or reordering frames together with their time stamps, changes nothing in correlation, difference, sum or count output; exchanging the two streams leaves the real output unchanged and conjugates and reverses the complex one.", "quantifier": "all signals, time stamps, shifts, permutations", "why_tests_cant": "Invariance under all permutations and shifts.", "anchors": ["cddm/core.py:cross_correlate", "cddm/core.py:cross_difference", "cddm/core.py:_inspect_cross_arguments"]}
{"id": "C14", "title": "Difference equals squares minus twice the correlation", "statement": "At every delay cross_difference = (cross_sum of |f1|^2 + cross_sum of |f2|^2) - 2*cross_correlate, and auto_difference = 2*(auto_sum of |f|^2) - 2*auto_correlate for distinct times, for regular and irregular data.", "quantifier": "all signals, distinct time stamps for auto, all n, delays", "why_tests_cant": "Links four independent loops for all inputs; the normalization code relies on it.", "anchors": ["cddm/core.py:ccorr", "cddm/core.py:acorr", "cddm/core.py:cross_difference", "cddm/core.py:auto_sum"]}
{"id": "C15", "title": "Real output is the folded complex output", "statement": "For every n, real cross_correlate[0] = Re complex[0] and real[k] = Re complex[k] + Re complex[-k] for 1<=k<n; real auto_correlate = Re of complex auto_correlate; the same folding relates real and complex counts.", "quantifier": "all signals, time stamps, n, delays", "why_tests_cant": "Two different kernels must agree on all inputs.", "anchors": ["cddm/_core_nb.py:_cross_corr", "cddm/_core_nb.py:_cross_corr_complex", "cddm/_core_nb.py:_auto_corr_complex"]}
{"id": "C16", "title": "Auto-correlation is the one-stream special case of cross-correlation", "statement": "For distinct times, cross_correlate(f,f,t,t)[0] = auto_correlate(f,t)[0] and cross_correlate(f,f,t,t)[k] = 2*auto_correlate(f,t)[k] for k>=1; counts obey the same relation, so normalised curves agree. auto_sum[k] is the sum of (f_i+f_j)/2 over unordered pairs at distance k.", "quantifier": "all signals, all distinct time stamps, all delays", "why_tests_cant": "Equality over all inputs; and it is false when times repeat, which no test exercises.", "anchors": ["cddm/core.py:auto_correlate", "cddm/core.py:cross_correlate", "cddm/core.py:auto_sum", "cddm/core.py:auto_count"]}
{"id": "C17", "title": "Thread-layout kernels equal the per-pixel kernels", "statement": "The vectorised (frame x pixel) kernels give, for each pixel, exactly the per-pixel result, so the align/thread_divisor choice cannot change the data.", "quantifier": "all frame stacks of any pixel count, all time stamps, all n", "why_tests_cant": "Choice of memory layout must be unobservable for every shape.", "anchors": ["cddm/_core_nb.py:_cross_corr_vec", "cddm/_core_nb.py:_cross_corr_complex_vec", "cddm/_core_nb.py:_auto_corr_vec", "cddm/_core_nb.py:_cross_diff_vec", "cddm/_core_nb.py:_cross_sum_vec"]}
{"id": "C18", "title": "ccorr/acorr argument handling", "statement": "ccorr refuses exactly: one of t1/t2 without the other, streams of different shape, an unknown method, a norm outside the supported set for its method; otherwise it returns a tuple whose sum fields are present exactly when the requested norm needs them.", "quantifier": "all argument combinations (method, norm, complex, time stamps, aout)", "why_tests_cant": "Decision table with an unbounded norm argument and interacting flags.", "anchors": ["cddm/core.py:ccorr", "cddm/core.py:acorr", "cddm/core.py:_default_norm", "cddm/core.py:_default_method", "cddm/core.py:_inspect_cross_arguments"]}
{"id": "C19", "title": "ccorr(method='fft') and ccorr(method='corr') return the same tuple", "statement": "Data, count, squares and tau-sums returned by the two methods are equal for every supported norm, so switching the method never changes the normalised result; method='diff' with mode='corr' normalisation equals the structured norm of method='corr'.", "quantifier": "all signals, distinct times, n, supported norms", "why_tests_cant": "Whole-tuple equality for all inputs.", "anchors": ["cddm/core.py:ccorr", "cddm/core.py:acorr"]}
{"id": "C20", "title": "Normalization strings and flags always decode to a supported norm", "statement": "norm_from_string and norm_flags return only values in {1,2,3,5,6,7,9,10,11,13,14,15}; a string is the bitwise OR of its parts regardless of order, case, blanks and repetition, with 'standard' added when neither standard nor structured is named; unknown parts raise ValueError.", "quantifier": "all strings and all flag combinations", "why_tests_cant": "Infinite input space of strings; the OR/default interplay is easy to get wrong for some combination.", "anchors": ["cddm/norm.py:norm_from_string", "cddm/norm.py:norm_flags"]}
{"id": "C21", "title": "Subtracted normalization equals correlating background-free data", "statement": "normalize with the subtracted norm applied to raw correlation data gives at every delay with non-zero count exactly the mean of Re(conj(f1-bg1)*(f2-bg2)) over the pairs at that delay (complex: without Re).", "quantifier": "all signals, backgrounds, time stamps, delays", "why_tests_cant": "Algebraic identity over all data; tests check it on random samples to tolerance.", "anchors": ["cddm/norm.py:normalize", "cddm/_core_nb.py:_normalize_corr_subtracted_real", "cddm/_core_nb.py:_normalize_corr_subtracted_complex"]}
{"id": "C22", "title": "Structured normalization is variance minus half the mean squared difference", "statement": "normalize with the structured norm gives var - (1/2)*mean|b-a|^2 + (1/2)|bg1-bg2|^2, with structured|subtracted the same for background-free data, hence never exceeds the variance offset; real and complex variants agree in the real part.", "quantifier": "all signals, backgrounds, variances, delays with non-zero count", "why_tests_cant": "Inequality and identity over all real data.", "anchors": ["cddm/norm.py:normalize", "cddm/_core_nb.py:_normalize_struct_baseline_real", "cddm/_core_nb.py:_normalize_struct_subtracted_real", "cddm/_core_nb.py:_normalize_struct_subtracted_complex"]}
{"id": "C23", "title": "Difference-mode and correlation-mode normalization agree", "statement": "Normalising method='diff' data in mode='corr' gives the same curve as normalising method='corr' data of the same frames with the structured norm (plain and subtracted), and converting corr->diff->corr with one offset is the identity.", "quantifier": "all signals, backgrounds, variances, delays with non-zero count", "why_tests_cant": "Identity across two code paths for all inputs.", "anchors": ["cddm/norm.py:_normalize_cdiff_1", "cddm/norm.py:_normalize_cdiff_3", "cddm/norm.py:_diff2corr", "cddm/norm.py:_corr2diff", "cddm/norm.py:normalize"]}
{"id": "C24", "title": "Compensated normalization does not depend on the background", "statement": "The compensated norms return the covariance of the paired frames about their per-delay means: adding any constants to f1 and f2 leaves the result unchanged, and compensated structured never exceeds the variance offset.", "quantifier": "all signals, constant offsets, delays with non-zero count", "why_tests_cant": "Invariance under all offsets.", "anchors": ["cddm/_core_nb.py:_normalize_corr_compensated_real", "cddm/_core_nb.py:_normalize_struct_compensated_real", "cddm/norm.py:normalize"]}
{"id": "C25", "title": "The automatic weight is the optimal weight", "statement": "For every correlation value g and asymmetry delta the weight returned by weight_from_g minimises the error estimate sigma_weighted over all weights, is uniquely optimal, lies in [-1,1] (in [0,1] for g>=0); weight_prime_from_g minimises sigma_prime_weighted in the same sense.", "quantifier": "all real g, delta, b1, b2, and all competing weights w", "why_tests_cant": "Minimality against a continuum of competitors.", "anchors": ["cddm/_core_nb.py:weight_from_g", "cddm/_core_nb.py:weight_prime_from_g", "cddm/_core_nb.py:sigma_weighted", "cddm/_core_nb.py:sigma_prime_weighted"]}
{"id": "C26", "title": "Weighted normalization interpolates between standard and structured", "statement": "weighted_sum(x,y,w) lies between x and y for w in [0,1], equals x at 1 and y at 0, and weighting a curve with itself changes nothing; complex data are combined componentwise.", "quantifier": "all x, y, w in [0,1]", "why_tests_cant": "Universal over reals.", "anchors": ["cddm/_core_nb.py:weighted_sum", "cddm/norm.py:normalize"]}
{"id": "C27", "title": "The error estimate is a real number for physical data", "statement": "With g = cov/scale and delta from the two variances, where |cov|^2 <= v1*v2, the argument of the square root in sigma_weighted at the optimal weight is never negative.", "quantifier": "all covariances and variances satisfying Cauchy-Schwarz", "why_tests_cant": "A square root of a negative number appears only at special inputs; universal inequality.", "anchors": ["cddm/_core_nb.py:sigma_weighted", "cddm/norm.py:noise_delta", "cddm/norm.py:scale_factor"]}
{"id": "C28", "title": "normalize rejects what it cannot compute", "statement": "normalize raises ValueError for a norm the data tuple cannot support (missing squares or sums), for missing variance/background where needed, for unknown mode, and never silently returns a result computed from absent data.", "quantifier": "all combinations of present/absent tuple fields, norms, background, variance, mode", "why_tests_cant": "Decision table over all combinations including every integer norm.", "anchors": ["cddm/norm.py:normalize", "cddm/norm.py:_norm_from_ccorr_data", "cddm/norm.py:_norm_from_cdiff_data", "cddm/norm.py:_default_norm_from_data", "cddm/norm.py:_method_from_data"]}
{"id": "C29", "title": "Folding, equalising and shifting complex correlation data", "statement": "fold_data(mode=0) returns the average of value and conjugated mirror value at each non-negative delay, mode=1 the positive branch, mode=-1 the negative branch (mirror delay k at index k); equalize_data returns Hermitian-symmetric data; take_data keeps the requested pixels.", "quantifier": "all complex correlation arrays of odd length 2n-1, all delays", "why_tests_cant": "Index reversal errors appear for particular lengths; there is no test of mode -1.", "anchors": ["cddm/norm.py:fold_data", "cddm/norm.py:equalize_data", "cddm/norm.py:shift_data", "cddm/norm.py:take_data"]}
{"id": "C30", "title": "Streaming binning equals block averages", "statement": "While frames arrive one at a time, the level-j buffer of the iterative multiple-tau algorithm always holds, at position b modulo the buffer length, the mean of frames b*2^j ... (b+1)*2^j-1 for the most recent complete blocks b; older buffer content is never overwritten before the half-buffer has been correlated.", "quantifier": "all frame sequences of any length, all numbers of levels, all even buffer lengths, every moment in the stream", "why_tests_cant": "Ring-buffer invariant over unbounded histories.", "anchors": ["cddm/multitau.py:_add_data1", "cddm/multitau.py:_add_data2"]}
{"id": "C31", "title": "Chunked 'full' correlation equals the un-chunked one", "statement": "Processing frames in chunks and adding, for each chunk, its correlation with itself and with the previous chunk (both orders) gives at every delay smaller than n exactly the correlation and count of the whole sequence, if frames further apart than one chunk are further apart in time than n; that holds for regular data and for data with one frame per period when n <= period*chunk.", "quantifier": "all frame sequences, chunk sizes, numbers of chunks, time stamps with the stated spacing, delays below n", "why_tests_cant": "All chunkings and sequence lengths.", "anchors": ["cddm/multitau.py:_compute_multi_iter", "cddm/core.py:iccorr", "cddm/core.py:iacorr"]}
{"id": "C32", "title": "'chunk' mode is the sum of independent chunk results", "statement": "With mode='chunk' the result is the sum over consecutive chunks of the correlation of each chunk with itself; no cross-chunk pair contributes, so each count is at most that of mode='full'.", "quantifier": "all frame sequences, chunk sizes, delays", "why_tests_cant": "All chunkings.", "anchors": ["cddm/multitau.py:_compute_multi_iter"]}
{"id": "C33", "title": "How many frames are processed, and failure on short input", "statement": "The iterative algorithm processes exactly nframes = c*2^k frames where c is the chunk size and k maximal with nframes <= count (so nframes > count/2), consumes at most one frame more from the iterator, and raises ValueError exactly when the iterator ends before nframes frames; the default chunk size is always between level_size and count.", "quantifier": "all counts, chunk sizes, level sizes and iterator lengths", "why_tests_cant": "Loops computing powers of two over unbounded integers.", "anchors": ["cddm/multitau.py:_get_frames", "cddm/multitau.py:_default_chunk_size", "cddm/multitau.py:_compute_multi_iter"]}
{"id": "C34", "title": "Iterative multiple-tau equals in-memory multiple-tau", "statement": "iccorr_multi/iacorr_multi(mode='full') produce the same fast data, the same slow levels and counts as ccorr_multi/acorr_multi on the same (first nframes) frames for mean binning.", "quantifier": "all frame sequences, level sizes, chunk sizes, delays", "why_tests_cant": "Documented identity between a streaming and a batch algorithm for all inputs.", "anchors": ["cddm/multitau.py:iccorr_multi", "cddm/multitau.py:ccorr_multi", "cddm/multitau.py:_compute_multi", "cddm/multitau.py:_compute_multi_iter"]}
{"id": "C35", "title": "BINNING_FIRST selects the same frames in both algorithms", "statement": "With binning=0 the iterative and in-memory multiple-tau algorithms keep the same frame of each pair.", "quantifier": "all frame sequences and levels", "why_tests_cant": "Existing test uses a count small enough that the streaming selection is never exercised.", "anchors": ["cddm/multitau.py:slice_data", "cddm/multitau.py:_add_data1", "cddm/multitau.py:_add_data2"]}
{"id": "C36", "title": "Passing the default number of levels explicitly changes nothing", "statement": "iccorr_multi(nlevel=None) and iccorr_multi(nlevel=L), where L is the number of levels the default computes, produce the same slow data.", "quantifier": "all counts, chunk sizes and level sizes", "why_tests_cant": "Depends on arithmetic relations between count, chunk size and level size.", "anchors": ["cddm/multitau.py:_compute_multi_iter"]}
{"id": "C37", "title": "Complex iterative auto-correlation includes cross-chunk pairs", "statement": "iacorr(complex=True, mode='full') equals acorr(complex=True): pairs whose frames fall in different chunks contribute at their positive delay.", "quantifier": "all frame sequences longer than one chunk", "why_tests_cant": "Only visible for complex data that span more than one chunk.", "anchors": ["cddm/multitau.py:_compute_multi_iter", "cddm/core.py:iacorr"]}
{"id": "C38", "title": "In-memory slow levels are block averages of sufficient length", "statement": "Level j of ccorr_multi is the correlation of the signal averaged over consecutive blocks of 2^(j+1) frames, an incomplete trailing block is dropped, and for the automatically chosen number of levels every level has at least level_size samples (so no delay is read out of bounds).", "quantifier": "all signal lengths, level sizes >= 5, levels", "why_tests_cant": "Integer division chains over all lengths.", "anchors": ["cddm/multitau.py:_compute_multi", "cddm/multitau.py:_determine_lengths", "cddm/multitau.py:mean_data", "cddm/multitau.py:slice_data"]}
{"id": "C39", "title": "Statistics returned by the iterators are mean and variance of the processed frames", "statement": "The background and variance returned by iccorr/iacorr equal the mean and the mean squared deviation of all processed frames, computed from running sums over half-chunks; the variance is never negative.", "quantifier": "all frame sequences and chunk sizes", "why_tests_cant": "Running-sum identity over all histories.", "anchors": ["cddm/multitau.py:_calc_stats", "cddm/multitau.py:_compute_multi_iter", "cddm/core.py:stats"]}
{"id": "C40", "title": "auto_background subtracts one fixed background from every frame", "statement": "With auto_background=True the result equals running the same algorithm with auto_background=False on the frames minus the mean of the first half-chunk, including the frames that were buffered before the background was known.", "quantifier": "all frame sequences and chunk sizes", "why_tests_cant": "Retroactive rewriting of buffers; all levels and histories.", "anchors": ["cddm/multitau.py:_calculate_background", "cddm/multitau.py:_remove_background", "cddm/multitau.py:_compute_multi_iter"]}
{"id": "C41", "title": "Triangular kernel is a normalised average", "statement": "triangular_kernel(n) has 2^(n+1)-1 positive entries, is symmetric, unimodal, and sums to exactly 1.", "quantifier": "all n", "why_tests_cant": "All sizes.", "anchors": ["cddm/multitau.py:triangular_kernel"]}
{"id": "C42", "title": "Log-averaging levels are triangular averages at the stated times", "statement": "multilevel(data, size) with mean binning: level l, entry j equals the triangular-weighted average of the data around time j*2^l whenever that window lies inside the data, entry 0 is data[0]; with first-binning it is exactly data[j*2^l]; the [1/4,1/2,1/4] filter's length assertion can never fail; the last level fits in `size`; missing entries are NaN and nothing else.", "quantifier": "all data lengths, sizes, levels and indices", "why_tests_cant": "Induction over levels; all lengths.", "anchors": ["cddm/multitau.py:multilevel", "cddm/_core_nb.py:convolve"]}
{"id": "C43", "title": "Merged log-spaced time axis is strictly increasing and matches its data", "statement": "merge_multilevel (mode full or half, even size) returns strictly increasing times, and each returned value is the level entry whose time is j*2^level; odd size raises ValueError; for first-binning log_average returns y = data[x] at every non-NaN point.", "quantifier": "all numbers of levels and all even sizes", "why_tests_cant": "All shapes.", "anchors": ["cddm/multitau.py:merge_multilevel", "cddm/multitau.py:log_average"]}
{"id": "C44", "title": "log_merge produces a strictly increasing time axis", "statement": "log_merge of multiple-tau output returns strictly increasing delay times, each valid data point having its own delay; t_multilevel gives the same times as merge.", "quantifier": "all periods, level sizes, numbers of levels", "why_tests_cant": "Holds only for particular arithmetic of the period; tests use period 1.", "anchors": ["cddm/multitau.py:log_merge", "cddm/multitau.py:t_multilevel", "cddm/multitau.py:_period_from_data"]}
{"id": "C45", "title": "Median filter returns true medians", "statement": "median returns for each interior sample the middle one of the three neighbours' values, leaves the ends, agrees with the slow reference implementation, only returns values present in the input, and is safe in place.", "quantifier": "all real sequences of length >= 3", "why_tests_cant": "Branching comparison network over all orderings and ties.", "anchors": ["cddm/_core_nb.py:_median", "cddm/_core_nb.py:_median_slow", "cddm/_core_nb.py:median"]}
{"id": "C46", "title": "Smoothing keeps bounds and constants", "statement": "convolve keeps the end points, maps affine sequences to themselves, is linear, keeps all values within the minimum and maximum of the input; denoise keeps them too for any number of passes.", "quantifier": "all sequences of length >= 3, any number of passes", "why_tests_cant": "All sequences and iteration counts.", "anchors": ["cddm/_core_nb.py:convolve", "cddm/avg.py:denoise"]}
{"id": "C47", "title": "Monotone filters return monotone output anchored at the first sample", "statement": "decreasing returns the running minimum (non-increasing, first sample kept); increasing returns the running maximum (non-decreasing, first sample kept). Output depends only on the input.", "quantifier": "all finite real sequences", "why_tests_cant": "Uninitialised output shows up only by luck.", "anchors": ["cddm/_core_nb.py:decreasing", "cddm/_core_nb.py:increasing"]}
{"id": "C48", "title": "Interpolation is exact at nodes and for straight lines", "statement": "interpolate(x_new,x,y) returns y[j] at x_new = x[j], reproduces any straight line everywhere including extrapolation, and stays between neighbouring nodes inside the range; log_interpolate is exact at nodes when x starts 0,1.", "quantifier": "all strictly increasing node sequences (>= 2 nodes) and all query points", "why_tests_cant": "Loop with early exit and extrapolation; all queries.", "anchors": ["cddm/_core_nb.py:interpolate", "cddm/_core_nb.py:_log_interpolate"]}
{"id": "C49", "title": "Half-space / full-space FFT conversion round trip", "statement": "as_rfft2_conj(a)[i,j] = a[-i,-j] for j > 0, and column 0, which the half space already holds, is marked invalid; from_rfft2_data(as_rfft2_data(f), shape) = f for every Hermitian-symmetric f of even or odd shape; as_fft2_shape recovers the full width.", "quantifier": "all array shapes and contents", "why_tests_cant": "Slicing with reversed and negative strides: correctness for even/odd sizes and size 1,2.", "anchors": ["cddm/map.py:as_rfft2_conj", "cddm/map.py:as_rfft2_data", "cddm/map.py:from_rfft2_data", "cddm/map.py:as_fft2_shape", "cddm/map.py:as_rfft2_mask"]}
{"id": "C50", "title": "Cropping an FFT keeps the right frequencies", "statement": "rfft2_crop/fft2_crop return, for every wave vector with |ki|<=kimax, |kj|<=kjmax, the input value at that wave vector, initialise every output cell, and raise ValueError for cutoffs larger than the data.", "quantifier": "all array shapes, cutoffs (including 0) and contents", "why_tests_cant": "Negative-index slices degenerate at cutoff 0; output memory is uninitialised before.", "anchors": ["cddm/fft.py:rfft2_crop", "cddm/fft.py:fft2_crop", "cddm/fft.py:_determine_cutoff_indices"]}
{"id": "C51", "title": "Sector index map assigns each wave vector to at most one bin", "statement": "sector_indexmap / fft2_sector_indexmap give every wave vector in the sector (a given full opening angle around a direction, both treated modulo 180 or 360 degrees) the index of the k-ring containing it and -1 to all others; bins are disjoint and the zero wave vector is always in bin 0.", "quantifier": "all k-maps, angles, sector widths, k steps", "why_tests_cant": "Angle wrap-around at the +-180 boundary.", "anchors": ["cddm/map.py:sector_indexmap", "cddm/map.py:fft2_sector_indexmap"]}
{"id": "C52", "title": "k_select works for one k and for many", "statement": "k_select(data,phi,k=...) with a single k returns (k,data), with a list yields those pairs; conjugated half-plane entries are conjugated; computed_mask is respected.", "quantifier": "all data shapes, k values and masks", "why_tests_cant": "Error path hidden by a caught TypeError.", "anchors": ["cddm/map.py:k_select", "cddm/map.py:_k_select_real", "cddm/map.py:_k_select_complex"]}
{"id": "C53", "title": "Mirror boundary maps every coordinate into the box", "statement": "mirror(x,x0,x1) terminates for x0<x1 and returns the unique point of [x0,x1) congruent to x modulo x1-x0; hence every coordinate yielded by brownian_walk stays in the simulation box for all random increments.", "quantifier": "all coordinates, boxes, random histories", "why_tests_cant": "Unbounded loop; unbounded histories.", "anchors": ["cddm/_sim_nb.py:mirror", "cddm/sim.py:brownian_walk"]}
{"id": "C54", "title": "Particle rendering stays inside the image and wraps periodically", "statement": "draw_psf adds intensity only inside the image, at pixel indices congruent to the true ones, whenever the psf is not larger than the image; total added intensity does not depend on particle position.", "quantifier": "all particle positions in the box, image and psf sizes", "why_tests_cant": "Out-of-bounds writes in compiled code.", "anchors": ["cddm/_sim_nb.py:draw_psf", "cddm/_sim_nb.py:draw_points"]}
{"id": "C55", "title": "ADC conversion saturates and is monotone", "statement": "Simulated ADC output lies in [0, 2^bits-1], is monotone in the input, and equals the scaled input inside the range.", "quantifier": "all input frames, saturation levels, offsets, bit depths", "why_tests_cant": "All inputs including negative and overflowing ones.", "anchors": ["cddm/sim.py:adc", "cddm/_sim_nb.py:adc_clean"]}
{"id": "C56", "title": "Random trigger times respect the minimum spacing", "statement": "create_random_time yields strictly increasing times, at least dt_min apart, one per interval of n ticks; create_random_times1/2 return one pair per period, both within their own period.", "quantifier": "all random outcomes, n, dt_min <= n, numbers of frames", "why_tests_cant": "All outcomes of a random process.", "anchors": ["cddm/sim.py:create_random_time", "cddm/sim.py:create_random_times1", "cddm/sim.py:create_random_times2"]}
{"id": "C57", "title": "data_trigger yields exactly the requested items", "statement": "data_trigger(data, indices) yields data[i] for the distinct requested non-negative indices in increasing order, up to the end of data.", "quantifier": "all data sequences and index sets", "why_tests_cant": "All index multisets.", "anchors": ["cddm/sim.py:data_trigger"]}
{"id": "C58", "title": "Dual-camera simulation pairs the right frames", "statement": "particles_video with trigger times t1,t2 yields as its k-th pair the frames rendered at t1[k] and t2[k], for all trigger times where each pair is complete before the next begins; the times from create_random_times1/2 satisfy this.", "quantifier": "all trigger sequences with that property, all coordinate streams", "why_tests_cant": "State machine over all trigger interleavings.", "anchors": ["cddm/sim.py:particles_video", "cddm/sim.py:create_random_times1"]}
{"id": "C59", "title": "Video to array and back", "statement": "asarrays(fromarrays(arrays), count) = arrays when count is the number of frames; with fewer frames than count the missing rows are never presented as data; with more, an error is raised rather than silent truncation.", "quantifier": "all numbers of arrays, frames and counts", "why_tests_cant": "Uninitialised rows look plausible in tests.", "anchors": ["cddm/video.py:asarrays", "cddm/video.py:fromarrays", "cddm/video.py:asmemmaps", "cddm/video.py:load"]}
{"id": "C60", "title": "Frame-wise arithmetic on videos", "statement": "subtract/add/multiply combine the i-th frames of two videos, stop at the shorter one, raise ValueError at the first frame whose number of cameras differs (after yielding all earlier frames), and add undoes subtract.", "quantifier": "all videos", "why_tests_cant": "All lengths and mismatch positions.", "anchors": ["cddm/video.py:subtract", "cddm/video.py:add", "cddm/video.py:multiply"]}
{"id": "C61", "title": "Threaded video delivers every frame once and in order", "statement": "threaded(video) and play_threaded(video) yield exactly the frames of video in order, for every interleaving of reader thread and consumer, and terminate.", "quantifier": "all schedules of the two threads, all videos", "why_tests_cant": "All interleavings.", "anchors": ["cddm/video.py:threaded", "cddm/video.py:play_threaded"]}
{"id": "C62", "title": "Displaying frames never changes, drops or blocks the stream", "statement": "play/show_video/show_diff yield all frames unchanged whatever the timing of the display; the display queue never overflows and never raises.", "quantifier": "all videos, clock readings and schedules", "why_tests_cant": "All timings.", "anchors": ["cddm/video.py:play", "cddm/video.py:show_video", "cddm/video.py:show_diff"]}
{"id": "C63", "title": "Nested print suppression restores the level", "statement": "After any properly nested sequence of disable_prints/enable_prints the verbosity level is the original one, and nothing is printed inside a disabled region.", "quantifier": "all nestings, all initial levels", "why_tests_cant": "All histories.", "anchors": ["cddm/print_tools.py:disable_prints", "cddm/print_tools.py:enable_prints", "cddm/conf.py:set_verbose"]}
{"id": "C64", "title": "Selected FFT library is always an installed one", "statement": "After any sequence of set_fftlib/set_rfft2lib/set_showlib/set_verbose calls the configured library is installed, an invalid name raises and leaves the configuration unchanged, and each setter returns the previous value so that it can be restored.", "quantifier": "all call histories and installation situations", "why_tests_cant": "All histories times all installation subsets.", "anchors": ["cddm/conf.py:set_fftlib", "cddm/conf.py:set_rfft2lib", "cddm/conf.py:set_showlib", "cddm/fft.py:_fft"]}
{"id": "C65", "title": "Window functions are valid apodisation windows", "statement": "blackman, hann, tukey and gaussian return values in [0,1], symmetric under both image flips, zero outside the inscribed ellipse (not gaussian), tukey(alpha=1)=hann, tukey is 1 inside radius 1-alpha; invalid parameters raise ValueError.", "quantifier": "all image shapes, parameters and pixels", "why_tests_cant": "Real inequality on all pixels.", "anchors": ["cddm/window.py:blackman", "cddm/window.py:tukey", "cddm/window.py:hann", "cddm/window.py:gaussian"]}
{"id": "C66", "title": "Thread reshaping is invertible", "statement": "reshape_output(f(reshape_input(x, thread_divisor, mask))) has the original frame shape, every pixel holds its own result and masked-out pixels are NaN; thread_frame_shape keeps the number of pixels or raises ValueError.", "quantifier": "all frame shapes, divisors and masks", "why_tests_cant": "Shape arithmetic for 1-D, 2-D, 3-D frames.", "anchors": ["cddm/core.py:thread_frame_shape", "cddm/core.py:reshape_input", "cddm/core.py:reshape_output", "cddm/core.py:reshape_frame"]}
{"id": "C67", "title": "iccorr/iacorr work with their default arguments", "statement": "Calling iccorr(data,...) or iacorr(data,...) without optional arguments computes the correlation.", "quantifier": "all data iterators", "why_tests_cant": "Default-argument path is not exercised by tests.", "anchors": ["cddm/core.py:iccorr", "cddm/core.py:iacorr", "cddm/core.py:_default_norm"]}
{"id": "C68", "title": "Video viewer shows the selected frame", "statement": "In VideoViewer, for list-like input the displayed frame is the one selected by the slider; for generator input moving forward shows the frame with the selected index and moving backward leaves the display unchanged.", "quantifier": "all slider histories and videos", "why_tests_cant": "All histories.", "anchors": ["cddm/viewer.py:VideoViewer"]}
{"id": "C69", "title": "Norm check-boxes keep the viewer in a supported state", "statement": "The norm selected through CorrViewer check-boxes is always one supported by the loaded data; rejected combinations leave the norm unchanged.", "quantifier": "all click histories and data tuples", "why_tests_cant": "All histories.", "anchors": ["cddm/viewer.py:CorrViewer", "cddm/norm.py:_default_norm_from_data"]}
{"id": "C70", "title": "Weighted normalization does not depend on the scale flag", "statement": "For every norm, weighted or not, normalize(scale=True) returns the curve of normalize(scale=False) divided by the scale factor, with the same weight.", "quantifier": "all data tuples, backgrounds, non-zero variances (one or two), norms, modes", "why_tests_cant": "Two code paths related by a scaling, over all data and variance pairs; the deviation needs two different variances.", "anchors": ["cddm/norm.py:normalize", "cddm/norm.py:noise_delta", "cddm/norm.py:weight_from_data"]}
{"id": "C71", "title": "Aligned correlation data are left alone by equalize_data and shift_data", "statement": "equalize_data and shift_data remove the phase shift caused by misalignment (docstrings): data without misalignment, i.e. delay 0 a non-negative number and delay -k the conjugate of delay k, are returned unchanged.", "quantifier": "all Hermitian-symmetric complex correlation arrays of odd length", "why_tests_cant": "Branch and sign of a complex root depend on the phase of each value; universal over phases.", "anchors": ["cddm/norm.py:equalize_data", "cddm/norm.py:shift_data"]}
{"id": "C72", "title": "Cells and counts of the slow levels of complex in-memory multiple tau", "statement": "In ccorr_multi/acorr_multi with complex data every slow level has as many counts as correlation cells, and a level of size n has 2n-1 (two-sided) cells like the fast part.", "quantifier": "all complex data, level sizes, chunk sizes, frame counts", "why_tests_cant": "Shapes depend on level size, level count and data kind; shipped tests use real data or only the default level size.", "anchors": ["cddm/multitau.py:_compute_multi", "cddm/multitau.py:ccorr_multi"]}
{"id": "C73", "title": "Effective counts follow the averaging of the data", "statement": "multilevel_count has the same levels and the same missing cells as multilevel of data of that length; a cell averaged with the triangular kernel of half-width 2^l holds the averaged count times the effective number of averaged cells (sum w c)^2 / sum (w c)^2, cells that are not averaged hold the count itself; log_average_count returns these on the time axis of log_average.", "quantifier": "all positive count arrays, level sizes, binning modes", "why_tests_cant": "Convolution boundaries and kernel position depend on the relation of kernel and data lengths; the code fails only when the kernel is longer than the data.", "anchors": ["cddm/multitau.py:multilevel_count", "cddm/multitau.py:log_average_count"]}
{"id": "C74", "title": "Multi-tau count arrays belong to the multi-tau data", "statement": "ccorr_multi_count and acorr_multi_count have the shape of the data computed by ccorr_multi and acorr_multi of the same number of frames, and (without averaging) hold the number of pairs of each cell; log_merge_count uses the time axis of log_merge.", "quantifier": "all numbers of frames, periods, level sizes, binning modes", "why_tests_cant": "Shapes depend on rounding of logarithms of the frame count; the shipped test only checks a power of two.", "anchors": ["cddm/multitau.py:ccorr_multi_count", "cddm/multitau.py:acorr_multi_count", "cddm/multitau.py:log_merge_count"]}
{"id": "C75", "title": "FFT of a video gives the Fourier components of every frame", "statement": "rfft2_video and fft2_video deliver, for every frame of every multi-frame and every wave vector within the cutoffs, the exact Fourier component sum of x[p,q] exp(-2 pi i (a p/h + b q/w)); the FFT library selected does not matter, and the half-space result determines the full-space one.", "quantifier": "all videos, frame shapes, cutoffs and libraries", "why_tests_cant": "Tests compare a few frames and one installed library; the statement quantifies over all frames and the four libraries.", "anchors": ["cddm/fft.py:_fft2", "cddm/fft.py:_rfft2", "cddm/fft.py:rfft2_video", "cddm/fft.py:fft2_video"]}
{"id": "C76", "title": "Normalizing frames to their intensity", "statement": "normalize_video makes the mean of every frame one and normalize_fft makes the [0,0] component one; the result does not depend on a factor in the frames, and normalizing before or after the FFT is the same up to the number of pixels. Frames with zero mean give no finite value.", "quantifier": "all frames and shapes", "why_tests_cant": "Quantifies over all real and complex frames.", "anchors": ["cddm/video.py:normalize_video", "cddm/fft.py:normalize_fft"]}
{"id": "C77", "title": "DLS-like imaging is a windowed Fourier component", "statement": "dls returns at each pixel the frame convolved (periodically) with the window times the plane wave of kvec, so that only light of the wave vector kvec passes, with the resolution set by the window; with cutoffs the Fourier components of the result are those of the frame times those of the kernel.", "quantifier": "all frames, windows, wave vectors and cutoffs", "why_tests_cant": "An identity of transforms over all frames and windows.", "anchors": ["cddm/fft.py:dls", "cddm/fft.py:_build_kf", "cddm/fft.py:_build_kernel", "cddm/fft.py:_convolve_fft", "cddm/fft.py:dls_video"]}
{"id": "C78", "title": "Mean, variance and background of a data set", "statement": "stats returns for every pixel the mean and the (population) variance along the chosen axis, of one or of two data sets; the variance is the smallest mean square distance from any constant, attained at the mean only, and zero exactly for constant signals. subtract_background subtracts the given background or the mean of each pixel; afterwards the mean is zero, the variance unchanged, and subtracting again changes nothing. With these statistics the scaled auto-correlation of every non-constant signal starts at one and the scaled difference at zero.", "quantifier": "all data arrays, axes, backgrounds, time stamps and methods", "why_tests_cant": "Identities of sums over all data of all lengths.", "anchors": ["cddm/core.py:stats", "cddm/core.py:subtract_background"]}
{"id": "C79", "title": "Normalization of multiple tau data", "statement": "normalize_multi normalises the linear part and every level of multiple tau data separately and with the same norm, background, variance, mode and scaling, the norm being the one determined from the linear part (a number, a string, or the default). Applied to the output of ccorr_multi or acorr_multi with averaging (BINNING_MEAN) and a norm that is not weighted, delay k of level j is the formula of the norm - mean product, mean square distance, with subtraction of the background or of the means - taken over all pairs of original samples out of two blocks of 2^(j+1) samples at block distance k; the linear part is the same formula over pairs of single samples. With BINNING_FIRST it is the formula over the pairs of first frames of the blocks. Structured norms of subtracted or compensated data never exceed the variance in any level. A norm the data do not support, a missing background or variance or an unknown mode give ValueError.", "quantifier": "for all signals, time stamps, level sizes, periods, norms of the data, methods corr/fft, backgrounds, variances, norms and, for the separation into parts, for all data tuples of equal form", "why_tests_cant": "The existing tests compare multiple tau with plain correlation for a few random arrays; that each slow cell is exactly the chosen norm's formula over all the fine pairs of two blocks holds only by an algebraic identity for every signal, level and norm.", "anchors": ["cddm/multitau.py:normalize_multi", "cddm/norm.py:normalize", "cddm/multitau.py:ccorr_multi", "cddm/multitau.py:acorr_multi"]}
{"id": "C80", "title": "Camera noise estimates", "statement": "noise_level(window, I) is the mean square fluctuation of every Fourier component of the windowed frames when the camera noise is photon noise (uncorrelated pixels, variance equal to the intensity I); it scales with the square of a constant multiplying the image and linearly with the light. noise_mean is the number of [0,1] nearest to 1 - g(0), the same for the correlation and for the difference representation of normalised data; empty data give IndexError, another mode ValueError.", "quantifier": "all windows, frame sizes, finite noise distributions, wave vectors; all data, scale factors and modes", "why_tests_cant": "The noise level is a statement about expectations over all noise distributions and all Fourier components; a test sees samples only.", "anchors": ["cddm/norm.py:noise_level", "cddm/norm.py:noise_mean"]}
{"id": "C81", "title": "Weights for data with background", "statement": "weight_prime_from_data denoises the curve, makes it monotone, clips it to the physical range and denoises it again; the resulting scaled curve lies in [0,1], never rises, starts at the clipped first value, and each weight is that of weight_prime_from_g there, which for equal variances is the only one with the smallest sigma_prime_weighted. The difference representation of the data gives the same weights; without pre_filter the weights are those at the scaled data; another mode gives ValueError.", "quantifier": "all real curves of at least three samples, backgrounds, deltas and positive scale factors", "why_tests_cant": "Monotonicity, range and optimality hold for every curve only by a proof about the filters; the dependence on uninitialised memory in mode 'diff' is not reproducible in a test.", "anchors": ["cddm/norm.py:weight_prime_from_data", "cddm/_core_nb.py:weight_prime_from_g", "cddm/_core_nb.py:weight_prime_from_d", "cddm/_core_nb.py:increasing", "cddm/_core_nb.py:decreasing"]}
{"id": "C82", "title": "Normalised correlation is an unbiased estimate", "statement": "Two jointly stationary random signals are recorded at arbitrary times and correlated with ccorr by any method. Normalised with the true backgrounds and variances, the expected value at every delay which occurs between the frames is the covariance of the signals at that delay, whatever the norm (standard, structured, subtracted); likewise for complex output at signed delays, for acorr, for method 'diff', for mode 'diff' (twice the variance minus the covariance) and for scaled data. With the compensated norm, which estimates the background from the same pairs, this is false.", "quantifier": "all finite probability spaces, all stationary signals, all frame times, all numbers of delays, all methods and the norms 1, 2, 5, 6, 13, 14", "why_tests_cant": "A statistical test can only see that a simulated mean is near a known curve within its error bars; a bias of the order 1/N at some delay, for some time stamps or some norm stays below the noise.", "anchors": ["cddm/core.py:ccorr", "cddm/core.py:acorr", "cddm/norm.py:normalize"]}
{"id": "C83", "title": "Multiple tau levels estimate the triangular average of the covariance", "statement": "For stationary random signals, regular frames and averaging of frames, the expected value in cell k of the slow level with blocks of M = 2^(j+1) frames is the covariance averaged with triangular weights (M - |d|)/M^2 around the delay k M; the fast part estimates the covariance itself; with irregular frames it is the mean of the covariance over all pairs of times in blocks at distance k. Log averaging of the true covariance curve returns exactly the same numbers, so both ways to a logarithmic time scale estimate the same curve.", "quantifier": "all finite probability spaces, all stationary signals, all numbers of frames, all chunk sizes, periods, levels and cells", "why_tests_cant": "Tests compare multiple tau and log averaged data of one simulated video by eye or within noise; that the two estimate the same smeared curve in every level is a statement about expected values for all signals.", "anchors": ["cddm/multitau.py:ccorr_multi", "cddm/multitau.py:acorr_multi", "cddm/multitau.py:normalize_multi", "cddm/multitau.py:multilevel"]}
{"id": "C84", "title": "The viewer shows the average over the selected wave vectors", "statement": "After any sequence of set_data and set_mask calls, get_data of DataViewer returns the mean of the current data over exactly the wave vectors of the full space that lie in the selected ring and sector, were computed (mask) and have a value, although only half of the space is stored: the other half is read as the complex conjugate of the opposite wave vector, and no wave vector is missed or counted twice. This holds for data of the whole half space and for data of the computed cells only. set_mask tells whether there is any such wave vector, get_k is their mean wave number, and the representations real, imag, abs and phase are the Cartesian and polar coordinates of the value.", "quantifier": "all image sizes, crops, computed masks, angles, sectors up to 180 degrees, ring widths, ring numbers, data with missing values, all sequences of calls", "why_tests_cant": "There are no tests of the averaging; a wrong conjugation or a wave vector counted twice changes a curve slightly, and whether it happens depends on parity of the size, position of the sector and the mask.", "anchors": ["cddm/viewer.py:DataViewer.set_mask", "cddm/viewer.py:DataViewer.get_data", "cddm/viewer.py:DataViewer.get_k", "cddm/viewer.py:data_repr", "cddm/map.py:as_rfft2_mask", "cddm/map.py:as_rfft2_conj"]}
{"id": "C85", "title": "The viewer of an iterative computation shows the results so far", "statement": "While iccorr_multi, iacorr_multi, iccorr or iacorr run, the viewer is shown every viewer_interval-th of the results so far, beginning with the first: result number p is exactly the correlation, the multi-level data, mean and variance of the frames of the first p+1 chunks. The returned value depends neither on the viewer nor on its interval, and with stats=False only the statistics are missing. If the iterator is too short, what was processed is shown before the ValueError. In the end the viewer shows the returned result.", "quantifier": "all data, time stamps, methods, norms, chunk sizes, numbers of levels, lengths of the iterator, viewer intervals", "why_tests_cant": "The viewer is interactive; no test runs the functions with one. The intermediate contents of the ring buffers are never inspected, and whether the last plot is the result depends on interval and number of chunks.", "anchors": ["cddm/multitau.py:_compute_multi_iter", "cddm/multitau.py:iccorr_multi", "cddm/multitau.py:iacorr_multi", "cddm/core.py:iccorr", "cddm/core.py:iacorr"]}
{"id": "C86", "title": "The simulated walk is Brownian motion with drift", "statement": "brownian_walk with step size delta, time step dt and velocity v yields count arrays; the array after i steps holds, brought back into the periodic box, the starting points plus v*i*dt plus delta*sqrt(dt) times the sum of i random numbers, for every particle and coordinate. For normal random numbers the displacement in m steps is normally distributed with mean v*m*dt and variance delta^2*m*dt, and for every wave vector q of the box the mean of exp(-iqx(t+m))*exp(iqx(t)) over the yielded (wrapped) coordinates is exp(-delta^2/2*q^2*m*dt - iqv*m*dt). The same step law holds when delta and velocity are functions of the coordinates.", "quantifier": "all starting points, boxes, step sizes, time steps, velocities, numbers of steps, random numbers and wave vectors", "why_tests_cant": "A statement about a probability distribution over unbounded histories; a test can only sample it with statistical error.", "anchors": ["cddm/sim.py:brownian_walk", "cddm/_sim_nb.py:make_step", "cddm/_sim_nb.py:mirror"]}
{"id": "C87", "title": "The simulated particles have the scattering function of free diffusion", "statement": "brownian_particles yields count arrays of num_particles points in the box, starting at the given coordinates or at uniformly distributed random points, and rejects a wrong number of coordinates. For every wave vector of the box other than zero the field scattered by all particles, computed from the yielded coordinates, has mean zero and its correlation over m steps is N*exp(-delta^2/2*q^2*m*dt - iqv*m*dt): particles are independent and the coordinates' wrapping at the walls leaves no trace.", "quantifier": "all numbers of particles, boxes, parameters, delays and wave vectors, over all independent uniform and normal random numbers", "why_tests_cant": "Expectation over a continuous probability space.", "anchors": ["cddm/sim.py:brownian_particles"]}
{"id": "C88", "title": "The simulated video shows the particles at the requested times", "statement": "simple_brownian_video simulates enough steps and yields exactly one frame (pair of frames) for each requested time (pair of times): frame k of camera 1 is the picture of the particles after t1[k] steps, rotated and shifted, frame k of camera 2 the picture after t2[k] steps; every pixel is the background plus the light of all particles. Empty times, unsupported dtypes and intensities outside the dtype are rejected with ValueError.", "quantifier": "all increasing times (pairs that are complete before the next begins), all parameters, starting points and random numbers", "why_tests_cant": "All histories and times; composition of simulation, triggering, geometry and drawing.", "anchors": ["cddm/sim.py:simple_brownian_video", "cddm/sim.py:particles_video", "cddm/sim.py:brownian_particles"]}
{"id": "C89", "title": "Normalised correlation is unbiased on any probability space", "statement": "For two random signals with finite second moments on any probability space, that have constant mean and variance and a covariance depending only on the delay at the times at which frames are taken, the value that ccorr/acorr (any method, any trigger times) and normalize (any norm that uses the given background and variance) return at every delay occurring between frames is integrable and has as mean the covariance at that delay; complex output estimates the complex covariance at the signed delay; mode 'diff' and scale=True give the structure function and the ratio to the variance; the slow levels of ccorr_multi estimate the covariance averaged over pairs of frames out of two blocks (smeared triangularly for regular frames).", "quantifier": "all probability spaces and signals stationary at the frame times, all times, methods, norms, delays and levels", "why_tests_cant": "Expectations over arbitrary, also continuous, probability spaces.", "anchors": ["cddm/core.py:ccorr", "cddm/core.py:acorr", "cddm/norm.py:normalize", "cddm/multitau.py:ccorr_multi"]}
{"id": "C90", "title": "Simulated particles, correlated and normalised, give the scattering function of their diffusion", "statement": "Fields scattered by the particles that brownian_particles yields (random start, step size delta and velocity v for all), recorded by one or two cameras at any of the simulated times, correlated with ccorr/acorr/ccorr_multi and normalised with background 0 and variance N, have for every wave vector q of the box other than zero the mean N*exp(-D*q^2*t)*cos(q*v*t), D=delta^2/2, at every delay t that occurs; with scale=True the number of particles cancels; in mode 'diff' the image structure function results; complex output gives N*exp(-D*q^2*|t|-i*q*v*t) at signed delays; slow multi-tau levels give it smeared triangularly.", "quantifier": "all boxes, numbers of particles, step sizes, velocities, wave vectors, trigger times, methods, norms and delays, over all independent uniform and normal random numbers", "why_tests_cant": "End to end statement over a continuous probability space and all parameters.", "anchors": ["cddm/sim.py:brownian_particles", "cddm/core.py:ccorr", "cddm/norm.py:normalize", "cddm/multitau.py:ccorr_multi"]}
{"id": "C91", "title": "The viewers of raw correlation data show the averaged, normalised curves of the selected wave vectors", "statement": "After any sequence of set_data and set_mask calls, CorrViewer.get_data and MultitauViewer.get_data return, for each time, the mean over exactly the wave vectors of the full space that lie in the selected ring and sector of the curves that normalize (or normalize_multi), fold_data and log_average (or log_merge) make of the stored pixels, the curve of a wave vector that is not stored being the conjugate of that of its opposite. For ccorr data of two videos with their backgrounds and variances this is, at every delay, the mean over all the selected wave vectors of the covariance estimate of the signals at that wave vector itself, for real data (every norm with given background, every method) and for complex data (folded: the mean of the delay and the conjugate of the opposite delay). Without background ValueError is raised, and an exception that all the pixels raise is raised by the viewer. fold=False leaves complex data as they are, and both viewers fold alike.", "quantifier": "all image sizes, crops, masks, angles, sectors, rings, signals, time stamps, methods, norms, backgrounds, variances, all sequences of calls", "why_tests_cant": "There are no tests of the viewers; a missing conjugation of the opposite half, a background of the wrong pixel or a wrongly folded curve changes a plotted curve slightly.", "anchors": ["cddm/viewer.py:CorrViewer._get_avg_data", "cddm/viewer.py:MultitauViewer._get_avg_data", "cddm/viewer.py:CorrViewer.set_data", "cddm/norm.py:normalize", "cddm/norm.py:fold_data"]}
{"id": "C92", "title": "The viewers of arrays of curves show the mean over the pixels at the chosen indices", "statement": "A DataArrayViewer, CorrArrayViewer or MultitauArrayViewer for any of the axes shows, after any sequence of set_indices, set_data and slider calls, failed ones included, for each time the mean over exactly those pixels whose index on each of the axes is the one chosen last for that axis (negative ones counted from the end), of the current data with their own times, or of the curves that normalize (normalize_multi), fold_data and log_average (log_merge) make of the current data. Every position of the sliders gives indices in range. A chosen index out of range raises IndexError, no data ValueError; a call that fails changes nothing.", "quantifier": "all numbers of axes, shapes, orders of the axes, chosen indices, data, slider positions and sequences of calls", "why_tests_cant": "There are no tests of the viewers; indices assigned to the wrong axis or state left behind by a failed call only show for particular axes and sequences of calls.", "anchors": ["cddm/viewer.py:DataArrayViewer.set_indices", "cddm/viewer.py:DataArrayViewer.set_data", "cddm/viewer.py:DataArrayViewer._get_avg_data", "cddm/viewer.py:CorrArrayViewer.mask", "cddm/viewer.py:CorrArrayViewer._get_avg_data", "cddm/viewer.py:MultitauArrayViewer._get_avg_data"]}
{"id": "C93", "title": "sigma_weighted and sigma_prime_weighted are the standard deviations of the normalised correlation of Gaussian signals", "statement": "For signals whose samples at a delay are jointly Gaussian and circular, with known means, variances and covariance, and pairs of samples that are independent of each other, every norm with given background, with any weights, returns unbiased values; the standard deviation of the scaled value at that delay is sigma_weighted (norms that subtract the background) or sigma_prime_weighted (norms that do not) of the weight, the scaled correlation, the noise parameter of noise_delta and the scaled backgrounds, divided by the root of the number of pairs. weight_from_g, respectively weight_prime_from_g, is the weight with the smallest standard deviation.", "quantifier": "all probability spaces and signals on them, times of the frames, methods, delays, backgrounds, variances, covariances, weights and norms 1, 2, 3, 5, 6, 7, 13, 14, 15", "why_tests_cant": "It is a statement about the distribution of the result over all signals; the functions are not tested at all, and a simulation only shows the standard deviation up to its own error.", "anchors": ["cddm/_core_nb.py:sigma_weighted", "cddm/_core_nb.py:sigma_prime_weighted", "cddm/_core_nb.py:weight_from_g", "cddm/_core_nb.py:weight_prime_from_g", "cddm/norm.py:normalize", "cddm/norm.py:noise_delta", "cddm/norm.py:scale_factor"]}
{"id": "C94", "title": "The random trigger times of cross-DDM sample every delay equally often on average", "statement": "With the two-camera trigger times of create_random_times1 (Eq.7), the expected number of pairs of frames counted by cross_count is the same for all signed delays of a window of 2n delays: (nframes-|k|)/(2n) for -n < d-2nk <= n. With create_random_times2 (Eq.8), where a frame is with probability 1/(2n) taken simultaneously by both cameras, unsigned delay 0 is expected nearly as often as the delays below n, and the expected number for every delay is given.", "quantifier": "all probability spaces and independent uniform draws on them, numbers of frames, periods n and delays", "why_tests_cant": "It is a statement about the mean over all random times; one run shows a count up to its own spread.", "anchors": ["cddm/sim.py:create_random_times1", "cddm/sim.py:create_random_times2", "cddm/core.py:cross_count"]}
{"id": "C95", "title": "random_time_count is the expected number of pairs of single-camera random triggering", "statement": "random_time_count(nframes, n) is, at every delay up to nframes*n, the expected value of auto_count of the times of create_random_time(nframes, n).", "quantifier": "all probability spaces and pairwise independent uniform draws on them, numbers of frames, periods n, delays and dt_min <= 1", "why_tests_cant": "It is a statement about the mean over all random times; the function is not tested, and the mean of a simulation agrees with any formula only up to its own error.", "anchors": ["cddm/sim.py:random_time_count", "cddm/sim.py:create_random_time", "cddm/core.py:auto_count"]}
{"id": "C96", "title": "Signals recorded at the random times of cross-DDM give an unbiased correlation at every delay that was sampled", "statement": "Two stationary signals recorded at the times of create_random_times1, drawn independently of the signals, correlated by ccorr and normalised with the true background and variance: the value at delay k < n is a number with probability 1-(1-1/n)^nframes (1-(1-1/(2n))^nframes at delay 0 and at every signed delay of complex output) and NaN otherwise, and its mean over the cases where it is a number is the covariance at that delay. For the particles simulated by brownian_particles this is num*exp(-D q^2 t)*cos(q v t); with complex output the phase has the sign of the drift.", "quantifier": "all probability spaces, independent uniform draws and stationary signals on them, numbers of frames, periods n, delays, norms computed with method 'corr', backgrounds, variances and norms asked for", "why_tests_cant": "It is a statement about the mean over all random times and all signals; a test sees one video.", "anchors": ["cddm/sim.py:create_random_times1", "cddm/core.py:ccorr", "cddm/core.py:normalize", "cddm/sim.py:brownian_particles"]}
{"id": "C97", "title": "Drawing particles in parallel gives the image of sequential drawing", "statement": "With NUMBA_PARALLEL the particles of draw_psf are divided among workers that add to one image; the resulting image is that of drawing the particles one after the other.", "quantifier": "all images, particles inside the frame, numbers of workers, divisions of the particles among them, and interleavings of their reads and writes", "why_tests_cant": "The outcome depends on the order in which the workers read and write; a test sees one of the orders, on a machine and configuration that may not run in parallel at all.", "anchors": ["cddm/_sim_nb.py:draw_psf", "cddm/conf.py:NUMBA_PARALLEL"]}
{"id": "C98", "title": "Form factor: the power of one particle averaged over a mesh, and the factor of the power of a frame", "statement": "form_factor is, at every wave vector, the square root of the mean over the mesh of the power of the particle drawn at the mesh point and seen through the window. Without a window and with a mesh of whole pixels it is the modulus of the transform of one particle anywhere in the frame. The transform of a frame of equal particles at whole-pixel distances is the transform of one particle times the field scattered by points.", "quantifier": "all windows at least as large as the drawn square, sigmas, intensities that fit the dtype, mesh sizes, dtypes and modes; all positions of the particles", "why_tests_cant": "A test compares one window and one sigma with a stored array; that the same number factorises the power spectrum of every frame is a statement about all frames.", "anchors": ["cddm/sim.py:form_factor", "cddm/_sim_nb.py:draw_psf"]}
{"id": "C99", "title": "form_factor returns the average absolute value of the FFT of the PSF", "statement": "As documented, form_factor returns the average absolute value of the FFT of the point spread function.", "quantifier": "all windows, sigmas, intensities, mesh sizes", "why_tests_cant": "Root mean square and mean of the absolute value agree without a window for meshes of whole pixels, so that the usual test inputs cannot tell them apart.", "anchors": ["cddm/sim.py:form_factor"]}
{"id": "C100", "title": "Cropping a video", "statement": "crop yields for every frame its part in the rows and columns that the two slices select (with Python's meaning of negative numbers, of bounds outside of the frame and of steps); roi = ((a,b),(c,d)) gives the pixels (a+i, c+j); the default leaves the frames as they are; cropping twice is cropping once; cropping commutes with adding, subtracting and multiplying videos; an invalid roi is a ValueError before the first frame.", "quantifier": "all videos, frame shapes, slices and argument tuples", "why_tests_cant": "Slices have three optional signed parameters whose meaning depends on the frame shape; tests try a few.", "anchors": ["cddm/video.py:crop"]}
{"id": "C101", "title": "Masking a video", "statement": "mask yields for every frame the list of its pixels where the mask is set, row by row; a mask of another shape raises IndexError.", "quantifier": "all videos and boolean masks of two axes", "why_tests_cant": "The order and selection hold for every mask and shape, not only for those tried.", "anchors": ["cddm/video.py:mask"]}
{"id": "C102", "title": "The FFT image shown is a picture of levels between 0 and 1, scaled to the clip", "statement": "The function of norm_rfft2 shows the transform of a frame with the zero frequency in the middle row and the mean left out, at levels between 0 and 1: proportional to the modulus, or grey for zero and linear in the real or imaginary part, the clip (by default the largest value) being white.", "quantifier": "all real frames, modes, clips and FFT libraries", "why_tests_cant": "The display has no tests; that every pixel is a number between 0 and 1 is a claim about all frames.", "anchors": ["cddm/video.py:norm_rfft2", "cddm/video.py:show_fft"]}
{"id": "C103", "title": "The difference image shown has levels between 0 and 1, grey where the frames agree", "statement": "show_diff shows 1/2 + (x-y)/2m with m the largest value of both frames: levels between 0 and 1, grey exactly where the frames agree; with normalize the brightness of the frames does not matter.", "quantifier": "all pairs of real frames of the same shape", "why_tests_cant": "The display has no tests; the range is a claim about all frames.", "anchors": ["cddm/video.py:show_diff"]}
{"id": "C104", "title": "The compile-time settings follow environment, file and default, and agree with each other", "statement": "Parallel compilation, fast mathematics, caching and double precision are decided by the environment variable if it is a whole number, else by the option in cddm.ini, else by the default; the target agrees with the parallel switch; the types of arrays and those of compiled functions have the same precision; functions are cached if asked for and, with parallel compilation, numba is at least 0.45.", "quantifier": "all environments, configuration files and numba versions", "why_tests_cant": "The settings are made on import; one test run sees a single combination of environment, file and version.", "anchors": ["cddm/conf.py:_read_environ_variable", "cddm/conf.py:_readconfig", "cddm/conf.py:NUMBA_CACHE", "cddm/conf.py:FDTYPE"]}
{"id": "C105", "title": "Importing the package with any configuration file selects installed libraries and valid settings", "statement": "With any cddm.ini of accepted names the import succeeds, selects only libraries that are installed (those named by the file where possible), a level of messages that is not negative, and the numbers of threads of the file or of the processors; a name not accepted is a ValueError.", "quantifier": "all configuration files, sets of installed libraries, machines and limits of numba", "why_tests_cant": "A test run has one machine and one set of installed libraries.", "anchors": ["cddm/conf.py:set_numba_threads", "cddm/conf.py:detect_number_of_cores", "cddm/conf.py:set_fftlib", "cddm/cddm.ini"]}
{"id": "C106", "title": "The home directory is the first directory found", "statement": "get_home_dir returns the first directory among the expansion of ~ and the variables HOME, USERPROFILE and TMP, and raises RuntimeError if there is none.", "quantifier": "all environments and file systems", "why_tests_cant": "A test run has one environment and one file system.", "anchors": ["cddm/conf.py:get_home_dir"]}
{"id": "C107", "title": "The rounding errors of the correlation and difference functions are bounded", "statement": "In floating-point arithmetic with relative error u per operation, each delay of cross_correlate, auto_correlate (also complex), cross_difference and auto_difference differs from the exact sum by at most (1+u)^(m+c) - 1 times the sum of the moduli of the terms, where m is the number of pairs of samples at this delay and c is 2 (correlation) or 4 (difference).", "quantifier": "all data, time stamps, options and rounding functions", "why_tests_cant": "Tests compare with tolerances on a few arrays; the worst rounding error over all data and lengths is not observed.", "anchors": ["cddm/_core_nb.py:_cross_corr_vec", "cddm/_core_nb.py:_auto_corr_regular", "cddm/_core_nb.py:_cross_diff_vec", "cddm/core.py:cross_correlate"]}
{"id": "C108", "title": "Correlations of whole numbers are computed without error", "statement": "If the data and the initial output are whole numbers (a camera's counts) and the sum of the moduli of the terms of a delay is at most the largest integer B up to which all integers are machine numbers (2^53 in double, 2^24 in single precision), the computed delay is exactly the sum.", "quantifier": "all whole-number data, time stamps and options", "why_tests_cant": "Tests on small integers do not reach the bound and do not show that no intermediate result is rounded.", "anchors": ["cddm/_core_nb.py:_cross_corr_vec", "cddm/_core_nb.py:_cross_diff_vec", "cddm/core.py:auto_correlate", "cddm/conf.py:FDTYPE"]}
{"id": "C109", "title": "The rounding errors of the delay sums are bounded", "statement": "In floating-point arithmetic with relative error u per operation, each delay of cross_sum (real or complex samples, signed delays or not) differs from the exact sum by at most (1+u)^m - 1 times the sum of the moduli of the m samples summed; auto_sum likewise, with two roundings more; sums of whole numbers within the integers of the machine are exact.", "quantifier": "all data, time stamps, options and rounding functions", "why_tests_cant": "Tests compare with tolerances on arrays of samples of similar size, for which the recursion over delays loses nothing visible.", "anchors": ["cddm/_core_nb.py:_cross_sum_regular", "cddm/_core_nb.py:_cross_sum_complex_regular", "cddm/_core_nb.py:_cross_sum_vec", "cddm/core.py:cross_sum", "cddm/core.py:auto_sum"]}
{"id": "C110", "title": "Kernels run in parallel give the result of the sequential ones", "statement": "With target=\"parallel\" the positions of the leading axes are divided among workers whose loads and stores of the output cells interleave in any order. If no two output cells share memory, then whenever all workers are done each output signal is exactly what the sequential kernel returns for it, no other memory is changed, and each schedule that gives every worker enough turns ends.", "quantifier": "all data, numbers of workers, divisions of the work and interleavings; all correlation, difference and sum kernels", "why_tests_cant": "Tests see the few interleavings the machine happens to make; a lost update appears only in rare ones.", "anchors": ["cddm/_core_nb.py:_cross_corr_vec", "cddm/_core_nb.py:_auto_corr_vec", "cddm/_core_nb.py:_cross_diff_vec", "cddm/_core_nb.py:_auto_diff_vec", "cddm/_core_nb.py:_cross_sum_vec", "cddm/_core_nb.py:_cross_sum_regular", "cddm/conf.py:NUMBA_TARGET"]}
{"id": "C111", "title": "Arithmetic of camera frames", "statement": "subtract, add and multiply of videos whose frames are unsigned integers give the difference, sum and product of the pixels, in the type given by dtype; add undoes subtract; with inplace = True the frames get these values or TypeError is raised.", "quantifier": "all frames, numbers of bits, types asked for and videos", "why_tests_cant": "Tests use floating-point videos; wrap-around needs pixels where the background is brighter than the frame.", "anchors": ["cddm/video.py:subtract", "cddm/video.py:add", "cddm/video.py:multiply"]}
{"id": "C112", "title": "The images shown of camera frames", "statement": "The difference image of frames of unsigned integers is that of the numbers they hold, whatever the version of numpy; an image handed to OpenCV has no level above 1 and is only divided by its largest value, if that is above 1.", "quantifier": "all frames and numbers of bits, numpy before and from version 2", "why_tests_cant": "The display has no tests and one installation has one version of numpy.", "anchors": ["cddm/video.py:show_diff", "cddm/video.py:ImageShow._cv_imshow"]}
{"id": "C113", "title": "Time stamps in 64-bit arithmetic", "statement": "The correlation, difference, sum and count functions give for all time stamps that int64 holds what they give in exact arithmetic: every pair of frames is counted at the distance of its time stamps, nothing outside the arrays is touched.", "quantifier": "all signals, time stamps, lengths, output arrays and memory layouts", "why_tests_cant": "Overflow needs time stamps more than 2^63 apart; tests use small ones, and wrapped indices write outside the arrays silently.", "anchors": ["cddm/core.py:_inspect_cross_arguments", "cddm/core.py:_inspect_auto_arguments", "cddm/_core_nb.py:_cross_corr", "cddm/_core_nb.py:_add_count_cross"]}
{"id": "C114", "title": "Time stamps that are not whole numbers", "statement": "With time stamps that are real numbers, every pair of frames is counted at one whole delay that differs from the distance of the two times by less than one, and at exactly the distance if that is a whole number.", "quantifier": "all signals and real time stamps, lengths, output arrays and memory layouts", "why_tests_cant": "Tests use integer time stamps; the conversion to int64 is silent.", "anchors": ["cddm/core.py:_inspect_cross_arguments", "cddm/core.py:_inspect_auto_arguments", "cddm/core.py:cross_count", "cddm/core.py:auto_count"]}
{"id": "C115", "title": "Pairs of frame pairs", "statement": "auto_count_mixed and cross_count_mixed count, for every delay i below n and every distance k below 2n, the pairs of frame pairs with delay i (and -i) whose first frames are k apart; auto_tau_times and cross_tau_times list the times of the frame pairs of each delay, as many as the tables hold.", "quantifier": "all time sequences, table sizes, n and periods", "why_tests_cant": "No test runs these functions; which frame pairs are missing depends on the origin of time and on how many pairs share a delay.", "anchors": ["cddm/_core_nb.py:auto_tau_times", "cddm/_core_nb.py:cross_tau_times", "cddm/_core_nb.py:auto_count_mixed", "cddm/_core_nb.py:cross_count_mixed"]}
{"id": "C116", "title": "Arrays of any number of axes, any computation axis", "statement": "cross_correlate, auto_correlate, cross_difference, auto_difference, cross_sum and auto_sum of arrays of any number of axes compute along the axis named, for each of the other positions alone: the result has the shape of the input without that axis and with the axis of the delays last, and holds at each pixel what the function gives for the signal of that pixel. The memory layout, align and a negative axis make no difference. An axis the array does not have and an output array of another shape are refused.", "quantifier": "all numbers of axes, shapes, axes, times, n, output arrays, contiguity and align", "why_tests_cant": "The code takes different kernels and moves the axis to the end or before the end depending on align, contiguity, times and number of axes; tests use one or two axes and axis 0 or -1.", "anchors": ["cddm/core.py:_move_axis_and_align", "cddm/core.py:_default_out", "cddm/core.py:_is_aligned", "cddm/core.py:cross_correlate", "cddm/core.py:auto_correlate", "cddm/core.py:cross_difference", "cddm/core.py:auto_difference", "cddm/core.py:cross_sum", "cddm/core.py:auto_sum"]}
{"id": "C117", "title": "The FFT functions, ccorr and acorr on arrays of any number of axes", "statement": "cross_correlate_fft, auto_correlate_fft, cross_sum_fft, auto_sum_fft, ccorr and acorr of arrays of any number of axes compute along the axis named, for each of the other positions alone. Every array of the returned tuple has the shape of the input without that axis and with the axis of the delays last, and holds at each pixel what the function gives for the signals of that pixel; the count is the same for all. The function raises for the arrays what it raises for any one pixel. ccorr without arrays to add to holds the sums over the pairs of samples of each pixel, and refuses arrays of different shapes.", "quantifier": "all numbers of axes, shapes, axes, times, n, norms, methods, given squares and output arrays, contiguity and align", "why_tests_cant": "The axis is moved once in ccorr and again in the functions it calls, to places that depend on times, align, contiguity and number of axes; tests compare a few shapes of two or three axes.", "anchors": ["cddm/core.py:cross_correlate_fft", "cddm/core.py:auto_correlate_fft", "cddm/core.py:cross_sum_fft", "cddm/core.py:auto_sum_fft", "cddm/core.py:ccorr", "cddm/core.py:acorr", "cddm/core.py:_move_axis_and_align"]}
{"id": "C118", "title": "The compensated subtracted formula; complex difference data", "statement": "normalize_corr_compensated_subtracted, of the sums over any pairs of samples, is the mean product of the samples without background, and for any arguments returns what normalize_corr_subtracted returns (so compensating adds nothing once the background is subtracted). normalize never returns a result for complex difference data: with everything present that the norm needs it raises TypeError, else ValueError or TypeError.", "quantifier": "all pairs, backgrounds, sums and counts; all norms, modes, backgrounds, variances, weights", "why_tests_cant": "The function is not called by normalize and no test calls it; the identity is over all data.", "anchors": ["cddm/_core_nb.py:_normalize_corr_compensated_subtracted_real", "cddm/_core_nb.py:_normalize_corr_compensated_subtracted_complex", "cddm/_core_nb.py:_normalize_cdiff_1", "cddm/_core_nb.py:_normalize_cdiff_3", "cddm/norm.py:normalize"]}
{"id": "C119", "title": "normalize acts on every wave vector by itself", "statement": "For data with any number of levels and any frame shape, normalize returns at every level and wave vector the curve (and weight) that it returns for that level and wave vector alone with its own background and variance, and it raises only what it raises for one of them. With a mask the axes of the frame are replaced by one axis of the selected wave vectors in C order, each with the same curve as without the mask. Together with ccorr: the normalized array holds at each pixel the normalized correlation of that pixel's signals.", "quantifier": "all shapes, levels, masks, norms, modes, backgrounds (number, array or pair), variances, weights, real and complex data", "why_tests_cant": "Tests normalize a few frames of one shape; broadcasting mistakes (a background of two rows taken for a pair, a count stretched over the wrong axis) show only for some shapes.", "anchors": ["cddm/norm.py:normalize", "cddm/norm.py:take_data", "cddm/norm.py:_inspect_background", "cddm/norm.py:scale_factor", "cddm/norm.py:noise_delta"]}
{"id": "C120", "title": "Log averaging and merging of arrays act on every wave vector by itself", "statement": "multilevel, merge_multilevel, log_average and log_merge on data of any number of axes return at every wave vector exactly what they return for the curve of that wave vector alone, with common delay times; multilevel data have the levels as first axis, and after the transposition and reshaping of merge_multilevel the j-th delay of level l of every wave vector stands at position l*n/2 + j with the time (n/2 + j)*2^l. Linear and multilevel data of different frames are refused.", "quantifier": "all shapes, level sizes, binning modes, real and complex data folded or not, all modes", "why_tests_cant": "A wrong order of axes before the reshape mixes levels with wave vectors without changing the shape; for one wave vector or one level the result is right.", "anchors": ["cddm/multitau.py:multilevel", "cddm/multitau.py:merge_multilevel", "cddm/multitau.py:log_average", "cddm/multitau.py:log_merge"]}
{"id": "C121", "title": "normalize_multi acts on every wave vector by itself", "statement": "For linear data of any frame shape and multilevel data of any number of levels over the same frame, normalize_multi returns at every wave vector the normalized linear curve and the normalized levels that it returns for that wave vector alone with its own background and variance, all with the norm determined from the linear data, and it raises only what it raises for one of them. With a mask it returns the selected wave vectors in C order.", "quantifier": "all shapes, numbers of levels, masks, norms, modes, backgrounds, variances, real and complex data", "why_tests_cant": "Tests normalize one video; levels stretched against a background of the wrong axis show only when the number of levels differs from the frame.", "anchors": ["cddm/multitau.py:normalize_multi", "cddm/norm.py:normalize"]}
{"id": "C122", "title": "k_select acts on every level and delay by itself", "statement": "For correlation data of shape (..., i, j, n), or of the pixels inside a mask (..., pixels, n), k_select finds the same bins with the same mean wave numbers as for one frame, and its average at every leading position and delay is the average of the frame at that position: the mean over the wave vectors of the bin inside the mask that have a value.", "quantifier": "all numbers of leading axes, frame sizes, numbers of delays, masks, lists of k or none, both modes", "why_tests_cant": "Whether data are masked is guessed from two sizes; the guess fails only if the number of levels and the number of pixels happen to equal the sizes of the mask.", "anchors": ["cddm/map.py:k_select", "cddm/map.py:_k_select_complex", "cddm/map.py:_k_select_real"]}
{"id": "C123", "title": "ccorr_multi and acorr_multi act on every pixel by itself", "statement": "For data of any number of axes, ccorr_multi and acorr_multi (real and complex) return at every pixel, in the linear data and in every level, what they return for the signal of that pixel alone, whatever the computation axis, its place in memory, the norm, method, binning and thread_divisor; the returned arrays have the frame shape of the input and one axis of delays.", "quantifier": "all shapes, axes, signals, times, norms, methods, binnings, periods, level sizes, numbers of levels, thread divisors, alignments", "why_tests_cant": "Tests use frames of two axes along axis 0; for others the data are reshaped in memory order, which mixes pixels without any error.", "anchors": ["cddm/multitau.py:_compute_multi", "cddm/multitau.py:ccorr_multi", "cddm/multitau.py:acorr_multi", "cddm/core.py:reshape_input", "cddm/core.py:reshape_output", "cddm/core.py:thread_frame_shape"]}
{"id": "C124", "title": "The iterative functions act on every pixel by itself", "statement": "For frames of any shape, iccorr_multi, iacorr_multi, iccorr and iacorr (real and complex) take as many frames and return at every pixel - in the linear data, in every level, in the counts, in the mean and in the variance - what they return for the values of that pixel alone, and raise what they raise for any one pixel, with or without a thread_divisor; the arrays returned have the shape of the frames and one axis of delays.", "quantifier": "all frame shapes, videos, times, norms, methods, binnings, periods, level sizes, chunk sizes, modes, backgrounds, numbers of levels, counts and thread divisors", "why_tests_cant": "The buffers of several levels, the partial chunks and the reshaping interact differently for each combination of shape, chunk and divisor; tests take one frame shape and compare with ccorr_multi on data of the same shape.", "anchors": ["cddm/multitau.py:_compute_multi_iter", "cddm/multitau.py:iccorr_multi", "cddm/multitau.py:iacorr_multi", "cddm/core.py:iccorr", "cddm/core.py:iacorr", "cddm/core.py:reshape_frame"]}
{"id": "C125", "title": "With a mask every selected pixel is computed by itself and all others are NaN", "statement": "For videos and frame sources with a boolean mask over the frame, ccorr_multi, acorr_multi, iccorr_multi, iacorr_multi, iccorr and iacorr (real and complex) return arrays of the shape of the mask and one axis of delays that hold, at every selected pixel - in the linear data, in every level, in the mean and in the variance - what the function returns for the values of that pixel alone, and NaN at every other pixel; they raise what they raise for any one selected pixel.", "quantifier": "all masks, frame shapes, videos, times, norms, methods, binnings, periods, level sizes, chunk sizes, modes, backgrounds, numbers of levels, counts and thread divisors", "why_tests_cant": "A mistake in the order in which selected pixels are taken out and put back moves the data of one pixel to another for some masks only; the results still look like correlation data. Tests use a single mask.", "anchors": ["cddm/core.py:reshape_input", "cddm/core.py:reshape_output", "cddm/core.py:reshape_frame", "cddm/core.py:thread_frame_shape", "cddm/multitau.py:_compute_multi_iter", "cddm/multitau.py:ccorr_multi", "cddm/multitau.py:iccorr_multi"]}
{"id": "C126", "title": "From two videos to the merged curve of every pixel: each value is the norm's formula over the pairs of frames with that delay", "statement": "If the data of ccorr_multi or acorr_multi, or of the iterative iccorr_multi or iacorr_multi, of whole frames are handed to normalize_multi with any background and variance, none of the steps raises, and at every pixel the linear data hold the norm's formula over exactly the pairs of samples of that pixel with each delay, and the data of each level hold the formula over the pairs of samples out of pairs of blocks with each delay; a delay without pairs is NaN. Mode diff shows 2 (c - g) of the value g of the formula, with c the mean variance, and scale divides by c. The number of levels is the largest that leaves a whole level. For data without times nothing is NaN, and log_merge returns at every pixel the log-averaged and merged curve of those formulas.", "quantifier": "all videos and frame shapes, axes, times, level sizes, periods, alignments, thread divisors, chunk sizes, backgrounds, variances, norms prepared and norms evaluated", "why_tests_cant": "The chain joins reshaping, thread splitting, chunking, level stacking, transposed statistics and broadcast divisions; a mistake in any junction shows only for particular shapes, levels or norms, and the exact curve of every pixel has no closed reference to compare with in a test.", "anchors": ["cddm/multitau.py:ccorr_multi", "cddm/multitau.py:acorr_multi", "cddm/multitau.py:iccorr_multi", "cddm/multitau.py:iacorr_multi", "cddm/multitau.py:normalize_multi", "cddm/multitau.py:log_merge", "cddm/core.py:normalize"]}
{"id": "C127", "title": "With fastmath the kernels still compute the documented sums: however the compiler reorders, regroups or fuses the operations, the error stays below the same kind of bound", "statement": "Whatever expression the compiler makes of a cell of the output of cross_correlate, auto_correlate (real and complex), cross_difference or auto_difference by reordering and regrouping sums and products, moving signs, leaving out zeros, taking out common factors and fusing multiplications with additions, running it on machine numbers whose operations have relative error u gives the documented sum up to ((1+u)^(2p+1)-1) (for the differences (1+u)^(6p+1)-1) times the sum of the moduli of the products, where p is the number of pairs of the cell. For cross_sum with time stamps, with and without signed delays, the bound is ((1+u)^(p+1)-1) times the sum of the moduli of the samples. Two builds thus differ by at most twice that. Without fastmath, the operations of the source are run unchanged. With fastmath results can change: a correlation computed as zero can become 2^-60.", "quantifier": "all samples, times, lengths, starting values, alignments, roundings with relative error u, and all rearrangements of the operations of every cell", "why_tests_cant": "A test runs one compiler on one machine: another vector width, compiler version or instruction set rearranges differently, and the bound must hold for every rearrangement and every number of pairs.", "anchors": ["cddm/conf.py:CDDM_FASTMATH", "cddm/_core_nb.py:_cross_corr", "cddm/_core_nb.py:_cross_corr_regular", "cddm/_core_nb.py:_auto_corr", "cddm/_core_nb.py:_cross_diff", "cddm/_core_nb.py:_auto_diff", "cddm/core.py:cross_correlate", "cddm/core.py:auto_correlate", "cddm/core.py:cross_difference", "cddm/core.py:auto_difference", "cddm/_core_nb.py:_cross_sum", "cddm/_core_nb.py:_cross_sum_complex", "cddm/core.py:cross_sum"]}
{"id": "C128", "title": "Normalizing correlation data in floating point is exact up to a bound that grows only with the number of pairs", "statement": "ccorr followed by normalize, run on machine numbers whose operations have relative error u, gives every delay with p pairs the norm's formula over those pairs up to ((1+u)^(2p+10)-1) times the same formula with all numbers replaced by their moduli and all signs by plus; delays without pairs are not numbers. For the mode diff the exponent is 2p+12 and the size 2(V+size). For acorr of a signal with distinct time stamps and one background the exponents are 4p+14 and 4p+16. For regular data, ccorr and norm 1 the exponent is p+4. No bound relative to the result holds: in double precision a normalized correlation that is not zero can come out as zero.", "quantifier": "all samples, time stamps, lengths, numbers of delays, backgrounds and variances, all norms that are not weighted, every norm the data was prepared for, all roundings with relative error u which keep half of whole numbers up to the number of pairs", "why_tests_cant": "Whether subtracting the background, the sums and the squares in floating point loses digits depends on the data; tests compare a few random data sets within a tolerance chosen by hand.", "anchors": ["cddm/core.py:ccorr", "cddm/core.py:acorr", "cddm/norm.py:normalize", "cddm/_core_nb.py:_normalize_corr_baseline_real", "cddm/_core_nb.py:_normalize_struct_baseline_real", "cddm/_core_nb.py:_normalize_corr_compensated_real", "cddm/_core_nb.py:_normalize_struct_compensated_real", "cddm/_core_nb.py:_normalize_corr_subtracted_real", "cddm/_core_nb.py:_normalize_struct_subtracted_real", "cddm/norm.py:_corr2diff"]}
{"id": "C129", "title": "The kernel of one wave vector projects a frame on its windowed Fourier component", "statement": "k_point_kernel(window, ki, kj) is the window times the plane wave of the wave vector (ki, kj): summing a frame times the kernel gives the component (ki, kj) of the two-dimensional transform of the frame times the window, with negative indices counted from the end. The kernel used in DLS-like imaging is the transform of it. A wave vector beyond either end of the window raises IndexError.", "quantifier": "all windows, real or complex, of all shapes, all frames of that shape and all integers ki and kj", "why_tests_cant": "No test calls the function; a test would compare one window and one wave vector, and a swapped axis or sign is invisible for square windows or symmetric data.", "anchors": ["cddm/map.py:k_point_kernel", "cddm/fft.py:_build_kf", "cddm/fft.py:_build_kernel"]}
{"id": "C130", "title": "Arithmetic of integer frames of any kind and shape", "statement": "subtract, add and multiply of two integer frames, signed or unsigned, give the difference, sum or product modulo the size of the narrowest integer type which holds the numbers of both (floating-point numbers exactly if there is none), and a pixel is right exactly if its value is a number of that type; a single row or column is repeated, other shapes raise ValueError. A signed background that holds camera values is subtracted exactly from frames of 8, 16 and 32 bits. In place the frame keeps its type and shape; TypeError is raised for an unsigned frame with a signed operand, or if the result is floating-point, ValueError if the operand does not fit the frame. Adding the background again restores the frame.", "quantifier": "all integer types of 8 to 64 bits, all pixels of these types, all shapes of two axes, the three operations, every integer dtype", "why_tests_cant": "Tests use floating-point videos; there are 64 pairs of types, and wrap-around shows only for some pixels.", "anchors": ["cddm/video.py:subtract", "cddm/video.py:add", "cddm/video.py:multiply"]}
{"id": "C131", "title": "Random test videos", "statement": "random_video gives count multi-frames (none for a count of zero or less), each of one frame, or of two with dual=True, of the given shape. Each pixel is made of its own random number, in the order of multi-frames, cameras and pixels; it is at least 0 and below max_value. For unsigned integers it is a whole number, and with a whole max_value each of the numbers below it is made of the same share of the random numbers, while max_value itself never occurs. Negative sizes raise ValueError. Loading such a video gives all its frames.", "quantifier": "all sequences of random numbers in [0, 1), all shapes, counts, maximal values that fit the type, one or two cameras", "why_tests_cant": "Random content: a test sees one sequence of random numbers and cannot tell whether two pixels share a number or whether the maximal value can occur.", "anchors": ["cddm/video.py:random_video"]}
{"id": "C132", "title": "Decorators keep what the decorated function does", "statement": "A method decorated with doc_inherit has the docstring of the nearest ordinary method above it, taken from the class or from an object, and is called with the object and the arguments; without such a method NameError is raised. A function decorated with skip_runtime_error returns what the function returns, None for a RuntimeError, and passes all other exceptions on. A deprecated function gives one DeprecationWarning in every call, whatever the filters, returns or raises what the function does, and leaves the treatment of all other warnings as it was.", "quantifier": "all chains of classes, recursion limits, functions, arguments, filters and histories of warnings", "why_tests_cant": "The failures depend on how classes are derived from each other and on warning filters set elsewhere in a program, of which tests see single instances; test runners replace the filters.", "anchors": ["cddm/decorators.py:DocInherit", "cddm/decorators.py:skip_runtime_error", "cddm/decorators.py:deprecated"]}
