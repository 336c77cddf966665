{
 "claims": [
  {
   "property": "C01",
   "status": "proved",
   "theorems": [
    "Cddm.C01_cross_correlate",
    "Cddm.C01_cross_correlate_rejects"
   ],
   "note": "Cross-correlation sums every pair of frames once: all parts of the statement, see the theorems."
  },
  {
   "property": "C02",
   "status": "proved",
   "theorems": [
    "Cddm.C02_cross_correlate_complex",
    "Cddm.C02_cells_distinct"
   ],
   "note": "Complex cross-correlation keeps the sign of the delay: all parts of the statement, see the theorems."
  },
  {
   "property": "C03",
   "status": "proved",
   "theorems": [
    "Cddm.C03_auto_correlate",
    "Cddm.C03_auto_correlate_complex",
    "Cddm.C03_auto_correlate_rejects"
   ],
   "note": "Auto-correlation counts each unordered pair once, oriented forward in time: all parts of the statement, see the theorems."
  },
  {
   "property": "C04",
   "status": "proved",
   "theorems": [
    "Cddm.C04_cross_difference",
    "Cddm.C04_auto_difference",
    "Cddm.C04_cross_difference_ge",
    "Cddm.C04_auto_difference_ge",
    "Cddm.C04_auto_difference_zero"
   ],
   "note": "Difference functions sum squared distances of the right pairs: all parts of the statement, see the theorems."
  },
  {
   "property": "C05",
   "status": "proved",
   "theorems": [
    "Cddm.C05_cross_sum",
    "Cddm.C05_cross_sum_complex",
    "Cddm.C05_same_pairs"
   ],
   "note": "Tau-dependent sums run over the same pairs as the correlation: all parts of the statement, see the theorems."
  },
  {
   "property": "C06",
   "status": "proved",
   "theorems": [
    "Cddm.C06_cross_count",
    "Cddm.C06_cross_count_complex",
    "Cddm.C06_auto_count",
    "Cddm.C06_count_is_correlation_of_ones"
   ],
   "note": "Occurrence counts equal the number of contributing pairs: all parts of the statement, see the theorems."
  },
  {
   "property": "C07",
   "status": "proved",
   "theorems": [
    "Cddm.C07_cross_correlate",
    "Cddm.C07_cross_correlate_complex",
    "Cddm.C07_cross_difference",
    "Cddm.C07_auto_correlate",
    "Cddm.C07_auto_difference",
    "Cddm.C07_auto_correlate_complex",
    "Cddm.C07_layout_irrelevant",
    "Cddm.C07_cross_sum",
    "Cddm.C07_cross_sum_complex",
    "Cddm.C07_auto_sum"
   ],
   "note": "Regularly sampled fast path equals the general algorithm: all parts of the statement, see the theorems."
  },
  {
   "property": "C08",
   "status": "partial",
   "theorems": [
    "Cddm.C08_cross_correlate_unsafe_iff",
    "Cddm.C08_refuted",
    "Cddm.C08_cross_correlate_safe_partial",
    "Cddm.C08_default_safe_partial",
    "Cddm.C08_irregular_safe_partial",
    "Cddm.C08_auto_safe_partial",
    "Cddm.C08_other_kernels_unsafe"
   ],
   "note": "The property as stated is false of the code: C08_cross_correlate_unsafe_iff shows that regular aligned data of N>=2 samples is read out of bounds exactly when the output is longer than N+1 (C08_refuted is a concrete call). Proved part: safe for every output length <= N+1, for the default n, for unaligned/irregular data with any n, and for real auto functions with any n."
  },
  {
   "property": "C09",
   "status": "proved",
   "theorems": [
    "Cddm.C09_cross_correlate",
    "Cddm.C09_cross_correlate_complex",
    "Cddm.C09_auto_correlate",
    "Cddm.C09_auto_correlate_complex",
    "Cddm.C09_entries",
    "Cddm.C09_default",
    "Cddm.C09_rejects",
    "Cddm.C09_aliasing",
    "Cddm.C09_duplicates",
    "Cddm.C09_empty"
   ],
   "note": "FFT method equals the direct method: all parts of the statement, see the theorems."
  },
  {
   "property": "C10",
   "status": "proved",
   "theorems": [
    "Cddm.C10_cross_sum",
    "Cddm.C10_cross_sum_cdata",
    "Cddm.C10_cross_sum_complex",
    "Cddm.C10_cross_sum_complex_cdata",
    "Cddm.C10_auto_sum",
    "Cddm.C10_auto_sum_cdata",
    "Cddm.C10_regular_rejected"
   ],
   "note": "FFT sums equal direct sums: all parts of the statement, see the theorems."
  },
  {
   "property": "C11",
   "status": "proved",
   "theorems": [
    "Cddm.C11_cross_count",
    "Cddm.C11_cross_count_complex",
    "Cddm.C11_auto_count",
    "Cddm.C11_cross_correlate",
    "Cddm.C11_auto_correlate"
   ],
   "note": "Default output length loses no pair: all parts of the statement, see the theorems."
  },
  {
   "property": "C12",
   "status": "proved",
   "theorems": [
    "Cddm.C12_sums_complex",
    "Cddm.C12_counts_complex",
    "Cddm.C12_blocks_all",
    "Cddm.C12_cross",
    "Cddm.C12_cross_complex",
    "Cddm.C12_auto",
    "Cddm.C12_auto_complex",
    "Cddm.C12_sums",
    "Cddm.C12_auto_sum",
    "Cddm.C12_counts",
    "Cddm.C12_blocks"
   ],
   "note": "Accumulating into aout is additive: all parts of the statement, see the theorems."
  },
  {
   "property": "C13",
   "status": "proved",
   "theorems": [
    "Cddm.C13_shift_cross",
    "Cddm.C13_shift_auto",
    "Cddm.C13_shift_sums",
    "Cddm.C13_shift_counts",
    "Cddm.C13_reorder_cross",
    "Cddm.C13_reorder_cross_complex",
    "Cddm.C13_reorder_auto",
    "Cddm.C13_reorder_auto_complex",
    "Cddm.C13_reorder_counts",
    "Cddm.C13_reorder_sums",
    "Cddm.C13_counts_complex",
    "Cddm.C13_swap",
    "Cddm.C13_swap_rejects",
    "Cddm.C13_swap_complex"
   ],
   "note": "Correlation depends only on time differences and not on frame order: all parts of the statement, see the theorems."
  },
  {
   "property": "C14",
   "status": "proved",
   "theorems": [
    "Cddm.C14_cross",
    "Cddm.C14_auto"
   ],
   "note": "Difference equals squares minus twice the correlation: all parts of the statement, see the theorems."
  },
  {
   "property": "C15",
   "status": "proved",
   "theorems": [
    "Cddm.C15_cross",
    "Cddm.C15_auto",
    "Cddm.C15_counts"
   ],
   "note": "Real output is the folded complex output: all parts of the statement, see the theorems."
  },
  {
   "property": "C16",
   "status": "proved",
   "theorems": [
    "Cddm.C16_correlate",
    "Cddm.C16_counts",
    "Cddm.C16_auto_sum",
    "Cddm.C16_auto_sum_repeated_time"
   ],
   "note": "Auto-correlation is the one-stream special case of cross-correlation: all parts of the statement, see the theorems."
  },
  {
   "property": "C17",
   "status": "proved",
   "theorems": [
    "Cddm.C17_cross_correlate",
    "Cddm.C17_cross_correlate_complex",
    "Cddm.C17_cross_difference",
    "Cddm.C17_auto_correlate",
    "Cddm.C17_auto_correlate_complex",
    "Cddm.C17_auto_difference",
    "Cddm.C17_cross_sum",
    "Cddm.C17_auto_sum",
    "Cddm.C17_layout_irrelevant",
    "Cddm.C17_layout_irrelevant_complex",
    "Cddm.C17_layout_irrelevant_auto",
    "Cddm.C17_entries",
    "Cddm.C17_rejects"
   ],
   "note": "Thread-layout kernels equal the per-pixel kernels: all parts of the statement, see the theorems."
  },
  {
   "property": "C18",
   "status": "proved",
   "theorems": [
    "Cddm.C18_ccorr_refuses",
    "Cddm.C18_ccorr_complex_refuses",
    "Cddm.C18_acorr_refuses",
    "Cddm.C18_acorr_complex_refuses",
    "Cddm.C18_ccorr_fields",
    "Cddm.C18_ccorr_complex_fields",
    "Cddm.C18_acorr_fields",
    "Cddm.C18_acorr_complex_fields",
    "Cddm.C18_acorr_complex_sums",
    "Cddm.C18_ccorr_refuses_iff",
    "Cddm.C18_ccorr_presence"
   ],
   "note": "ccorr/acorr argument handling: all parts of the statement, see the theorems."
  },
  {
   "property": "C19",
   "status": "proved",
   "theorems": [
    "Cddm.C19_ccorr",
    "Cddm.C19_ccorr_complex",
    "Cddm.C19_acorr",
    "Cddm.C19_acorr_complex",
    "Cddm.C19_default"
   ],
   "note": "ccorr(method='fft') and ccorr(method='corr') return the same tuple: all parts of the statement, see the theorems."
  },
  {
   "property": "C20",
   "status": "proved",
   "theorems": [
    "Cddm.C20_string_value",
    "Cddm.C20_string_order",
    "Cddm.C20_string_range",
    "Cddm.C20_string_unknown",
    "Cddm.C20_string_parts",
    "Cddm.C20_flags"
   ],
   "note": "Normalization strings and flags always decode to a supported norm: all parts of the statement, see the theorems."
  },
  {
   "property": "C21",
   "status": "partial",
   "theorems": [
    "Cddm.C21_auto_complex_partial",
    "Cddm.C21_auto_complex_refuted",
    "Cddm.C21_standard",
    "Cddm.C21_cross",
    "Cddm.C21_standard_complex",
    "Cddm.C21_cross_complex",
    "Cddm.C21_background_free",
    "Cddm.C21_background_free_complex",
    "Cddm.C21_auto_standard",
    "Cddm.C21_auto",
    "Cddm.C21_auto_background_free"
   ],
   "note": "Proved for real and complex cross-correlation, real auto-correlation and the real part of complex auto-correlation (C21_auto_complex_partial). False of the code for the imaginary part of complex auto-correlation data: acorr returns both parts of the spectrum of one signal but the subtraction term is formed from one running sum only (C21_auto_complex_refuted, a concrete call)."
  },
  {
   "property": "C22",
   "status": "proved",
   "theorems": [
    "Cddm.C22_cross",
    "Cddm.C22_cross_subtracted",
    "Cddm.C22_cross_complex",
    "Cddm.C22_cross_complex_subtracted",
    "Cddm.C22_bound",
    "Cddm.C22_bound_complex",
    "Cddm.C22_real_part",
    "Cddm.C22_auto",
    "Cddm.C22_auto_subtracted",
    "Cddm.C22_auto_complex"
   ],
   "note": "Structured normalization is variance minus half the mean squared difference: all parts of the statement, see the theorems."
  },
  {
   "property": "C23",
   "status": "proved",
   "theorems": [
    "Cddm.C23_cross",
    "Cddm.C23_cross_subtracted",
    "Cddm.C23_modes",
    "Cddm.C23_modes_complex",
    "Cddm.C23_scale",
    "Cddm.C23_round_trip",
    "Cddm.C23_round_trip_complex",
    "Cddm.C23_auto",
    "Cddm.C23_all_norms",
    "Cddm.C23_all_norms_complex",
    "Cddm.C23_all_norms_scaled"
   ],
   "note": "Difference-mode and correlation-mode normalization agree: all parts of the statement, see the theorems."
  },
  {
   "property": "C24",
   "status": "partial",
   "theorems": [
    "Cddm.C24_cross",
    "Cddm.C24_cross_complex",
    "Cddm.C24_cross_structured",
    "Cddm.C24_cross_complex_structured",
    "Cddm.C24_invariant",
    "Cddm.C24_invariant_complex",
    "Cddm.C24_invariant_structured",
    "Cddm.C24_invariant_complex_structured",
    "Cddm.C24_bound",
    "Cddm.C24_auto",
    "Cddm.C24_auto_structured",
    "Cddm.C24_auto_invariant",
    "Cddm.C24_auto_invariant_structured",
    "Cddm.C24_auto_bound",
    "Cddm.C24_auto_complex_partial",
    "Cddm.C24_auto_complex_refuted"
   ],
   "note": "Proved for real and complex cross-correlation, real auto-correlation, and the real part of complex auto-correlation (C24_auto_complex_partial). False of the code for the imaginary part of complex auto-correlation data (C24_auto_complex_refuted)."
  },
  {
   "property": "C25",
   "status": "partial",
   "theorems": [
    "Cddm.C25_optimal",
    "Cddm.C25_optimal_complex",
    "Cddm.C25_sigma",
    "Cddm.C25_range",
    "Cddm.C25_range_complex",
    "Cddm.C25_prime_partial",
    "Cddm.C25_prime_refuted"
   ],
   "note": "weight_from_g/weight_from_d fully proved. weight_prime_from_g is the minimiser for physical data |g|^2 <= 1 - delta^2 (C25_prime_partial) but not for arbitrary data: C25_prime_refuted gives g = 3, backgrounds +-2, where the returned weight is the maximum."
  },
  {
   "property": "C26",
   "status": "proved",
   "theorems": [
    "Cddm.C26_between",
    "Cddm.C26_ends",
    "Cddm.C26_complex",
    "Cddm.C26_normalize",
    "Cddm.C26_normalize_complex",
    "Cddm.C26_given_weight"
   ],
   "note": "Weighted normalization interpolates between standard and structured: all parts of the statement, see the theorems."
  },
  {
   "property": "C27",
   "status": "proved",
   "theorems": [
    "Cddm.C27_real",
    "Cddm.C27_real_data",
    "Cddm.C27_one_variance"
   ],
   "note": "The error estimate is a real number for physical data: all parts of the statement, see the theorems."
  },
  {
   "property": "C28",
   "status": "proved",
   "theorems": [
    "Cddm.C28_rejects",
    "Cddm.C28_rejects_complex",
    "Cddm.C28_never_silent",
    "Cddm.C28_iff",
    "Cddm.C28_iff_complex",
    "Cddm.C28_default",
    "Cddm.C28_not_data",
    "Cddm.C28_string"
   ],
   "note": "normalize rejects what it cannot compute: all parts of the statement, see the theorems."
  },
  {
   "property": "C29",
   "status": "partial",
   "theorems": [
    "Cddm.C29_fold_mean",
    "Cddm.C29_fold_positive",
    "Cddm.C29_fold_negative_partial",
    "Cddm.C29_fold_negative_refuted",
    "Cddm.C29_fold_rejects",
    "Cddm.C29_equalize",
    "Cddm.C29_shift",
    "Cddm.C29_take",
    "Cddm.C29_take_rejects"
   ],
   "note": "Proved: fold_data mode 0 and 1, equalize_data, shift_data moduli and symmetry, take_data, refusals. False of the code for fold_data(mode=-1): cell k holds delay -(k+1) and the last cell the largest positive delay (C29_fold_negative_partial states what is returned, C29_fold_negative_refuted a concrete array)."
  },
  {
   "property": "C30",
   "status": "proved",
   "theorems": [
    "Cddm.C30_buffers",
    "Cddm.C30_channel",
    "Cddm.C30_read"
   ],
   "note": "Streaming binning equals block averages: all parts of the statement, see the theorems."
  },
  {
   "property": "C31",
   "status": "proved",
   "theorems": [
    "Cddm.C31_iccorr_multi_full",
    "Cddm.C31_iccorr_multi_full_complex",
    "Cddm.C31_iacorr_multi_full",
    "Cddm.C31_iccorr_multi_full_eq_ccorr",
    "Cddm.C31_iccorr_multi_full_complex_eq_ccorr",
    "Cddm.C31_iacorr_multi_full_eq_acorr",
    "Cddm.C31_spaced_regular",
    "Cddm.C31_spaced_period",
    "Cddm.C31_spaced_call",
    "Cddm.C31_case_regular",
    "Cddm.C31_case_irregular",
    "Cddm.C31_case_fft"
   ],
   "note": "Chunked 'full' correlation equals the un-chunked one: all parts of the statement, see the theorems."
  },
  {
   "property": "C32",
   "status": "proved",
   "theorems": [
    "Cddm.C32_iccorr_multi_chunk",
    "Cddm.C32_iccorr_multi_chunk_complex",
    "Cddm.C32_iacorr_multi_chunk",
    "Cddm.C32_iacorr_multi_chunk_complex",
    "Cddm.C32_iccorr_multi_counts",
    "Cddm.C32_iccorr_multi_counts_complex",
    "Cddm.C32_iacorr_multi_counts",
    "Cddm.C32_iacorr_multi_counts_complex"
   ],
   "note": "'chunk' mode is the sum of independent chunk results: all parts of the statement, see the theorems."
  },
  {
   "property": "C33",
   "status": "partial",
   "theorems": [
    "Cddm.C33_default_chunk",
    "Cddm.C33_given_chunk",
    "Cddm.C33_frames",
    "Cddm.C33_frames_unique",
    "Cddm.C33_iccorr_multi_partial",
    "Cddm.C33_iccorr_multi_complex_partial",
    "Cddm.C33_iacorr_multi_partial",
    "Cddm.C33_iacorr_multi_complex_partial",
    "Cddm.C33_empty_one_frame_false"
   ],
   "note": "Default and given chunk sizes, the number of frames consumed and the ValueError for too short inputs are proved for every call. The error claim is false in one corner: an empty iterator with one requested frame raises UnboundLocalError instead of ValueError (C33_empty_one_frame_false), so the theorems carry the side condition that the input is non-empty or more than one frame is requested."
  },
  {
   "property": "C34",
   "status": "partial",
   "theorems": [
    "Cddm.C34_iccorr_multi_partial",
    "Cddm.C34_iacorr_multi_partial",
    "Cddm.C34_small_level_false",
    "Cddm.C34_complex_false"
   ],
   "note": "Proved (streaming = in-memory, all arrays of the fast part and every level) for real data, block-mean binning, spaced frame times, level size >= 5 and default nlevel or nlevel not above the number of chunk doublings. False for level sizes below 5, which only the in-memory version refuses (C34_small_level_false), and for complex data (C34_complex_false: slow levels of the in-memory version have 2n+1 cells)."
  },
  {
   "property": "C35",
   "status": "partial",
   "theorems": [
    "Cddm.C35_memory",
    "Cddm.C35_buffers",
    "Cddm.C35_iccorr_multi_levels",
    "Cddm.C35_iccorr_multi_complex_levels",
    "Cddm.C35_iacorr_multi_levels",
    "Cddm.C35_iccorr_multi_partial",
    "Cddm.C35_iacorr_multi_partial",
    "Cddm.C35_case",
    "Cddm.C35_iccorr_multi_false"
   ],
   "note": "The claim is false of the code: the streaming buffers keep the last frame of every block and the in-memory slicing keeps the first one, so streamed slow levels differ from four chunks on (C35_iccorr_multi_false). Proved outright: what every streamed level contains (C35_*_levels, C35_buffers) and what the in-memory function contains (C35_memory); equality with the in-memory result for at most two chunks and default nlevel (C35_*_partial)."
  },
  {
   "property": "C36",
   "status": "partial",
   "theorems": [
    "Cddm.C36_iccorr_multi_false",
    "Cddm.C36_case",
    "Cddm.C36_iccorr_multi_partial",
    "Cddm.C36_iccorr_multi_complex_partial",
    "Cddm.C36_iacorr_multi_partial",
    "Cddm.C36_iacorr_multi_complex_partial"
   ],
   "note": "False of the code when the default number of levels exceeds the number of times the chunk can be doubled (C36_iccorr_multi_false, e.g. the default arguments with 64 frames, C36_case): the counts of the last levels stay zero. Proved for block-mean binning when the default number of levels is within the number of doublings (C36_*_partial, cross and auto, real and complex, both modes)."
  },
  {
   "property": "C37",
   "status": "partial",
   "theorems": [
    "Cddm.C37_iacorr_multi_complex_full_is_chunk",
    "Cddm.C37_iacorr_complex_full_is_chunk",
    "Cddm.C37_case",
    "Cddm.C37_case_regular",
    "Cddm.C37_iacorr_complex_false",
    "Cddm.C37_iacorr_multi_complex_partial"
   ],
   "note": "The claim is false of the code. Whenever the frame times increase from chunk to chunk, mode 'full' returns exactly what mode 'chunk' returns (C37_iacorr_*_full_is_chunk), so pairs of frames in different chunks are missing; C37_iacorr_complex_false compares the counts [4,2] with acorr's [4,3] for any four frames. Equality with acorr is proved for a single chunk (C37_iacorr_multi_complex_partial)."
  },
  {
   "property": "C38",
   "status": "proved",
   "theorems": [
    "Cddm.C38_cross_mean",
    "Cddm.C38_cross_mean_nlevel",
    "Cddm.C38_auto_mean",
    "Cddm.C38_auto_mean_nlevel",
    "Cddm.C38_cross_first",
    "Cddm.C38_auto_first",
    "Cddm.C38_cross_choose",
    "Cddm.C38_rejects_binning",
    "Cddm.C38_rejects_levels"
   ],
   "note": "In-memory slow levels are block averages of sufficient length: all parts of the statement, see the theorems."
  },
  {
   "property": "C39",
   "status": "proved",
   "theorems": [
    "Cddm.C39_iccorr_multi_stats",
    "Cddm.C39_iccorr_multi_stats_complex",
    "Cddm.C39_iacorr_multi_stats",
    "Cddm.C39_iacorr_multi_stats_complex",
    "Cddm.C39_variance_nonneg",
    "Cddm.C39_variance_eq"
   ],
   "note": "Statistics returned by the iterators are mean and variance of the processed frames: all parts of the statement, see the theorems."
  },
  {
   "property": "C40",
   "status": "proved",
   "theorems": [
    "Cddm.C40_iccorr_multi",
    "Cddm.C40_iccorr_multi_complex",
    "Cddm.C40_iacorr_multi",
    "Cddm.C40_iacorr_multi_complex"
   ],
   "note": "auto_background subtracts one fixed background from every frame: all parts of the statement, see the theorems."
  },
  {
   "property": "C41",
   "status": "proved",
   "theorems": [
    "Cddm.C41_kernel",
    "Cddm.C41_unimodal"
   ],
   "note": "Triangular kernel is a normalised average: all parts of the statement, see the theorems."
  },
  {
   "property": "C42",
   "status": "proved",
   "theorems": [
    "Cddm.C42_mean",
    "Cddm.C42_first",
    "Cddm.C42_choose",
    "Cddm.C42_mean_bounds",
    "Cddm.C42_last_level",
    "Cddm.C42_rejects",
    "Cddm.C42_complex"
   ],
   "note": "Log-averaging levels are triangular averages at the stated times: all parts of the statement, see the theorems."
  },
  {
   "property": "C43",
   "status": "proved",
   "theorems": [
    "Cddm.C43_merge_full",
    "Cddm.C43_merge_half",
    "Cddm.C43_rejects",
    "Cddm.C43_first",
    "Cddm.C43_log_average",
    "Cddm.C43_log_average_rejects",
    "Cddm.C43_log_average_complex"
   ],
   "note": "Merged log-spaced time axis is strictly increasing and matches its data: all parts of the statement, see the theorems."
  },
  {
   "property": "C44",
   "status": "partial",
   "theorems": [
    "Cddm.C44_log_merge",
    "Cddm.C44_valid_increasing",
    "Cddm.C44_increasing_iff",
    "Cddm.C44_increasing_partial",
    "Cddm.C44_increasing_refuted",
    "Cddm.C44_t_multilevel",
    "Cddm.C44_rejects"
   ],
   "note": "log_merge concatenates the linear axis and the doubled level axes, and the points with valid data are always strictly increasing (C44_valid_increasing). The whole axis is strictly increasing exactly when the criterion of C44_increasing_iff holds, in particular for a period that is a power of two (C44_increasing_partial); for other periods it is false of the code (C44_increasing_refuted: period 3)."
  },
  {
   "property": "C45",
   "status": "proved",
   "theorems": [
    "Cddm.C45_median",
    "Cddm.C45_short",
    "Cddm.C45_in_place",
    "Cddm.C45_slow",
    "Cddm.C45_values",
    "Cddm.C45_complex"
   ],
   "note": "Median filter returns true medians: all parts of the statement, see the theorems."
  },
  {
   "property": "C46",
   "status": "proved",
   "theorems": [
    "Cddm.C46_convolve",
    "Cddm.C46_short",
    "Cddm.C46_affine",
    "Cddm.C46_linear",
    "Cddm.C46_bounds",
    "Cddm.C46_denoise",
    "Cddm.C46_denoise_const",
    "Cddm.C46_denoise_complex",
    "Cddm.C46_in_place_differs"
   ],
   "note": "Smoothing keeps bounds and constants: all parts of the statement, see the theorems."
  },
  {
   "property": "C47",
   "status": "partial",
   "theorems": [
    "Cddm.C47_decreasing",
    "Cddm.C47_decreasing_monotone",
    "Cddm.C47_increasing_partial",
    "Cddm.C47_increasing_general",
    "Cddm.C47_increasing_refuted"
   ],
   "note": "`decreasing` is fully proved. For `increasing` the property as stated is false of the code: out[0] is never written (C47_increasing_refuted); C47_increasing_partial proves the envelope for every other cell, and C47_increasing_general gives the exact result from whatever out[0] contained."
  },
  {
   "property": "C48",
   "status": "proved",
   "theorems": [
    "Cddm.C48_inside",
    "Cddm.C48_right",
    "Cddm.C48_chord",
    "Cddm.C48_nodes",
    "Cddm.C48_line",
    "Cddm.C48_call",
    "Cddm.C48_between",
    "Cddm.C48_log_nodes",
    "Cddm.C48_log_call",
    "Cddm.C48_log_nodes_positive",
    "Cddm.C48_log_mixed_refuted",
    "Cddm.C48_log_unwritten"
   ],
   "note": "Interpolation is exact at nodes and for straight lines: all parts of the statement, see the theorems."
  },
  {
   "property": "C49",
   "status": "proved",
   "theorems": [
    "Cddm.C49_shape",
    "Cddm.C49_shape_cropped",
    "Cddm.C49_shape_error",
    "Cddm.C49_as_rfft2_data",
    "Cddm.C49_as_rfft2_conj",
    "Cddm.C49_as_rfft2_conj_empty",
    "Cddm.C49_as_rfft2_mask",
    "Cddm.C49_from_rfft2_data",
    "Cddm.C49_round_trip",
    "Cddm.C49_round_trip_half"
   ],
   "note": "Half-space / full-space FFT conversion round trip: all parts of the statement, see the theorems."
  },
  {
   "property": "C50",
   "status": "partial",
   "theorems": [
    "Cddm.C50_rfft2_crop_partial",
    "Cddm.C50_fft2_crop_partial",
    "Cddm.C50_rfft2_crop_zero_false",
    "Cddm.C50_fft2_crop_zero_false",
    "Cddm.C50_rfft2_crop_error",
    "Cddm.C50_fft2_crop_error",
    "Cddm.C50_rfft2_crop_frames_partial",
    "Cddm.C50_fft2_crop_frames_partial",
    "Cddm.C50_rfft2_crop_frames_error",
    "Cddm.C50_fft2_crop_frames_error",
    "Cddm.C50_rfft2_crop_one_axis_false"
   ],
   "note": "False of the code for cutoff 0 along a signed axis with more than one row or column: the slice [-0:] is the whole axis and the assignment raises ValueError (C50_rfft2_crop_zero_false, C50_fft2_crop_zero_false). For every other cutoff all frequencies are kept and all cells written (C50_*_crop_partial); too large cutoffs raise ValueError (C50_*_crop_error). For arrays with any number of leading axes (several frames) the same holds in every frame (C50_*_frames_*); an array of one axis raises IndexError as soon as a cutoff is given (C50_rfft2_crop_one_axis_false)."
  },
  {
   "property": "C51",
   "status": "proved",
   "theorems": [
    "Cddm.C51_fft2_sector_indexmap",
    "Cddm.C51_sector_indexmap",
    "Cddm.C51_bins_disjoint",
    "Cddm.C51_bins_cover",
    "Cddm.C51_refused",
    "Cddm.C51_half_refused",
    "Cddm.C51_fft2_k_indexmap",
    "Cddm.C51_fft2_k_indexmap_rfft2",
    "Cddm.C51_k_indexmap",
    "Cddm.C51_edges"
   ],
   "note": "Directions between -pi (included) and pi, which is what fft2_kangle gives; one of the two edges of the sector belongs to it, the upper one if the sector crosses +-180 (+-90) degrees and the lower one otherwise, see C51_edges. Positive k step."
  },
  {
   "property": "C52",
   "status": "partial",
   "theorems": [
    "Cddm.C52_fft2_many_partial",
    "Cddm.C52_one_false",
    "Cddm.C52_one_type_error",
    "Cddm.C52_rfft2_false",
    "Cddm.C52_rfft2_many_false"
   ],
   "note": "False of the code for a single k, which always ends in TypeError (C52_one_false, C52_one_type_error), and for half-space data, the default mode, of three or more columns: conj_mask has the wrong shape and the call raises IndexError or, with a mask, ValueError (C52_rfft2_false, C52_rfft2_many_false). For full-space data and a list of k, or none, the claim holds (C52_fft2_many_partial). One lag time, no leading axes (arrays: C122)."
  },
  {
   "property": "C53",
   "status": "proved",
   "theorems": [
    "Cddm.C53_mirror",
    "Cddm.C53_mirror_unique",
    "Cddm.C53_mirror_hangs",
    "Cddm.C53_mirror_empty",
    "Cddm.C53_brownian_walk",
    "Cddm.C53_coordinate_transform",
    "Cddm.C53_turned",
    "Cddm.C53_rigid"
   ],
   "note": "Exact reals. A box with x1 < x0 makes mirror hang (C53_mirror_hangs). Rounding, by which huge float coordinates never reach the box, is not modelled."
  },
  {
   "property": "C54",
   "status": "partial",
   "theorems": [
    "Cddm.C54_draw_psf",
    "Cddm.C54_total",
    "Cddm.C54_position_partial",
    "Cddm.C54_position_refuted",
    "Cddm.C54_too_large",
    "Cddm.C54_rejected",
    "Cddm.C54_draw_points"
   ],
   "note": "In-bounds drawing, exact periodic placement and conservation of the light are proved for sequential drawing on exact reals. The total does not depend on whole-pixel shifts; that it is the same for all positions is false, the light depends on where in its pixel the particle is (C54_position_refuted). A psf larger than the image is drawn outside (C54_too_large). Parallel drawing: C97."
  },
  {
   "property": "C55",
   "status": "proved",
   "theorems": [
    "Cddm.C55_clean",
    "Cddm.C55_monotone_digitized",
    "Cddm.C55_clean_monotone",
    "Cddm.C55_adc",
    "Cddm.C55_adc_noise",
    "Cddm.C55_rejected",
    "Cddm.C55_gaussian_monotone",
    "Cddm.C55_gaussian_not_monotone",
    "Cddm.C55_bit"
   ],
   "note": "Exact reals. With Gaussian noise monotone for a non-negative black level and the same random number; false for a negative one (C55_gaussian_not_monotone). Zero saturation, NaN and more than 16 bits are not modelled."
  },
  {
   "property": "C56",
   "status": "proved",
   "theorems": [
    "Cddm.C56_random_time",
    "Cddm.C56_spacing",
    "Cddm.C56_random_times1",
    "Cddm.C56_random_times2",
    "Cddm.C56_rejected"
   ],
   "note": "Random trigger times respect the minimum spacing: all parts of the statement, see the theorems."
  },
  {
   "property": "C57",
   "status": "partial",
   "theorems": [
    "Cddm.C57_trigger_partial",
    "Cddm.C57_negative",
    "Cddm.C57_refuted"
   ],
   "note": "Proved for non-empty index lists without negative indices. One negative index suppresses everything and an empty list raises IndexError (C57_negative, C57_refuted)."
  },
  {
   "property": "C58",
   "status": "proved",
   "theorems": [
    "Cddm.C58_pairs",
    "Cddm.C58_kth",
    "Cddm.C58_random_times",
    "Cddm.C58_condition_needed",
    "Cddm.C58_single"
   ],
   "note": "Dual-camera simulation pairs the right frames: all parts of the statement, see the theorems."
  },
  {
   "property": "C59",
   "status": "partial",
   "theorems": [
    "Cddm.C59_asarrays",
    "Cddm.C59_asmemmaps",
    "Cddm.C59_round_trip",
    "Cddm.C59_count_none",
    "Cddm.C59_load",
    "Cddm.C59_too_many",
    "Cddm.C59_rejected",
    "Cddm.C59_missing_refuted",
    "Cddm.C59_camera_missing_refuted",
    "Cddm.C59_complete_partial"
   ],
   "note": "Round trip, too many frames, rejected arguments and load are proved for all inputs. \"Missing rows are never presented\" is false of the code: asarrays succeeds with uninitialised rows (C59_missing_refuted), also when a later multi-frame has fewer cameras. Negative counts and print timing are not modelled."
  },
  {
   "property": "C60",
   "status": "proved",
   "theorems": [
    "Cddm.C60_combine",
    "Cddm.C60_length",
    "Cddm.C60_mismatch",
    "Cddm.C60_op_error",
    "Cddm.C60_add_subtract",
    "Cddm.C60_inplace"
   ],
   "note": "The operation on two frames is a parameter, so all dtypes are covered; add undoes subtract in every commutative group (also integers that wrap around)."
  },
  {
   "property": "C61",
   "status": "partial",
   "theorems": [
    "Cddm.C61_threaded_prefix",
    "Cddm.C61_threaded_ends",
    "Cddm.C61_threaded_partial",
    "Cddm.C61_threaded_refuted",
    "Cddm.C61_queue_bound",
    "Cddm.C61_play_threaded_prefix",
    "Cddm.C61_play_threaded"
   ],
   "note": "Worker and consumer are interleaved step by step under every schedule. play_threaded yields exactly the frames. threaded yields a None after them (C61_threaded_refuted). Termination assumes that both threads are scheduled again and again. An exception of the video in the worker is not passed on: the stream just ends."
  },
  {
   "property": "C62",
   "status": "partial",
   "theorems": [
    "Cddm.C62_show_video",
    "Cddm.C62_show_video_bad_id",
    "Cddm.C62_show_diff",
    "Cddm.C62_show_diff_partial",
    "Cddm.C62_show_diff_refuted",
    "Cddm.C62_show_diff_cameras_refuted",
    "Cddm.C62_play",
    "Cddm.C62_play_zero",
    "Cddm.C62_display_queue"
   ],
   "note": "play and show_video as claimed (fps not 0, id a camera). show_diff drops frames beyond the given times and raises for a number of cameras other than two (refuted). The drawing itself is not modelled."
  },
  {
   "property": "C63",
   "status": "partial",
   "theorems": [
    "Cddm.C63_restored",
    "Cddm.C63_silent",
    "Cddm.C63_flat_partial",
    "Cddm.C63_nested_refuted",
    "Cddm.C63_negative_refuted",
    "Cddm.C63_exception_refuted",
    "Cddm.C63_level_ignored",
    "Cddm.C63_set_verbose"
   ],
   "note": "Code with nested regions is modelled as a tree and executed for every tree and level. The level is restored from every level >= 0 if nothing is raised; nothing is printed in regions that contain no other region. Refuted: after an inner region the outer one prints; negative levels and levels after an exception are not restored; the argument of enable_prints is ignored."
  },
  {
   "property": "C64",
   "status": "proved",
   "theorems": [
    "Cddm.C64_installed",
    "Cddm.C64_dispatch",
    "Cddm.C64_invalid",
    "Cddm.C64_fftlib",
    "Cddm.C64_showlib",
    "Cddm.C64_restore",
    "Cddm.C64_verbose"
   ],
   "note": "All histories of the four setters and all subsets of installed libraries. Levels are integers; the number of threads is not modelled."
  },
  {
   "property": "C65",
   "status": "proved",
   "theorems": [
    "Cddm.C65_blackman",
    "Cddm.C65_blackman_value",
    "Cddm.C65_tukey",
    "Cddm.C65_tukey_edge",
    "Cddm.C65_hann",
    "Cddm.C65_gaussian",
    "Cddm.C65_invalid"
   ],
   "note": "Over the reals; rounding to the float type is not modelled."
  },
  {
   "property": "C66",
   "status": "partial",
   "theorems": [
    "Cddm.C66_thread_frame_shape",
    "Cddm.C66_thread_frame_shape_none",
    "Cddm.C66_thread_frame_shape_pixels",
    "Cddm.C66_divisor_zero",
    "Cddm.C66_divisor_negative_refuted",
    "Cddm.C66_unmasked_partial",
    "Cddm.C66_1d_refuted",
    "Cddm.C66_1d_divisor_refuted",
    "Cddm.C66_levels_divisor_refuted",
    "Cddm.C66_last_axis_partial",
    "Cddm.C66_axis_mixes_refuted",
    "Cddm.C66_middle_axis_mixes_refuted",
    "Cddm.C66_masked_partial",
    "Cddm.C66_mask_axis",
    "Cddm.C66_mask_divisor_refuted",
    "Cddm.C66_mask_1d_refuted",
    "Cddm.C66_shape_none_refuted",
    "Cddm.C66_frame",
    "Cddm.C66_frame_masked"
   ],
   "note": "Frames of two or more axes with time along axis 0 or last, any divisor without levels, two axes with levels: the results are exactly those of the direct computation; masks of two axes (more without levels) without divisor: NaN outside. thread_frame_shape keeps the number of pixels or raises. False of the code, with proofs of the failure: 1-D frames gain an axis or raise, mask with divisor, 1-D masks, shape=None with a mask, 3-D frames with levels and divisor, time along a middle axis mixes pixels and times, divisor 0 is ZeroDivisionError. Normalized (single array) data and masks of only some axes not modelled."
  },
  {
   "property": "C67",
   "status": "partial",
   "theorems": [
    "Cddm.C67_iccorr_no_result",
    "Cddm.C67_iccorr_complex_no_result",
    "Cddm.C67_iccorr_default_false",
    "Cddm.C67_iacorr_default_false",
    "Cddm.C67_iacorr_complex_default_false",
    "Cddm.C67_iacorr_no_result",
    "Cddm.C67_iccorr_partial",
    "Cddm.C67_iccorr_complex_partial",
    "Cddm.C67_iacorr_partial"
   ],
   "note": "The claim is false of the code: iccorr and iacorr never return a result when n is omitted (TypeError, C67_*_no_result, C67_iccorr_default_false), and iacorr rejects its own default norm=0 (ValueError, C67_iacorr_*default_false). With n (and for iacorr a supported norm) given, the result is that of ccorr / acorr (C67_*_partial)."
  },
  {
   "property": "C68",
   "status": "partial",
   "theorems": [
    "Cddm.C68_list",
    "Cddm.C68_list_short",
    "Cddm.C68_generator",
    "Cddm.C68_generator_step_partial",
    "Cddm.C68_generator_forward_refuted",
    "Cddm.C68_camera"
   ],
   "note": "Lists: the image is always that of the selected frame, after any history of slider, buttons and playing. Generators: the image is always that of the furthest frame selected so far; moving forward beyond it shows the selected frame, moving back leaves the image. Missing because false of the code: moving forward after moving back, without passing the furthest frame, does not show the selected frame (C68_generator_forward_refuted). Drawing and matplotlib itself are not modelled."
  },
  {
   "property": "C69",
   "status": "proved",
   "theorems": [
    "Cddm.C69_click",
    "Cddm.C69_history",
    "Cddm.C69_boxes",
    "Cddm.C69_start",
    "Cddm.C69_reachable",
    "Cddm.C69_set_data_refuted",
    "Cddm.C69_set_norm_refuted"
   ],
   "note": "All click histories for fixed data. Outside the claim, shown to fail: set_data does not check the norm (then a click can recurse without end) and set_norm does not update the boxes."
  },
  {
   "property": "C70",
   "status": "partial",
   "theorems": [
    "Cddm.C70_scale_partial",
    "Cddm.C70_refuted"
   ],
   "note": "Proved for a single variance or two equal variances (C70_scale_partial). False of the code for different variances: noise_delta is not divided by the scale factor when scale=False although the data are (C70_refuted)."
  },
  {
   "property": "C71",
   "status": "partial",
   "theorems": [
    "Cddm.C71_equalize_partial",
    "Cddm.C71_equalize_refuted",
    "Cddm.C71_shift_refuted",
    "Cddm.C71_shift_actual"
   ],
   "note": "Proved for equalize_data and data with positive real parts (C71_equalize_partial). False of the code otherwise: equalize_data changes the sign of values with negative real part (C71_equalize_refuted); shift_data returns the moduli of aligned data (C71_shift_actual, C71_shift_refuted), because it takes the half difference of the phases instead of the half sum."
  },
  {
   "property": "C72",
   "status": "partial",
   "theorems": [
    "Cddm.C72_complex_levels_false",
    "Cddm.C72_complex_fast_partial"
   ],
   "note": "False of the code for the slow levels (C72_complex_levels_false): 2n+1 correlation cells against n counts. The fast part is proved right (C72_complex_fast_partial)."
  },
  {
   "property": "C73",
   "status": "partial",
   "theorems": [
    "Cddm.C73_mean_partial",
    "Cddm.C73_mean",
    "Cddm.C73_pick",
    "Cddm.C73_level_zero",
    "Cddm.C73_bounds",
    "Cddm.C73_constant",
    "Cddm.C73_log_average",
    "Cddm.C73_rejects",
    "Cddm.C73_wide_refuted"
   ],
   "note": "Effective counts proved for every level size from 4 on (and for 2 and 3 whenever the kernel is not longer than the data), with bounds, the constant case, missing cells and log_average_count; for level size 2 the claim is refuted when the kernel is longer than the data, because np.convolve then centres it differently."
  },
  {
   "property": "C74",
   "status": "partial",
   "theorems": [
    "Cddm.C74_cross",
    "Cddm.C74_auto",
    "Cddm.C74_levels",
    "Cddm.C74_levels_refuted",
    "Cddm.C74_cross_slow_partial",
    "Cddm.C74_auto_slow_partial",
    "Cddm.C74_cross_zero_refuted",
    "Cddm.C74_fast_refuted",
    "Cddm.C74_log_merge"
   ],
   "note": "Closed forms of both count arrays without averaging; slow levels compared with the counts of ccorr_multi/acorr_multi (equal if the block length divides the number of frames, else less than one pair (two counts) below); time axis of log_merge_count. Refuted: number of levels unless the number of frames is n*2^k, delay 0 of slow cross-correlation levels (doubled), the linear part (delay 0 of acorr is 0, last cell one delay too far)."
  },
  {
   "property": "C75",
   "status": "partial",
   "theorems": [
    "Cddm.C75_fft2",
    "Cddm.C75_fft2_empty",
    "Cddm.C75_inverse",
    "Cddm.C75_libraries",
    "Cddm.C75_complex_refuted",
    "Cddm.C75_hermitian",
    "Cddm.C75_recover",
    "Cddm.C75_rfft2_video_partial",
    "Cddm.C75_fft2_video_partial",
    "Cddm.C75_failure"
   ],
   "note": "Proved for frames of real numbers with all cutoffs except 0 on an axis of signed frequencies (fails, C50) and exact arithmetic. For complex frames the libraries differ (C75_complex_refuted)."
  },
  {
   "property": "C76",
   "status": "proved",
   "theorems": [
    "Cddm.C76_normalize_video",
    "Cddm.C76_normalize_fft",
    "Cddm.C76_zero",
    "Cddm.C76_empty",
    "Cddm.C76_scale",
    "Cddm.C76_commute"
   ],
   "note": "One video at a time, exact numbers; a frame with zero mean is an explicit non-finite value."
  },
  {
   "property": "C77",
   "status": "partial",
   "theorems": [
    "Cddm.C77_spectrum_partial",
    "Cddm.C77_dls",
    "Cddm.C77_video",
    "Cddm.C77_rejects",
    "Cddm.C77_uniform",
    "Cddm.C77_opposite_refuted",
    "Cddm.C77_real"
   ],
   "note": "The convolution is proved for all frames and windows; with cutoffs except 0. The claim about which wave vector passes is false: it is the opposite one (C77_uniform, C77_opposite_refuted); for real frames this is the complex conjugate (C77_real)."
  },
  {
   "property": "C78",
   "status": "proved",
   "theorems": [
    "Cddm.C78_stats",
    "Cddm.C78_stats_two",
    "Cddm.C78_best",
    "Cddm.C78_constant",
    "Cddm.C78_given",
    "Cddm.C78_subtract",
    "Cddm.C78_zero_mean",
    "Cddm.C78_rejects",
    "Cddm.C78_unit"
   ],
   "note": "Mean, variance and background of a data set: all parts of the statement, see the theorems."
  },
  {
   "property": "C79",
   "status": "proved",
   "theorems": [
    "Cddm.C79_cross_mean_nlevel",
    "Cddm.C79_auto_mean_nlevel",
    "Cddm.C79_parts",
    "Cddm.C79_rejects",
    "Cddm.C79_cross_mean",
    "Cddm.C79_auto_mean",
    "Cddm.C79_cross_first",
    "Cddm.C79_auto_first",
    "Cddm.C79_cross_diff",
    "Cddm.C79_auto_diff",
    "Cddm.C79_bound"
   ],
   "note": "Normalization of multiple tau data: all parts of the statement, see the theorems."
  },
  {
   "property": "C80",
   "status": "proved",
   "theorems": [
    "Cddm.C80_level",
    "Cddm.C80_level_scale",
    "Cddm.C80_level_flat",
    "Cddm.C80_mean_corr",
    "Cddm.C80_mean_modes",
    "Cddm.C80_mean_normalized",
    "Cddm.C80_mean_rejects"
   ],
   "note": "Camera noise estimates: all parts of the statement, see the theorems."
  },
  {
   "property": "C81",
   "status": "partial",
   "theorems": [
    "Cddm.C81_corr",
    "Cddm.C81_unfiltered",
    "Cddm.C81_rejects",
    "Cddm.C81_diff_partial",
    "Cddm.C81_diff_refuted"
   ],
   "note": "Mode corr (the default) and unfiltered data are proved. False of the code for mode diff with pre_filter: the running maximum never writes its first element, so the first weight depends on uninitialised memory only (C81_diff_refuted); with the right content in that memory the claim holds (C81_diff_partial). One real curve; zero scale factor not modelled; optimality for delta = 0."
  },
  {
   "property": "C82",
   "status": "proved",
   "theorems": [
    "Cddm.C82_cross",
    "Cddm.C82_cross_complex",
    "Cddm.C82_auto",
    "Cddm.C82_difference",
    "Cddm.C82_structure_function",
    "Cddm.C82_scaled",
    "Cddm.C82_compensated_refuted"
   ],
   "note": "Normalised correlation is an unbiased estimate: all parts of the statement, see the theorems."
  },
  {
   "property": "C83",
   "status": "proved",
   "theorems": [
    "Cddm.C83_cross_times",
    "Cddm.C83_cross",
    "Cddm.C83_cross_linear",
    "Cddm.C83_auto",
    "Cddm.C83_log_average"
   ],
   "note": "Multiple tau levels estimate the triangular average of the covariance: all parts of the statement, see the theorems."
  },
  {
   "property": "C84",
   "status": "partial",
   "theorems": [
    "Cddm.C84_average_partial",
    "Cddm.C84_odd",
    "Cddm.C84_ring",
    "Cddm.C84_set_mask",
    "Cddm.C84_wave_number_partial",
    "Cddm.C84_wave_number_masked_refuted",
    "Cddm.C84_other_size_refuted",
    "Cddm.C84_order",
    "Cddm.C84_mode",
    "Cddm.C84_repr",
    "Cddm.C84_nyquist_refuted"
   ],
   "note": "False of the code for selections that contain Nyquist wave vectors (even sizes): C84_nyquist_refuted shows 3/2 instead of 2. Without them (C84_odd, C84_ring give conditions) the average is right after any sequence of calls (C84_average_partial). get_k raises IndexError for data of the computed cells only (C84_wave_number_masked_refuted), and a viewer cannot be used again for data of another size (C84_other_size_refuted). One lag time; drawing omitted."
  },
  {
   "property": "C85",
   "status": "partial",
   "theorems": [
    "Cddm.C85_iccorr_multi_result",
    "Cddm.C85_iacorr_multi_result",
    "Cddm.C85_iccorr_result",
    "Cddm.C85_iacorr_result",
    "Cddm.C85_iccorr_multi_every",
    "Cddm.C85_iacorr_multi_every",
    "Cddm.C85_iccorr_multi_progress",
    "Cddm.C85_iccorr_multi_progress_complex",
    "Cddm.C85_iacorr_multi_progress",
    "Cddm.C85_iacorr_multi_progress_complex",
    "Cddm.C85_iccorr_multi_number",
    "Cddm.C85_iacorr_multi_number",
    "Cddm.C85_iccorr_multi_last",
    "Cddm.C85_iacorr_multi_last",
    "Cddm.C85_iccorr_multi_ends",
    "Cddm.C85_iccorr_shown",
    "Cddm.C85_iacorr_shown",
    "Cddm.C85_iccorr_progress",
    "Cddm.C85_iacorr_progress",
    "Cddm.C85_zero_interval",
    "Cddm.C85_last_shown_refuted"
   ],
   "note": "False of the code: the viewer ends with the returned result only if viewer_interval divides the number of chunks (C85_iccorr_multi_last, C85_iccorr_multi_ends; C85_last_shown_refuted is the witness). Everything else is proved: result independent of viewer and stats and the selection of yields for all inputs; contents for all valid calls. Slow levels: binning by averaging and mode full; in-between contents of complex auto-correlation in mode full are omitted (already the result is wrong there, C37)."
  },
  {
   "property": "C86",
   "status": "partial",
   "theorems": [
    "Cddm.C86_walk",
    "Cddm.C86_steps_partial",
    "Cddm.C86_velocity_refuted",
    "Cddm.C86_delta_refuted",
    "Cddm.C86_delta_two_refuted",
    "Cddm.C86_rejected",
    "Cddm.C86_normal",
    "Cddm.C86_scattering"
   ],
   "note": "Proved for numbers and arrays as step size and velocity. For functions of the coordinates the documented step law is proved except where it is false of the code: a function as velocity is not multiplied by dt (C86_velocity_refuted), a function delta with values of the documented shape fails or acts on the coordinates (C86_delta_refuted, C86_delta_two_refuted)."
  },
  {
   "property": "C87",
   "status": "proved",
   "theorems": [
    "Cddm.C87_given",
    "Cddm.C87_random",
    "Cddm.C87_scattering",
    "Cddm.C87_callable",
    "Cddm.C87_rejected"
   ],
   "note": "The simulated particles have the scattering function of free diffusion: all parts of the statement, see the theorems."
  },
  {
   "property": "C88",
   "status": "proved",
   "theorems": [
    "Cddm.C88_dual",
    "Cddm.C88_single",
    "Cddm.C88_rejected"
   ],
   "note": "The simulated video shows the particles at the requested times: all parts of the statement, see the theorems."
  },
  {
   "property": "C89",
   "status": "proved",
   "theorems": [
    "Cddm.C89_cross",
    "Cddm.C89_difference",
    "Cddm.C89_cross_complex",
    "Cddm.C89_multi_times",
    "Cddm.C89_multi",
    "Cddm.C89_auto",
    "Cddm.C89_modes"
   ],
   "note": "Normalised correlation is unbiased on any probability space: all parts of the statement, see the theorems."
  },
  {
   "property": "C90",
   "status": "proved",
   "theorems": [
    "Cddm.C90_cross",
    "Cddm.C90_difference",
    "Cddm.C90_scaled",
    "Cddm.C90_complex",
    "Cddm.C90_auto",
    "Cddm.C90_multi"
   ],
   "note": "Simulated particles, correlated and normalised, give the scattering function of their diffusion: all parts of the statement, see the theorems."
  },
  {
   "property": "C91",
   "status": "partial",
   "theorems": [
    "Cddm.C91_corr_partial",
    "Cddm.C91_multi_partial",
    "Cddm.C91_signals_partial",
    "Cddm.C91_signals_complex_partial",
    "Cddm.C91_no_background",
    "Cddm.C91_errors",
    "Cddm.C91_fold_false_refuted",
    "Cddm.C91_fold_false_folds_refuted",
    "Cddm.C91_multi_one_sided_refuted",
    "Cddm.C91_log_partial",
    "Cddm.C91_log_complex_partial",
    "Cddm.C91_merge_partial",
    "Cddm.C91_linear_partial",
    "Cddm.C91_merge_complex_partial"
   ],
   "note": "As in C84, false of selections that contain Nyquist wave vectors. False of fold=False, which folds (C91_fold_false_refuted, C91_fold_false_folds_refuted), and of the folding of MultitauViewer, which drops the negative delays (C91_multi_one_sided_refuted). Otherwise the shown curve is the mean over the selected wave vectors after any sequence of calls (C91_corr_partial, C91_multi_partial), computed from the signals themselves in C91_signals_partial (real data) and C91_signals_complex_partial (norms without squares, every delay occurs). Log-averaging and merging of finite curves normalised with any norm and scale: C91_log_partial, C91_merge_partial and their complex versions; the linear plot of multi-tau data: C91_linear_partial. Drawing omitted."
  },
  {
   "property": "C92",
   "status": "partial",
   "theorems": [
    "Cddm.C92_data_partial",
    "Cddm.C92_curves_partial",
    "Cddm.C92_sliders_partial",
    "Cddm.C92_failed_calls",
    "Cddm.C92_other_axes_refuted",
    "Cddm.C92_negative_axis_refuted",
    "Cddm.C92_wrong_times_refuted"
   ],
   "note": "False of axes that are not the first ones in some order (C92_other_axes_refuted, C92_negative_axis_refuted) and of set_data with times of a wrong length, which fails but replaces the data (C92_wrong_times_refuted). Otherwise the shown curve is the mean over exactly the pixels at the indices set last, after any sequence of calls (C92_data_partial, C92_curves_partial), sliders included (C92_sliders_partial). An index for the axis of the times, data_repr (C84) and drawing are omitted."
  },
  {
   "property": "C93",
   "status": "partial",
   "theorems": [
    "Cddm.C93_subtracted",
    "Cddm.C93_baseline_partial",
    "Cddm.C93_plain",
    "Cddm.C93_plain_baseline_partial",
    "Cddm.C93_optimal",
    "Cddm.C93_optimal_baseline_partial",
    "Cddm.C93_background_weight_refuted",
    "Cddm.C93_conjugate_refuted"
   ],
   "note": "Norms 5, 6, 7, 13, 14, 15 as stated. Norms 1, 2, 3: sigma_prime_weighted and weight_prime_from_g only with the conjugate of the correlation; for the correlation itself the claim is false (C93_conjugate_refuted), and the weights normalize computes for norm 3 are not the best ones (C93_background_weight_refuted)."
  },
  {
   "property": "C94",
   "status": "proved",
   "theorems": [
    "Cddm.C94_uniform",
    "Cddm.C94_uniform_abs",
    "Cddm.C94_simultaneous",
    "Cddm.C94_simultaneous_abs"
   ],
   "note": "The random trigger times of cross-DDM sample every delay equally often on average: all parts of the statement, see the theorems."
  },
  {
   "property": "C95",
   "status": "partial",
   "theorems": [
    "Cddm.C95_expected_count_partial",
    "Cddm.C95_no_frames",
    "Cddm.C95_zero_delay_refuted",
    "Cddm.C95_regular_in_the_end",
    "Cddm.C95_minimum_time_refuted"
   ],
   "note": "The expected number of pairs at every delay is proved for dt_min <= 1, the default; the estimate equals it for n <= d <= nframes*n, exceeds it by d(n-d)/n^3 for 0 < d < n, and is n times too large at the delay 0 (refuted there). For dt_min > 1 the estimate is refuted (C95_minimum_time_refuted), and with dt_min = n the times become regular (C95_regular_in_the_end)."
  },
  {
   "property": "C96",
   "status": "proved",
   "theorems": [
    "Cddm.C96_random_times",
    "Cddm.C96_random_times_complex",
    "Cddm.C96_particles",
    "Cddm.C96_particles_complex"
   ],
   "note": "Signals recorded at the random times of cross-DDM give an unbiased correlation at every delay that was sampled: all parts of the statement, see the theorems."
  },
  {
   "property": "C97",
   "status": "partial",
   "theorems": [
    "Cddm.C97_ends",
    "Cddm.C97_between",
    "Cddm.C97_one_worker",
    "Cddm.C97_same_image_partial",
    "Cddm.C97_refuted"
   ],
   "note": "False of the code for particles of different workers that share a pixel: light is lost (C97_refuted). Proved: the drawing ends, pixels touched by one worker only are exact in every interleaving, images of particles that do not overlap are those of sequential drawing, and no pixel ever gets more light than with sequential drawing or less than before. Reads and writes of one pixel are atomic."
  },
  {
   "property": "C98",
   "status": "proved",
   "theorems": [
    "Cddm.C98_full",
    "Cddm.C98_half",
    "Cddm.C98_no_window",
    "Cddm.C98_frame",
    "Cddm.C98_errors"
   ],
   "note": "Form factor: the power of one particle averaged over a mesh, and the factor of the power of a frame: all parts of the statement, see the theorems."
  },
  {
   "property": "C99",
   "status": "partial",
   "theorems": [
    "Cddm.C99_average_partial",
    "Cddm.C99_refuted"
   ],
   "note": "False of the code: the root mean square is returned (C99_refuted). Proved: it is at least the average absolute value, and equal to it without a window for a mesh of whole pixels."
  },
  {
   "property": "C100",
   "status": "proved",
   "theorems": [
    "Cddm.C100_crop",
    "Cddm.C100_args",
    "Cddm.C100_box",
    "Cddm.C100_whole",
    "Cddm.C100_twice",
    "Cddm.C100_combine",
    "Cddm.C100_errors"
   ],
   "note": "Cropping a video: all parts of the statement, see the theorems."
  },
  {
   "property": "C101",
   "status": "proved",
   "theorems": [
    "Cddm.C101_mask",
    "Cddm.C101_shape"
   ],
   "note": "Masking a video: all parts of the statement, see the theorems."
  },
  {
   "property": "C102",
   "status": "partial",
   "theorems": [
    "Cddm.C102_clip",
    "Cddm.C102_auto_partial",
    "Cddm.C102_flat_refuted",
    "Cddm.C102_errors"
   ],
   "note": "False of the code for flat frames without a clip (C102_flat_refuted). Proved for every given clip, and without one whenever something positive is shown."
  },
  {
   "property": "C103",
   "status": "partial",
   "theorems": [
    "Cddm.C103_difference_partial",
    "Cddm.C103_negative_refuted",
    "Cddm.C103_normalize",
    "Cddm.C103_means"
   ],
   "note": "False of the code for frames with negative values (C103_negative_refuted). Proved for frames without negative values that are not both black, and with normalize."
  },
  {
   "property": "C104",
   "status": "partial",
   "theorems": [
    "Cddm.C104_switches",
    "Cddm.C104_precision",
    "Cddm.C104_cache_partial",
    "Cddm.C104_cache_refuted"
   ],
   "note": "Caching is false of the code for numba 1.0 and later with parallel compilation (C104_cache_refuted); the rest is proved in full."
  },
  {
   "property": "C105",
   "status": "partial",
   "theorems": [
    "Cddm.C105_cores",
    "Cddm.C105_succeeds",
    "Cddm.C105_settings",
    "Cddm.C105_installed",
    "Cddm.C105_errors",
    "Cddm.C105_shipped_partial",
    "Cddm.C105_shipped_refuted"
   ],
   "note": "The import fails where the number of threads is out of range, also with the file as installed (C105_shipped_refuted); success, settings and errors are proved exactly."
  },
  {
   "property": "C106",
   "status": "partial",
   "theorems": [
    "Cddm.C106_home",
    "Cddm.C106_directory_partial",
    "Cddm.C106_directory_refuted"
   ],
   "note": "False of the code for TMP, whose value is not tested (C106_directory_refuted); the result is proved exactly (C106_home)."
  },
  {
   "property": "C107",
   "status": "proved",
   "theorems": [
    "Cddm.C107_cross_correlate",
    "Cddm.C107_auto_correlate",
    "Cddm.C107_cross_difference",
    "Cddm.C107_auto_difference",
    "Cddm.C107_cross_correlate_complex",
    "Cddm.C107_auto_correlate_complex",
    "Cddm.C107_factor",
    "Cddm.C107_nearest",
    "Cddm.C107_not_relative"
   ],
   "note": "The rounding errors of the correlation and difference functions are bounded: all parts of the statement, see the theorems."
  },
  {
   "property": "C108",
   "status": "proved",
   "theorems": [
    "Cddm.C108_cross_correlate",
    "Cddm.C108_auto_correlate",
    "Cddm.C108_cross_difference",
    "Cddm.C108_auto_difference",
    "Cddm.C108_cross_correlate_complex",
    "Cddm.C108_auto_correlate_complex",
    "Cddm.C108_nearest",
    "Cddm.C108_bound_needed"
   ],
   "note": "Correlations of whole numbers are computed without error: all parts of the statement, see the theorems."
  },
  {
   "property": "C109",
   "status": "partial",
   "theorems": [
    "Cddm.C109_auto_stamped",
    "Cddm.C109_auto_regular_partial",
    "Cddm.C109_auto_whole_stamped",
    "Cddm.C109_auto_whole_regular",
    "Cddm.C109_halves_nearest",
    "Cddm.C109_auto_refuted",
    "Cddm.C109_parts",
    "Cddm.C109_stamped",
    "Cddm.C109_stamped_signed",
    "Cddm.C109_regular_partial",
    "Cddm.C109_regular_signed_partial",
    "Cddm.C109_whole_stamped",
    "Cddm.C109_whole_stamped_signed",
    "Cddm.C109_whole_regular",
    "Cddm.C109_whole_regular_signed",
    "Cddm.C109_refuted",
    "Cddm.C109_refuted_stamped"
   ],
   "note": "With time stamps: all parts. Regular data: whole numbers exact; otherwise bounded by the moduli of the whole signal (C109_regular_partial, C109_regular_signed_partial); the stated bound is false there (C109_refuted). The same for auto_sum (C109_auto_regular_partial, C109_auto_refuted)."
  },
  {
   "property": "C110",
   "status": "proved",
   "theorems": [
    "Cddm.C110_same",
    "Cddm.C110_ends",
    "Cddm.C110_cross_corr",
    "Cddm.C110_cross_corr_complex",
    "Cddm.C110_cross_diff",
    "Cddm.C110_auto_corr",
    "Cddm.C110_auto_corr_complex",
    "Cddm.C110_auto_diff",
    "Cddm.C110_cross_sum",
    "Cddm.C110_cross_sum_complex",
    "Cddm.C110_cross_corr_regular",
    "Cddm.C110_cross_corr_complex_regular",
    "Cddm.C110_cross_diff_regular",
    "Cddm.C110_auto_corr_regular",
    "Cddm.C110_auto_corr_complex_regular",
    "Cddm.C110_auto_diff_regular",
    "Cddm.C110_cross_sum_regular",
    "Cddm.C110_cross_sum_complex_regular_inverted",
    "Cddm.C110_cross_sum_complex_regular",
    "Cddm.C110_shared_lost"
   ],
   "note": "Kernels run in parallel give the result of the sequential ones: all parts of the statement, see the theorems."
  },
  {
   "property": "C111",
   "status": "partial",
   "theorems": [
    "Cddm.C111_camera_partial",
    "Cddm.C111_subtract_partial",
    "Cddm.C111_float",
    "Cddm.C111_integer_type",
    "Cddm.C111_inplace",
    "Cddm.C111_restores",
    "Cddm.C111_inplace_background",
    "Cddm.C111_refuted"
   ],
   "note": "False of two camera frames: the operation is made modulo 2^bits before the conversion to dtype (C111_refuted). Proved: which pixels are right (C111_camera_partial, C111_subtract_partial, C111_integer_type); everything as soon as one frame is of floating-point numbers (C111_float); add undoes subtract; in place. Frames of different shapes and signed integers: C130."
  },
  {
   "property": "C112",
   "status": "partial",
   "theorems": [
    "Cddm.C112_difference",
    "Cddm.C112_keeps_partial",
    "Cddm.C112_keeps_refuted",
    "Cddm.C112_half_refuted",
    "Cddm.C112_opencv"
   ],
   "note": "False from numpy 2 on for pixels in the upper half of the range (C112_keeps_refuted, C112_half_refuted); below that, and before numpy 2, proved (C112_keeps_partial, C112_difference). OpenCV in full."
  },
  {
   "property": "C113",
   "status": "partial",
   "theorems": [
    "Cddm.C113_cross_correlate_partial",
    "Cddm.C113_cross_correlate_complex_partial",
    "Cddm.C113_auto_correlate_partial",
    "Cddm.C113_auto_correlate_complex_partial",
    "Cddm.C113_cross_difference_partial",
    "Cddm.C113_auto_difference_partial",
    "Cddm.C113_cross_sum_partial",
    "Cddm.C113_cross_sum_complex_partial",
    "Cddm.C113_cross_count_partial",
    "Cddm.C113_cross_count_complex_partial",
    "Cddm.C113_auto_count_partial",
    "Cddm.C113_auto_sum_partial",
    "Cddm.C113_refuted",
    "Cddm.C113_outside_refuted",
    "Cddm.C113_length_refuted",
    "Cddm.C113_cross_correlate_fft_partial",
    "Cddm.C113_cross_correlate_complex_fft_partial",
    "Cddm.C113_auto_correlate_fft_partial",
    "Cddm.C113_auto_correlate_complex_fft_partial",
    "Cddm.C113_cross_sum_fft_partial",
    "Cddm.C113_cross_sum_cdata_fft_partial",
    "Cddm.C113_cross_sum_complex_fft_partial",
    "Cddm.C113_cross_sum_complex_cdata_fft_partial",
    "Cddm.C113_auto_sum_fft_partial",
    "Cddm.C113_auto_sum_cdata_fft_partial",
    "Cddm.C113_fft_refuted",
    "Cddm.C113_cross_correlate_frames_partial",
    "Cddm.C113_cross_correlate_complex_frames_partial",
    "Cddm.C113_cross_difference_frames_partial",
    "Cddm.C113_auto_correlate_frames_partial",
    "Cddm.C113_auto_correlate_complex_frames_partial",
    "Cddm.C113_auto_difference_frames_partial",
    "Cddm.C113_cross_sum_frames_partial",
    "Cddm.C113_auto_sum_frames_partial",
    "Cddm.C113_frames_entries_partial",
    "Cddm.C113_frames_outside_refuted",
    "Cddm.C113_frames_refuted"
   ],
   "note": "False of stamps further than 2^63 - 1 apart (C113_refuted, C113_outside_refuted, C113_length_refuted); proved for all others. One signal, and stacks of frames (axis = 0, C113_*_frames_partial; failures C113_frames_refuted, C113_frames_outside_refuted). The FFT functions (cross/auto correlation and sums, one signal) equal the direct functions for stamps less than 2^62 - 1 apart (`C113_*_fft_partial`); with stamps 2^62 - 1 apart they refuse data the direct function accepts (`C113_fft_refuted`)."
  },
  {
   "property": "C114",
   "status": "partial",
   "theorems": [
    "Cddm.C114_cross_correlate_partial",
    "Cddm.C114_cross_correlate_complex_partial",
    "Cddm.C114_cross_difference_partial",
    "Cddm.C114_auto_correlate_partial",
    "Cddm.C114_auto_correlate_complex_partial",
    "Cddm.C114_cross_sum_partial",
    "Cddm.C114_cross_sum_complex_partial",
    "Cddm.C114_auto_sum_partial",
    "Cddm.C114_auto_difference_partial",
    "Cddm.C114_cross_count_partial",
    "Cddm.C114_auto_count_partial",
    "Cddm.C114_refuted",
    "Cddm.C114_auto_sum_refuted",
    "Cddm.C114_origin_refuted"
   ],
   "note": "False of times on both sides of the origin (C114_refuted), and of auto_sum for frames less than one unit of time apart, which are counted twice at delay 0 (C114_auto_sum_refuted); proved for times of one sign, auto_sum for frames at least one unit apart (C114_auto_sum_partial)."
  },
  {
   "property": "C115",
   "status": "partial",
   "theorems": [
    "Cddm.C115_auto_times",
    "Cddm.C115_auto_times_order",
    "Cddm.C115_cross_times",
    "Cddm.C115_cross_times_length",
    "Cddm.C115_auto_count_partial",
    "Cddm.C115_period",
    "Cddm.C115_cross_count_partial",
    "Cddm.C115_refuted",
    "Cddm.C115_zero_delay_refuted"
   ],
   "note": "False of times that are zero and of delays with more frame pairs than the table has columns (C115_refuted, C115_zero_delay_refuted); the tables are proved for all inputs, the counts for all others."
  },
  {
   "property": "C116",
   "status": "proved",
   "theorems": [
    "Cddm.C116_cross_correlate",
    "Cddm.C116_cross_correlate_complex",
    "Cddm.C116_cross_difference",
    "Cddm.C116_auto_correlate",
    "Cddm.C116_auto_correlate_complex",
    "Cddm.C116_auto_difference",
    "Cddm.C116_cross_sum",
    "Cddm.C116_cross_sum_complex",
    "Cddm.C116_auto_sum",
    "Cddm.C116_cross_values",
    "Cddm.C116_auto_values",
    "Cddm.C116_layout",
    "Cddm.C116_axis_rejected",
    "Cddm.C116_axis_ignored",
    "Cddm.C116_out_rejected"
   ],
   "note": "Arrays of any number of axes, any computation axis: all parts of the statement, see the theorems."
  },
  {
   "property": "C117",
   "status": "proved",
   "theorems": [
    "Cddm.C117_cross_correlate_fft",
    "Cddm.C117_cross_correlate_complex_fft",
    "Cddm.C117_auto_correlate_fft",
    "Cddm.C117_auto_correlate_complex_fft",
    "Cddm.C117_cross_sum_fft",
    "Cddm.C117_cross_sum_fft_complex",
    "Cddm.C117_auto_sum_fft",
    "Cddm.C117_auto_sum_fft_complex",
    "Cddm.C117_ccorr",
    "Cddm.C117_ccorr_complex",
    "Cddm.C117_acorr",
    "Cddm.C117_acorr_complex",
    "Cddm.C117_ccorr_values",
    "Cddm.C117_shapes_refused"
   ],
   "note": "The FFT functions, ccorr and acorr on arrays of any number of axes: all parts of the statement, see the theorems."
  },
  {
   "property": "C118",
   "status": "proved",
   "theorems": [
    "Cddm.C118_values",
    "Cddm.C118_same_as_subtracted",
    "Cddm.C118_complex_differences"
   ],
   "note": "The compensated subtracted formula; complex difference data: all parts of the statement, see the theorems."
  },
  {
   "property": "C119",
   "status": "partial",
   "theorems": [
    "Cddm.C119_each_wave_partial",
    "Cddm.C119_mask_partial",
    "Cddm.C119_mask_selects_partial",
    "Cddm.C119_taken_for_a_pair",
    "Cddm.C119_tuple_partial",
    "Cddm.C119_ccorr_partial",
    "Cddm.C119_two_wave_vectors_false"
   ],
   "note": "False of a single background (or variance) array whose first axis has length two, which is unpacked as a pair (C119_two_wave_vectors_false, C119_taken_for_a_pair); proved for all others. Arguments that stretch the data are not modelled."
  },
  {
   "property": "C120",
   "status": "proved",
   "theorems": [
    "Cddm.C120_multilevel",
    "Cddm.C120_multilevel_complex",
    "Cddm.C120_merge",
    "Cddm.C120_merge_half_entry",
    "Cddm.C120_log_average",
    "Cddm.C120_log_average_each",
    "Cddm.C120_log_average_complex",
    "Cddm.C120_log_merge",
    "Cddm.C120_log_merge_each",
    "Cddm.C120_log_merge_complex",
    "Cddm.C120_log_merge_frames"
   ],
   "note": "Arrays without rows (a frame axis of length zero) are covered for the shape only."
  },
  {
   "property": "C121",
   "status": "partial",
   "theorems": [
    "Cddm.C121_normalize_multi_partial",
    "Cddm.C121_mask_partial"
   ],
   "note": "False of a single background (or variance) array whose first axis has length two, which normalize unpacks as a pair (C119_two_wave_vectors_false); proved for all others."
  },
  {
   "property": "C122",
   "status": "partial",
   "theorems": [
    "Cddm.C122_frames",
    "Cddm.C122_pixels_partial",
    "Cddm.C122_pixels_taken_for_frames",
    "Cddm.C122_average_partial"
   ],
   "note": "False of pixels inside a mask if the number of levels and the number of pixels equal the sizes of the mask: they are taken for frames (C122_pixels_taken_for_frames). Otherwise, and for whole frames, each frame gives what it gives alone (C122_frames, C122_pixels_partial); the averages are right for full-space data (C122_average_partial), for half-space data C52 is false."
  },
  {
   "property": "C123",
   "status": "partial",
   "theorems": [
    "Cddm.C123_ccorr_multi_partial",
    "Cddm.C123_ccorr_multi_complex_partial",
    "Cddm.C123_acorr_multi_partial",
    "Cddm.C123_acorr_multi_complex_partial",
    "Cddm.C123_one_axis_refuted",
    "Cddm.C123_last_axis_refuted"
   ],
   "note": "False for frames of one axis: along axis 0 the result gets an extra axis (C123_one_axis_refuted), along axis 1 the samples of different pixels are mixed (C123_last_axis_refuted). Proved for all other frames without a divisor and for frames of two axes with one. Assumed: the linear part and every level fit the data (level_size samples; twice as many and a given number of levels for acorr_multi(complex=True), which the code needs). With a mask: C125."
  },
  {
   "property": "C124",
   "status": "partial",
   "theorems": [
    "Cddm.C124_iccorr_multi_partial",
    "Cddm.C124_iccorr_multi_complex_partial",
    "Cddm.C124_iacorr_multi_partial",
    "Cddm.C124_iacorr_multi_complex_partial",
    "Cddm.C124_iccorr_partial",
    "Cddm.C124_iccorr_complex_partial",
    "Cddm.C124_iacorr_partial",
    "Cddm.C124_iacorr_complex_partial",
    "Cddm.C124_iccorr_multi_refuses",
    "Cddm.C124_iacorr_multi_refuses",
    "Cddm.C124_one_axis_refuted"
   ],
   "note": "False for frames of one axis: the data get an extra axis, the mean and the variance do not (C124_one_axis_refuted). Proved for frames of two or more axes without a divisor and for frames of two axes with one, with at least one pixel. With a mask: C125; a divisor that is not positive or does not divide the number of pixels, and any divisor for frames of a single number, is refused (C124_iccorr_multi_refuses, C124_iacorr_multi_refuses). Frames of a single number without a divisor are not covered."
  },
  {
   "property": "C125",
   "status": "partial",
   "theorems": [
    "Cddm.C125_ccorr_multi_partial",
    "Cddm.C125_ccorr_multi_complex_partial",
    "Cddm.C125_acorr_multi_partial",
    "Cddm.C125_acorr_multi_complex_partial",
    "Cddm.C125_iccorr_multi_partial",
    "Cddm.C125_iccorr_multi_complex_partial",
    "Cddm.C125_iacorr_multi_partial",
    "Cddm.C125_iacorr_multi_complex_partial",
    "Cddm.C125_iccorr_partial",
    "Cddm.C125_iccorr_complex_partial",
    "Cddm.C125_iacorr_partial",
    "Cddm.C125_iacorr_complex_partial",
    "Cddm.C125_ccorr_multi_refuses",
    "Cddm.C125_acorr_multi_refuses",
    "Cddm.C125_divisor_refuted",
    "Cddm.C125_one_axis_refuted",
    "Cddm.C125_three_axes_refuted",
    "Cddm.C125_refuses",
    "Cddm.C125_negative_axis_refuted"
   ],
   "note": "Proved for masks of two axes without a thread divisor and axis = 0 (and at least one selected pixel for the iterative functions; sizes as in C123). False otherwise, with proofs of the failure: a divisor of two or more and masks of one axis raise ValueError (C125_divisor_refuted, C125_one_axis_refuted), masks of three axes with two or more levels too (C125_three_axes_refuted), axis = -3 raises IndexError (C125_negative_axis_refuted). Not covered: masks that select nothing for the iterative functions, time along another axis."
  },
  {
   "property": "C126",
   "status": "partial",
   "theorems": [
    "Cddm.C126_ccorr_multi_partial",
    "Cddm.C126_acorr_multi_partial",
    "Cddm.C126_iccorr_multi_partial",
    "Cddm.C126_iacorr_multi_partial",
    "Cddm.C126_log_merge_partial",
    "Cddm.C126_log_merge_iccorr_partial",
    "Cddm.C126_ccorr_multi_first_partial",
    "Cddm.C126_acorr_multi_first_partial",
    "Cddm.C126_ccorr_multi_nlevel_partial",
    "Cddm.C126_acorr_multi_nlevel_partial",
    "Cddm.C126_iccorr_multi_nlevel_partial",
    "Cddm.C126_iacorr_multi_nlevel_partial",
    "Cddm.C126_log_merge_nlevel_partial",
    "Cddm.C126_log_merge_acorr_nlevel_partial",
    "Cddm.C126_log_merge_acorr_partial",
    "Cddm.C126_log_merge_iacorr_partial",
    "Cddm.C126_log_merge_first_partial",
    "Cddm.C126_log_merge_acorr_first_partial"
   ],
   "note": "Proved for ccorr_multi and acorr_multi with all methods and both binnings (the method diff with its norms), and for the iterative functions with the methods corr and fft and averaging; at least two levels' worth of frames and the default number of levels (with averaging also any given number that leaves level_size samples in each, at most the number k of doublings for the iterative functions), no mask, real data, the norms that are not weighted, both modes, with or without scale (then with a variance that is not zero); log_merge (default binning) in all these cases (iterative functions: default number of levels) for data without times and an even level size. Not covered: a given number of levels with binning first, masks, complex data, weighted norms."
  },
  {
   "property": "C127",
   "status": "proved",
   "theorems": [
    "Cddm.C127_any",
    "Cddm.C127_cross_correlate",
    "Cddm.C127_auto_correlate",
    "Cddm.C127_cross_difference",
    "Cddm.C127_auto_difference",
    "Cddm.C127_auto_correlate_complex",
    "Cddm.C127_cross_correlate_complex",
    "Cddm.C127_two_builds",
    "Cddm.C127_source_cross",
    "Cddm.C127_source_auto",
    "Cddm.C127_changes",
    "Cddm.C127_cross_sum",
    "Cddm.C127_cross_sum_complex",
    "Cddm.C127_cross_sum_signed",
    "Cddm.C127_cross_sum_complex_signed"
   ],
   "note": "The permitted rewritings are those of LLVM's flags reassoc, nsz and contract as described in its manual, without distributing a product over a sum; the flags on NaN and infinity are void here as no special values are modelled; the kernels neither divide nor call functions, so arcp and afn do nothing. Of the sums, cross_sum with time stamps is covered (C127_cross_sum and its variants); its running sums for regular data, where a compiler may also cancel terms, and the numpy steps of auto_sum and normalize, which are not compiled by numba with fastmath or are divisions, are not."
  },
  {
   "property": "C128",
   "status": "proved",
   "theorems": [
    "Cddm.C128_cross",
    "Cddm.C128_cross_diff",
    "Cddm.C128_baseline",
    "Cddm.C128_not_relative",
    "Cddm.C128_auto",
    "Cddm.C128_auto_diff"
   ],
   "note": "All data in double precision. Weighted norms, scale, mask, aout, difference data (method diff) and data with complex results are not covered; regular data only for ccorr and norm 1 (the regular sums do not have such bounds, C109)."
  },
  {
   "property": "C129",
   "status": "proved",
   "theorems": [
    "Cddm.C129_kernel",
    "Cddm.C129_component",
    "Cddm.C129_fft2_entry",
    "Cddm.C129_error",
    "Cddm.C129_dls_kernel"
   ],
   "note": "The kernel of one wave vector projects a frame on its windowed Fourier component: all parts of the statement, see the theorems."
  },
  {
   "property": "C130",
   "status": "proved",
   "theorems": [
    "Cddm.C130_type",
    "Cddm.C130_float_iff",
    "Cddm.C130_arith",
    "Cddm.C130_dtype",
    "Cddm.C130_wide",
    "Cddm.C130_shapes",
    "Cddm.C130_signed_background",
    "Cddm.C130_inplace_type",
    "Cddm.C130_inplace",
    "Cddm.C130_restores",
    "Cddm.C130_wraps"
   ],
   "note": "C130_wraps shows the wrap-around of signed frames and the silent cut in place. Floating-point results (64 bits unsigned with signed) are exact numbers and their conversion to an integer dtype is not modelled; frames of two axes."
  },
  {
   "property": "C131",
   "status": "proved",
   "theorems": [
    "Cddm.C131_video",
    "Cddm.C131_own_number",
    "Cddm.C131_range",
    "Cddm.C131_levels",
    "Cddm.C131_negative_size",
    "Cddm.C131_empty",
    "Cddm.C131_dual_other",
    "Cddm.C131_load"
   ],
   "note": "C131_dual_other: true values other than True and 1 give one camera. Exact numbers, rounding to the floating-point type is not modelled, nor are maximal values the integer type does not hold."
  },
  {
   "property": "C132",
   "status": "partial",
   "theorems": [
    "Cddm.C132_class_doc",
    "Cddm.C132_class_doc_inherited",
    "Cddm.C132_instance_doc_partial",
    "Cddm.C132_instance_refuted",
    "Cddm.C132_instance_case",
    "Cddm.C132_call",
    "Cddm.C132_skip",
    "Cddm.C132_deprecated",
    "Cddm.C132_deprecated_result",
    "Cddm.C132_other_categories",
    "Cddm.C132_filters_refuted",
    "Cddm.C132_filters_case",
    "Cddm.C132_shown_again_refuted"
   ],
   "note": "False of objects whose class inherits a decorated method or decorates it once more (infinite recursion, C132_instance_refuted; proved for the others, C132_instance_doc_partial), of calls on objects with the truth value False (C132_call), and of the filters: after a call of a deprecated function every DeprecationWarning is shown (C132_filters_refuted) and warnings already shown are shown again (C132_shown_again_refuted). The rest is proved. Single inheritance; filters without text patterns."
  }
 ]
}