# Axioms of the property theorems

From `#print axioms`, written by `tools/design.py`.

| Theorem | Axioms |
|---|---|
| `Cddm.C01_cross_correlate` | propext, Classical.choice, Quot.sound |
| `Cddm.C01_cross_correlate_rejects` | propext, Classical.choice, Quot.sound |
| `Cddm.C02_cross_correlate_complex` | propext, Classical.choice, Quot.sound |
| `Cddm.C02_cells_distinct` | propext, Quot.sound |
| `Cddm.C03_auto_correlate` | propext, Classical.choice, Quot.sound |
| `Cddm.C03_auto_correlate_complex` | propext, Classical.choice, Quot.sound |
| `Cddm.C03_auto_correlate_rejects` | propext, Classical.choice, Quot.sound |
| `Cddm.C04_cross_difference` | propext, Classical.choice, Quot.sound |
| `Cddm.C04_auto_difference` | propext, Classical.choice, Quot.sound |
| `Cddm.C04_cross_difference_ge` | propext, Classical.choice, Quot.sound |
| `Cddm.C04_auto_difference_ge` | propext, Classical.choice, Quot.sound |
| `Cddm.C04_auto_difference_zero` | propext, Classical.choice, Quot.sound |
| `Cddm.C05_cross_sum` | propext, Classical.choice, Quot.sound |
| `Cddm.C05_cross_sum_complex` | propext, Classical.choice, Quot.sound |
| `Cddm.C05_same_pairs` | propext, Classical.choice, Quot.sound |
| `Cddm.C06_cross_count` | propext, Classical.choice, Quot.sound |
| `Cddm.C06_cross_count_complex` | propext, Classical.choice, Quot.sound |
| `Cddm.C06_auto_count` | propext, Classical.choice, Quot.sound |
| `Cddm.C06_count_is_correlation_of_ones` | propext, Classical.choice, Quot.sound |
| `Cddm.C07_cross_correlate` | propext, Classical.choice, Quot.sound |
| `Cddm.C07_cross_correlate_complex` | propext, Classical.choice, Quot.sound |
| `Cddm.C07_cross_difference` | propext, Classical.choice, Quot.sound |
| `Cddm.C07_auto_correlate` | propext, Classical.choice, Quot.sound |
| `Cddm.C07_auto_difference` | propext, Classical.choice, Quot.sound |
| `Cddm.C07_auto_correlate_complex` | propext, Classical.choice, Quot.sound |
| `Cddm.C07_layout_irrelevant` | propext, Classical.choice, Quot.sound |
| `Cddm.C07_cross_sum` | propext, Classical.choice, Quot.sound |
| `Cddm.C07_cross_sum_complex` | propext, Classical.choice, Quot.sound |
| `Cddm.C07_auto_sum` | propext, Classical.choice, Quot.sound |
| `Cddm.C08_cross_correlate_unsafe_iff` | propext, Classical.choice, Quot.sound |
| `Cddm.C08_refuted` | propext |
| `Cddm.C08_cross_correlate_safe_partial` | propext, Classical.choice, Quot.sound |
| `Cddm.C08_default_safe_partial` | propext, Classical.choice, Quot.sound |
| `Cddm.C08_irregular_safe_partial` | propext, Classical.choice, Quot.sound |
| `Cddm.C08_auto_safe_partial` | propext, Classical.choice, Quot.sound |
| `Cddm.C08_other_kernels_unsafe` | propext, Classical.choice, Quot.sound |
| `Cddm.C09_cross_correlate` | propext, Classical.choice, Quot.sound |
| `Cddm.C09_cross_correlate_complex` | propext, Classical.choice, Quot.sound |
| `Cddm.C09_auto_correlate` | propext, Classical.choice, Quot.sound |
| `Cddm.C09_auto_correlate_complex` | propext, Classical.choice, Quot.sound |
| `Cddm.C09_entries` | propext, Classical.choice, Quot.sound |
| `Cddm.C09_default` | propext, Classical.choice, Quot.sound |
| `Cddm.C09_rejects` | propext, Classical.choice, Quot.sound |
| `Cddm.C09_aliasing` | propext, Classical.choice, Quot.sound |
| `Cddm.C09_duplicates` | propext, Classical.choice, Quot.sound |
| `Cddm.C09_empty` | propext, Classical.choice, Quot.sound |
| `Cddm.C10_cross_sum` | propext, Classical.choice, Quot.sound |
| `Cddm.C10_cross_sum_cdata` | propext, Classical.choice, Quot.sound |
| `Cddm.C10_cross_sum_complex` | propext, Classical.choice, Quot.sound |
| `Cddm.C10_cross_sum_complex_cdata` | propext, Classical.choice, Quot.sound |
| `Cddm.C10_auto_sum` | propext, Classical.choice, Quot.sound |
| `Cddm.C10_auto_sum_cdata` | propext, Classical.choice, Quot.sound |
| `Cddm.C10_regular_rejected` | propext, Classical.choice, Quot.sound |
| `Cddm.C11_cross_count` | propext, Classical.choice, Quot.sound |
| `Cddm.C11_cross_count_complex` | propext, Classical.choice, Quot.sound |
| `Cddm.C11_auto_count` | propext, Classical.choice, Quot.sound |
| `Cddm.C11_cross_correlate` | propext, Classical.choice, Quot.sound |
| `Cddm.C11_auto_correlate` | propext, Classical.choice, Quot.sound |
| `Cddm.C12_sums_complex` | propext, Classical.choice, Quot.sound |
| `Cddm.C12_counts_complex` | propext, Classical.choice, Quot.sound |
| `Cddm.C12_blocks_all` | propext, Classical.choice, Quot.sound |
| `Cddm.C12_cross` | propext, Classical.choice, Quot.sound |
| `Cddm.C12_cross_complex` | propext, Classical.choice, Quot.sound |
| `Cddm.C12_auto` | propext, Classical.choice, Quot.sound |
| `Cddm.C12_auto_complex` | propext, Classical.choice, Quot.sound |
| `Cddm.C12_sums` | propext, Classical.choice, Quot.sound |
| `Cddm.C12_auto_sum` | propext, Classical.choice, Quot.sound |
| `Cddm.C12_counts` | propext, Classical.choice, Quot.sound |
| `Cddm.C12_blocks` | propext, Classical.choice, Quot.sound |
| `Cddm.C13_shift_cross` | propext, Classical.choice, Quot.sound |
| `Cddm.C13_shift_auto` | propext, Classical.choice, Quot.sound |
| `Cddm.C13_shift_sums` | propext, Classical.choice, Quot.sound |
| `Cddm.C13_shift_counts` | propext, Classical.choice, Quot.sound |
| `Cddm.C13_reorder_cross` | propext, Classical.choice, Quot.sound |
| `Cddm.C13_reorder_cross_complex` | propext, Classical.choice, Quot.sound |
| `Cddm.C13_reorder_auto` | propext, Classical.choice, Quot.sound |
| `Cddm.C13_reorder_auto_complex` | propext, Classical.choice, Quot.sound |
| `Cddm.C13_reorder_counts` | propext, Classical.choice, Quot.sound |
| `Cddm.C13_reorder_sums` | propext, Classical.choice, Quot.sound |
| `Cddm.C13_counts_complex` | propext, Classical.choice, Quot.sound |
| `Cddm.C13_swap` | propext, Classical.choice, Quot.sound |
| `Cddm.C13_swap_rejects` | propext, Quot.sound |
| `Cddm.C13_swap_complex` | propext, Classical.choice, Quot.sound |
| `Cddm.C14_cross` | propext, Classical.choice, Quot.sound |
| `Cddm.C14_auto` | propext, Classical.choice, Quot.sound |
| `Cddm.C15_cross` | propext, Classical.choice, Quot.sound |
| `Cddm.C15_auto` | propext, Classical.choice, Quot.sound |
| `Cddm.C15_counts` | propext, Classical.choice, Quot.sound |
| `Cddm.C16_correlate` | propext, Classical.choice, Quot.sound |
| `Cddm.C16_counts` | propext, Classical.choice, Quot.sound |
| `Cddm.C16_auto_sum` | propext, Classical.choice, Quot.sound |
| `Cddm.C16_auto_sum_repeated_time` | propext, Classical.choice, Quot.sound |
| `Cddm.C17_cross_correlate` | propext, Classical.choice, Quot.sound |
| `Cddm.C17_cross_correlate_complex` | propext, Classical.choice, Quot.sound |
| `Cddm.C17_cross_difference` | propext, Classical.choice, Quot.sound |
| `Cddm.C17_auto_correlate` | propext, Classical.choice, Quot.sound |
| `Cddm.C17_auto_correlate_complex` | propext, Classical.choice, Quot.sound |
| `Cddm.C17_auto_difference` | propext, Classical.choice, Quot.sound |
| `Cddm.C17_cross_sum` | propext, Classical.choice, Quot.sound |
| `Cddm.C17_auto_sum` | propext, Classical.choice, Quot.sound |
| `Cddm.C17_layout_irrelevant` | propext, Classical.choice, Quot.sound |
| `Cddm.C17_layout_irrelevant_complex` | propext, Classical.choice, Quot.sound |
| `Cddm.C17_layout_irrelevant_auto` | propext, Classical.choice, Quot.sound |
| `Cddm.C17_entries` | propext, Classical.choice, Quot.sound |
| `Cddm.C17_rejects` | propext, Classical.choice, Quot.sound |
| `Cddm.C18_ccorr_refuses` | propext, Classical.choice, Quot.sound |
| `Cddm.C18_ccorr_complex_refuses` | propext, Classical.choice, Quot.sound |
| `Cddm.C18_acorr_refuses` | propext, Classical.choice, Quot.sound |
| `Cddm.C18_acorr_complex_refuses` | propext, Classical.choice, Quot.sound |
| `Cddm.C18_ccorr_fields` | propext, Classical.choice, Quot.sound |
| `Cddm.C18_ccorr_complex_fields` | propext, Classical.choice, Quot.sound |
| `Cddm.C18_acorr_fields` | propext, Classical.choice, Quot.sound |
| `Cddm.C18_acorr_complex_fields` | propext, Classical.choice, Quot.sound |
| `Cddm.C18_acorr_complex_sums` | propext, Classical.choice, Quot.sound |
| `Cddm.C18_ccorr_refuses_iff` | propext, Classical.choice, Quot.sound |
| `Cddm.C18_ccorr_presence` | propext, Classical.choice, Quot.sound |
| `Cddm.C19_ccorr` | propext, Classical.choice, Quot.sound |
| `Cddm.C19_ccorr_complex` | propext, Classical.choice, Quot.sound |
| `Cddm.C19_acorr` | propext, Classical.choice, Quot.sound |
| `Cddm.C19_acorr_complex` | propext, Classical.choice, Quot.sound |
| `Cddm.C19_default` | propext, Classical.choice, Quot.sound |
| `Cddm.C20_string_value` | propext, Classical.choice, Quot.sound |
| `Cddm.C20_string_order` | propext, Classical.choice, Quot.sound |
| `Cddm.C20_string_range` | propext, Classical.choice, Quot.sound |
| `Cddm.C20_string_unknown` | propext, Classical.choice, Quot.sound |
| `Cddm.C20_string_parts` | propext, Quot.sound |
| `Cddm.C20_flags` | propext, Classical.choice, Quot.sound |
| `Cddm.C21_auto_complex_partial` | propext, Classical.choice, Quot.sound |
| `Cddm.C21_auto_complex_refuted` | propext, Classical.choice, Quot.sound |
| `Cddm.C21_standard` | propext, Classical.choice, Quot.sound |
| `Cddm.C21_cross` | propext, Classical.choice, Quot.sound |
| `Cddm.C21_standard_complex` | propext, Classical.choice, Quot.sound |
| `Cddm.C21_cross_complex` | propext, Classical.choice, Quot.sound |
| `Cddm.C21_background_free` | propext, Classical.choice, Quot.sound |
| `Cddm.C21_background_free_complex` | propext, Classical.choice, Quot.sound |
| `Cddm.C21_auto_standard` | propext, Classical.choice, Quot.sound |
| `Cddm.C21_auto` | propext, Classical.choice, Quot.sound |
| `Cddm.C21_auto_background_free` | propext, Classical.choice, Quot.sound |
| `Cddm.C22_cross` | propext, Classical.choice, Quot.sound |
| `Cddm.C22_cross_subtracted` | propext, Classical.choice, Quot.sound |
| `Cddm.C22_cross_complex` | propext, Classical.choice, Quot.sound |
| `Cddm.C22_cross_complex_subtracted` | propext, Classical.choice, Quot.sound |
| `Cddm.C22_bound` | propext, Classical.choice, Quot.sound |
| `Cddm.C22_bound_complex` | propext, Classical.choice, Quot.sound |
| `Cddm.C22_real_part` | propext, Classical.choice, Quot.sound |
| `Cddm.C22_auto` | propext, Classical.choice, Quot.sound |
| `Cddm.C22_auto_subtracted` | propext, Classical.choice, Quot.sound |
| `Cddm.C22_auto_complex` | propext, Classical.choice, Quot.sound |
| `Cddm.C23_cross` | propext, Classical.choice, Quot.sound |
| `Cddm.C23_cross_subtracted` | propext, Classical.choice, Quot.sound |
| `Cddm.C23_modes` | propext, Classical.choice, Quot.sound |
| `Cddm.C23_modes_complex` | propext, Classical.choice, Quot.sound |
| `Cddm.C23_scale` | propext, Classical.choice, Quot.sound |
| `Cddm.C23_round_trip` | propext, Classical.choice, Quot.sound |
| `Cddm.C23_round_trip_complex` | propext, Classical.choice, Quot.sound |
| `Cddm.C23_auto` | propext, Classical.choice, Quot.sound |
| `Cddm.C23_all_norms` | propext, Classical.choice, Quot.sound |
| `Cddm.C23_all_norms_complex` | propext, Classical.choice, Quot.sound |
| `Cddm.C23_all_norms_scaled` | propext, Classical.choice, Quot.sound |
| `Cddm.C24_cross` | propext, Classical.choice, Quot.sound |
| `Cddm.C24_cross_complex` | propext, Classical.choice, Quot.sound |
| `Cddm.C24_cross_structured` | propext, Classical.choice, Quot.sound |
| `Cddm.C24_cross_complex_structured` | propext, Classical.choice, Quot.sound |
| `Cddm.C24_invariant` | propext, Classical.choice, Quot.sound |
| `Cddm.C24_invariant_complex` | propext, Classical.choice, Quot.sound |
| `Cddm.C24_invariant_structured` | propext, Classical.choice, Quot.sound |
| `Cddm.C24_invariant_complex_structured` | propext, Classical.choice, Quot.sound |
| `Cddm.C24_bound` | propext, Classical.choice, Quot.sound |
| `Cddm.C24_auto` | propext, Classical.choice, Quot.sound |
| `Cddm.C24_auto_structured` | propext, Classical.choice, Quot.sound |
| `Cddm.C24_auto_invariant` | propext, Classical.choice, Quot.sound |
| `Cddm.C24_auto_invariant_structured` | propext, Classical.choice, Quot.sound |
| `Cddm.C24_auto_bound` | propext, Classical.choice, Quot.sound |
| `Cddm.C24_auto_complex_partial` | propext, Classical.choice, Quot.sound |
| `Cddm.C24_auto_complex_refuted` | propext, Classical.choice, Quot.sound |
| `Cddm.C25_optimal` | propext, Classical.choice, Quot.sound |
| `Cddm.C25_optimal_complex` | propext, Classical.choice, Quot.sound |
| `Cddm.C25_sigma` | propext, Classical.choice, Quot.sound |
| `Cddm.C25_range` | propext, Classical.choice, Quot.sound |
| `Cddm.C25_range_complex` | propext, Classical.choice, Quot.sound |
| `Cddm.C25_prime_partial` | propext, Classical.choice, Quot.sound |
| `Cddm.C25_prime_refuted` | propext, Classical.choice, Quot.sound |
| `Cddm.C26_between` | propext, Classical.choice, Quot.sound |
| `Cddm.C26_ends` | propext, Classical.choice, Quot.sound |
| `Cddm.C26_complex` | propext, Classical.choice, Quot.sound |
| `Cddm.C26_normalize` | propext, Classical.choice, Quot.sound |
| `Cddm.C26_normalize_complex` | propext, Classical.choice, Quot.sound |
| `Cddm.C26_given_weight` | propext, Classical.choice, Quot.sound |
| `Cddm.C27_real` | propext, Classical.choice, Quot.sound |
| `Cddm.C27_real_data` | propext, Classical.choice, Quot.sound |
| `Cddm.C27_one_variance` | propext, Classical.choice, Quot.sound |
| `Cddm.C28_rejects` | propext, Classical.choice, Quot.sound |
| `Cddm.C28_rejects_complex` | propext, Classical.choice, Quot.sound |
| `Cddm.C28_never_silent` | propext, Classical.choice, Quot.sound |
| `Cddm.C28_iff` | propext, Classical.choice, Quot.sound |
| `Cddm.C28_iff_complex` | propext, Classical.choice, Quot.sound |
| `Cddm.C28_default` | propext, Classical.choice, Quot.sound |
| `Cddm.C28_not_data` | propext, Classical.choice, Quot.sound |
| `Cddm.C28_string` | propext, Classical.choice, Quot.sound |
| `Cddm.C29_fold_mean` | propext, Classical.choice, Quot.sound |
| `Cddm.C29_fold_positive` | propext, Classical.choice, Quot.sound |
| `Cddm.C29_fold_negative_partial` | propext, Classical.choice, Quot.sound |
| `Cddm.C29_fold_negative_refuted` | propext, Classical.choice, Quot.sound |
| `Cddm.C29_fold_rejects` | propext, Classical.choice, Quot.sound |
| `Cddm.C29_equalize` | propext, Classical.choice, Quot.sound |
| `Cddm.C29_shift` | propext, Classical.choice, Quot.sound |
| `Cddm.C29_take` | propext, Classical.choice, Quot.sound |
| `Cddm.C29_take_rejects` | propext, Classical.choice, Quot.sound |
| `Cddm.C30_buffers` | propext, Classical.choice, Quot.sound |
| `Cddm.C30_channel` | propext, Classical.choice, Quot.sound |
| `Cddm.C30_read` | propext, Classical.choice, Quot.sound |
| `Cddm.C31_iccorr_multi_full` | propext, Classical.choice, Quot.sound |
| `Cddm.C31_iccorr_multi_full_complex` | propext, Classical.choice, Quot.sound |
| `Cddm.C31_iacorr_multi_full` | propext, Classical.choice, Quot.sound |
| `Cddm.C31_iccorr_multi_full_eq_ccorr` | propext, Classical.choice, Quot.sound |
| `Cddm.C31_iccorr_multi_full_complex_eq_ccorr` | propext, Classical.choice, Quot.sound |
| `Cddm.C31_iacorr_multi_full_eq_acorr` | propext, Classical.choice, Quot.sound |
| `Cddm.C31_spaced_regular` | propext, Quot.sound |
| `Cddm.C31_spaced_period` | propext, Classical.choice, Quot.sound |
| `Cddm.C31_spaced_call` | propext, Classical.choice, Quot.sound |
| `Cddm.C31_case_regular` | propext, Classical.choice, Quot.sound |
| `Cddm.C31_case_irregular` | propext, Classical.choice, Quot.sound |
| `Cddm.C31_case_fft` | propext, Classical.choice, Quot.sound |
| `Cddm.C32_iccorr_multi_chunk` | propext, Classical.choice, Quot.sound |
| `Cddm.C32_iccorr_multi_chunk_complex` | propext, Classical.choice, Quot.sound |
| `Cddm.C32_iacorr_multi_chunk` | propext, Classical.choice, Quot.sound |
| `Cddm.C32_iacorr_multi_chunk_complex` | propext, Classical.choice, Quot.sound |
| `Cddm.C32_iccorr_multi_counts` | propext, Classical.choice, Quot.sound |
| `Cddm.C32_iccorr_multi_counts_complex` | propext, Classical.choice, Quot.sound |
| `Cddm.C32_iacorr_multi_counts` | propext, Classical.choice, Quot.sound |
| `Cddm.C32_iacorr_multi_counts_complex` | propext, Classical.choice, Quot.sound |
| `Cddm.C33_default_chunk` | propext, Classical.choice, Quot.sound |
| `Cddm.C33_given_chunk` | propext, Classical.choice, Quot.sound |
| `Cddm.C33_frames` | propext, Classical.choice, Quot.sound |
| `Cddm.C33_frames_unique` | propext, Classical.choice, Quot.sound |
| `Cddm.C33_iccorr_multi_partial` | propext, Classical.choice, Quot.sound |
| `Cddm.C33_iccorr_multi_complex_partial` | propext, Classical.choice, Quot.sound |
| `Cddm.C33_iacorr_multi_partial` | propext, Classical.choice, Quot.sound |
| `Cddm.C33_iacorr_multi_complex_partial` | propext, Classical.choice, Quot.sound |
| `Cddm.C33_empty_one_frame_false` | propext, Classical.choice, Quot.sound |
| `Cddm.C34_iccorr_multi_partial` | propext, Classical.choice, Quot.sound |
| `Cddm.C34_iacorr_multi_partial` | propext, Classical.choice, Quot.sound |
| `Cddm.C34_small_level_false` | propext, Classical.choice, Quot.sound |
| `Cddm.C34_complex_false` | propext, Classical.choice, Quot.sound |
| `Cddm.C35_memory` | propext, Classical.choice, Quot.sound |
| `Cddm.C35_buffers` | propext, Classical.choice, Quot.sound |
| `Cddm.C35_iccorr_multi_levels` | propext, Classical.choice, Quot.sound |
| `Cddm.C35_iccorr_multi_complex_levels` | propext, Classical.choice, Quot.sound |
| `Cddm.C35_iacorr_multi_levels` | propext, Classical.choice, Quot.sound |
| `Cddm.C35_iccorr_multi_partial` | propext, Classical.choice, Quot.sound |
| `Cddm.C35_iacorr_multi_partial` | propext, Classical.choice, Quot.sound |
| `Cddm.C35_case` | propext, Classical.choice, Quot.sound |
| `Cddm.C35_iccorr_multi_false` | propext, Classical.choice, Quot.sound |
| `Cddm.C36_iccorr_multi_false` | propext, Classical.choice, Quot.sound |
| `Cddm.C36_case` | propext, Classical.choice, Quot.sound |
| `Cddm.C36_iccorr_multi_partial` | propext, Classical.choice, Quot.sound |
| `Cddm.C36_iccorr_multi_complex_partial` | propext, Classical.choice, Quot.sound |
| `Cddm.C36_iacorr_multi_partial` | propext, Classical.choice, Quot.sound |
| `Cddm.C36_iacorr_multi_complex_partial` | propext, Classical.choice, Quot.sound |
| `Cddm.C37_iacorr_multi_complex_full_is_chunk` | propext, Classical.choice, Quot.sound |
| `Cddm.C37_iacorr_complex_full_is_chunk` | propext, Classical.choice, Quot.sound |
| `Cddm.C37_case` | propext, Classical.choice, Quot.sound |
| `Cddm.C37_case_regular` | propext, Classical.choice, Quot.sound |
| `Cddm.C37_iacorr_complex_false` | propext, Classical.choice, Quot.sound |
| `Cddm.C37_iacorr_multi_complex_partial` | propext, Classical.choice, Quot.sound |
| `Cddm.C38_cross_mean` | propext, Classical.choice, Quot.sound |
| `Cddm.C38_cross_mean_nlevel` | propext, Classical.choice, Quot.sound |
| `Cddm.C38_auto_mean` | propext, Classical.choice, Quot.sound |
| `Cddm.C38_auto_mean_nlevel` | propext, Classical.choice, Quot.sound |
| `Cddm.C38_cross_first` | propext, Classical.choice, Quot.sound |
| `Cddm.C38_auto_first` | propext, Classical.choice, Quot.sound |
| `Cddm.C38_cross_choose` | propext, Classical.choice, Quot.sound |
| `Cddm.C38_rejects_binning` | propext, Classical.choice, Quot.sound |
| `Cddm.C38_rejects_levels` | propext, Classical.choice, Quot.sound |
| `Cddm.C39_iccorr_multi_stats` | propext, Classical.choice, Quot.sound |
| `Cddm.C39_iccorr_multi_stats_complex` | propext, Classical.choice, Quot.sound |
| `Cddm.C39_iacorr_multi_stats` | propext, Classical.choice, Quot.sound |
| `Cddm.C39_iacorr_multi_stats_complex` | propext, Classical.choice, Quot.sound |
| `Cddm.C39_variance_nonneg` | propext, Classical.choice, Quot.sound |
| `Cddm.C39_variance_eq` | propext, Classical.choice, Quot.sound |
| `Cddm.C40_iccorr_multi` | propext, Classical.choice, Quot.sound |
| `Cddm.C40_iccorr_multi_complex` | propext, Classical.choice, Quot.sound |
| `Cddm.C40_iacorr_multi` | propext, Classical.choice, Quot.sound |
| `Cddm.C40_iacorr_multi_complex` | propext, Classical.choice, Quot.sound |
| `Cddm.C41_kernel` | propext, Classical.choice, Quot.sound |
| `Cddm.C41_unimodal` | propext, Classical.choice, Quot.sound |
| `Cddm.C42_mean` | propext, Classical.choice, Quot.sound |
| `Cddm.C42_first` | propext, Classical.choice, Quot.sound |
| `Cddm.C42_choose` | propext, Classical.choice, Quot.sound |
| `Cddm.C42_mean_bounds` | propext, Classical.choice, Quot.sound |
| `Cddm.C42_last_level` | propext |
| `Cddm.C42_rejects` | propext, Quot.sound |
| `Cddm.C42_complex` | propext, Classical.choice, Quot.sound |
| `Cddm.C43_merge_full` | propext, Classical.choice, Quot.sound |
| `Cddm.C43_merge_half` | propext, Classical.choice, Quot.sound |
| `Cddm.C43_rejects` | propext, Classical.choice, Quot.sound |
| `Cddm.C43_first` | propext, Classical.choice, Quot.sound |
| `Cddm.C43_log_average` | propext, Classical.choice, Quot.sound |
| `Cddm.C43_log_average_rejects` | propext, Quot.sound |
| `Cddm.C43_log_average_complex` | propext, Classical.choice, Quot.sound |
| `Cddm.C44_log_merge` | propext, Classical.choice, Quot.sound |
| `Cddm.C44_valid_increasing` | propext, Classical.choice, Quot.sound |
| `Cddm.C44_increasing_iff` | propext, Classical.choice, Quot.sound |
| `Cddm.C44_increasing_partial` | propext, Classical.choice, Quot.sound |
| `Cddm.C44_increasing_refuted` | propext, Classical.choice, Quot.sound |
| `Cddm.C44_t_multilevel` | propext, Quot.sound |
| `Cddm.C44_rejects` | propext, Classical.choice, Quot.sound |
| `Cddm.C45_median` | propext, Classical.choice, Quot.sound |
| `Cddm.C45_short` | propext, Quot.sound |
| `Cddm.C45_in_place` | propext, Classical.choice, Quot.sound |
| `Cddm.C45_slow` | propext, Classical.choice, Quot.sound |
| `Cddm.C45_values` | propext, Classical.choice, Quot.sound |
| `Cddm.C45_complex` | propext, Classical.choice, Quot.sound |
| `Cddm.C46_convolve` | propext, Classical.choice, Quot.sound |
| `Cddm.C46_short` | propext, Quot.sound |
| `Cddm.C46_affine` | propext, Classical.choice, Quot.sound |
| `Cddm.C46_linear` | propext, Classical.choice, Quot.sound |
| `Cddm.C46_bounds` | propext, Classical.choice, Quot.sound |
| `Cddm.C46_denoise` | propext, Classical.choice, Quot.sound |
| `Cddm.C46_denoise_const` | propext, Classical.choice, Quot.sound |
| `Cddm.C46_denoise_complex` | propext, Classical.choice, Quot.sound |
| `Cddm.C46_in_place_differs` | propext, Classical.choice, Quot.sound |
| `Cddm.C47_decreasing` | propext, Classical.choice, Quot.sound |
| `Cddm.C47_decreasing_monotone` | propext, Classical.choice, Quot.sound |
| `Cddm.C47_increasing_partial` | propext, Classical.choice, Quot.sound |
| `Cddm.C47_increasing_general` | propext, Classical.choice, Quot.sound |
| `Cddm.C47_increasing_refuted` | propext |
| `Cddm.C48_inside` | propext, Quot.sound |
| `Cddm.C48_right` | propext, Quot.sound |
| `Cddm.C48_chord` | propext, Classical.choice, Quot.sound |
| `Cddm.C48_nodes` | propext, Classical.choice, Quot.sound |
| `Cddm.C48_line` | propext, Classical.choice, Quot.sound |
| `Cddm.C48_call` | propext, Classical.choice, Quot.sound |
| `Cddm.C48_between` | propext, Classical.choice, Quot.sound |
| `Cddm.C48_log_nodes` | propext, Classical.choice, Quot.sound |
| `Cddm.C48_log_call` | propext, Classical.choice, Quot.sound |
| `Cddm.C48_log_nodes_positive` | propext, Classical.choice, Quot.sound |
| `Cddm.C48_log_mixed_refuted` | propext, Classical.choice, Quot.sound |
| `Cddm.C48_log_unwritten` | propext, Classical.choice, Quot.sound |
| `Cddm.C49_shape` | propext, Quot.sound |
| `Cddm.C49_shape_cropped` | propext, Quot.sound |
| `Cddm.C49_shape_error` | propext, Quot.sound |
| `Cddm.C49_as_rfft2_data` | propext, Quot.sound |
| `Cddm.C49_as_rfft2_conj` | propext, Classical.choice, Quot.sound |
| `Cddm.C49_as_rfft2_conj_empty` | propext, Quot.sound |
| `Cddm.C49_as_rfft2_mask` | propext, Classical.choice, Quot.sound |
| `Cddm.C49_from_rfft2_data` | propext, Classical.choice, Quot.sound |
| `Cddm.C49_round_trip` | propext, Classical.choice, Quot.sound |
| `Cddm.C49_round_trip_half` | propext, Classical.choice, Quot.sound |
| `Cddm.C50_rfft2_crop_partial` | propext, Classical.choice, Quot.sound |
| `Cddm.C50_fft2_crop_partial` | propext, Classical.choice, Quot.sound |
| `Cddm.C50_rfft2_crop_zero_false` | propext, Classical.choice, Quot.sound |
| `Cddm.C50_fft2_crop_zero_false` | propext, Classical.choice, Quot.sound |
| `Cddm.C50_rfft2_crop_error` | propext, Quot.sound |
| `Cddm.C50_fft2_crop_error` | propext, Quot.sound |
| `Cddm.C50_rfft2_crop_frames_partial` | propext, Classical.choice, Quot.sound |
| `Cddm.C50_fft2_crop_frames_partial` | propext, Classical.choice, Quot.sound |
| `Cddm.C50_rfft2_crop_frames_error` | propext, Classical.choice, Quot.sound |
| `Cddm.C50_fft2_crop_frames_error` | propext, Classical.choice, Quot.sound |
| `Cddm.C50_rfft2_crop_one_axis_false` | propext, Quot.sound |
| `Cddm.C51_fft2_sector_indexmap` | propext, Classical.choice, Quot.sound |
| `Cddm.C51_sector_indexmap` | propext, Classical.choice, Quot.sound |
| `Cddm.C51_bins_disjoint` | propext, Classical.choice, Quot.sound |
| `Cddm.C51_bins_cover` | propext, Classical.choice, Quot.sound |
| `Cddm.C51_refused` | propext, Classical.choice, Quot.sound |
| `Cddm.C51_half_refused` | propext, Classical.choice, Quot.sound |
| `Cddm.C51_fft2_k_indexmap` | propext, Classical.choice, Quot.sound |
| `Cddm.C51_fft2_k_indexmap_rfft2` | propext, Classical.choice, Quot.sound |
| `Cddm.C51_k_indexmap` | propext, Classical.choice, Quot.sound |
| `Cddm.C51_edges` | propext, Classical.choice, Quot.sound |
| `Cddm.C52_fft2_many_partial` | propext, Classical.choice, Quot.sound |
| `Cddm.C52_one_false` | propext, Classical.choice, Quot.sound |
| `Cddm.C52_one_type_error` | propext, Classical.choice, Quot.sound |
| `Cddm.C52_rfft2_false` | propext, Classical.choice, Quot.sound |
| `Cddm.C52_rfft2_many_false` | propext, Classical.choice, Quot.sound |
| `Cddm.C53_mirror` | propext, Classical.choice, Quot.sound |
| `Cddm.C53_mirror_unique` | propext, Classical.choice, Quot.sound |
| `Cddm.C53_mirror_hangs` | propext, Classical.choice, Quot.sound |
| `Cddm.C53_mirror_empty` | propext, Classical.choice, Quot.sound |
| `Cddm.C53_brownian_walk` | propext, Classical.choice, Quot.sound |
| `Cddm.C53_coordinate_transform` | propext, Classical.choice, Quot.sound |
| `Cddm.C53_turned` | propext, Classical.choice, Quot.sound |
| `Cddm.C53_rigid` | propext, Classical.choice, Quot.sound |
| `Cddm.C54_draw_psf` | propext, Classical.choice, Quot.sound |
| `Cddm.C54_total` | propext, Classical.choice, Quot.sound |
| `Cddm.C54_position_partial` | propext, Classical.choice, Quot.sound |
| `Cddm.C54_position_refuted` | propext, Classical.choice, Quot.sound |
| `Cddm.C54_too_large` | propext, Classical.choice, Quot.sound |
| `Cddm.C54_rejected` | propext, Classical.choice, Quot.sound |
| `Cddm.C54_draw_points` | propext, Classical.choice, Quot.sound |
| `Cddm.C55_clean` | propext, Classical.choice, Quot.sound |
| `Cddm.C55_monotone_digitized` | propext, Classical.choice, Quot.sound |
| `Cddm.C55_clean_monotone` | propext, Classical.choice, Quot.sound |
| `Cddm.C55_adc` | propext, Classical.choice, Quot.sound |
| `Cddm.C55_adc_noise` | propext, Classical.choice, Quot.sound |
| `Cddm.C55_rejected` | propext, Classical.choice, Quot.sound |
| `Cddm.C55_gaussian_monotone` | propext, Classical.choice, Quot.sound |
| `Cddm.C55_gaussian_not_monotone` | propext, Classical.choice, Quot.sound |
| `Cddm.C55_bit` | propext, Classical.choice, Quot.sound |
| `Cddm.C56_random_time` | propext, Classical.choice, Quot.sound |
| `Cddm.C56_spacing` | propext, Classical.choice, Quot.sound |
| `Cddm.C56_random_times1` | propext, Quot.sound |
| `Cddm.C56_random_times2` | propext, Quot.sound |
| `Cddm.C56_rejected` | none |
| `Cddm.C57_trigger_partial` | propext, Classical.choice, Quot.sound |
| `Cddm.C57_negative` | propext, Classical.choice, Quot.sound |
| `Cddm.C57_refuted` | propext, Classical.choice, Quot.sound |
| `Cddm.C58_pairs` | propext, Classical.choice, Quot.sound |
| `Cddm.C58_kth` | propext, Classical.choice, Quot.sound |
| `Cddm.C58_random_times` | propext, Classical.choice, Quot.sound |
| `Cddm.C58_condition_needed` | propext |
| `Cddm.C58_single` | propext, Classical.choice, Quot.sound |
| `Cddm.C59_asarrays` | propext, Classical.choice, Quot.sound |
| `Cddm.C59_asmemmaps` | propext, Classical.choice, Quot.sound |
| `Cddm.C59_round_trip` | propext, Classical.choice, Quot.sound |
| `Cddm.C59_count_none` | propext |
| `Cddm.C59_load` | propext, Classical.choice, Quot.sound |
| `Cddm.C59_too_many` | propext, Classical.choice, Quot.sound |
| `Cddm.C59_rejected` | propext, Quot.sound |
| `Cddm.C59_missing_refuted` | propext, Classical.choice, Quot.sound |
| `Cddm.C59_camera_missing_refuted` | none |
| `Cddm.C59_complete_partial` | propext, Classical.choice, Quot.sound |
| `Cddm.C60_combine` | propext, Quot.sound |
| `Cddm.C60_length` | propext, Quot.sound |
| `Cddm.C60_mismatch` | propext, Classical.choice, Quot.sound |
| `Cddm.C60_op_error` | propext, Classical.choice, Quot.sound |
| `Cddm.C60_add_subtract` | propext, Quot.sound |
| `Cddm.C60_inplace` | propext, Quot.sound |
| `Cddm.C61_threaded_prefix` | propext |
| `Cddm.C61_threaded_ends` | propext, Classical.choice, Quot.sound |
| `Cddm.C61_threaded_partial` | propext, Classical.choice, Quot.sound |
| `Cddm.C61_threaded_refuted` | propext |
| `Cddm.C61_queue_bound` | propext, Classical.choice, Quot.sound |
| `Cddm.C61_play_threaded_prefix` | propext, Quot.sound |
| `Cddm.C61_play_threaded` | propext, Classical.choice, Quot.sound |
| `Cddm.C62_show_video` | propext, Classical.choice, Quot.sound |
| `Cddm.C62_show_video_bad_id` | propext, Classical.choice, Quot.sound |
| `Cddm.C62_show_diff` | propext, Quot.sound |
| `Cddm.C62_show_diff_partial` | propext, Quot.sound |
| `Cddm.C62_show_diff_refuted` | propext, Quot.sound |
| `Cddm.C62_show_diff_cameras_refuted` | propext, Quot.sound |
| `Cddm.C62_play` | propext, Classical.choice, Quot.sound |
| `Cddm.C62_play_zero` | propext, Classical.choice, Quot.sound |
| `Cddm.C62_display_queue` | propext, Quot.sound |
| `Cddm.C63_restored` | propext, Quot.sound |
| `Cddm.C63_silent` | propext, Quot.sound |
| `Cddm.C63_flat_partial` | propext, Quot.sound |
| `Cddm.C63_nested_refuted` | propext, Quot.sound |
| `Cddm.C63_negative_refuted` | propext, Quot.sound |
| `Cddm.C63_exception_refuted` | propext, Quot.sound |
| `Cddm.C63_level_ignored` | none |
| `Cddm.C63_set_verbose` | propext, Quot.sound |
| `Cddm.C64_installed` | propext |
| `Cddm.C64_dispatch` | propext, Classical.choice, Quot.sound |
| `Cddm.C64_invalid` | propext |
| `Cddm.C64_fftlib` | propext, Classical.choice, Quot.sound |
| `Cddm.C64_showlib` | propext, Classical.choice, Quot.sound |
| `Cddm.C64_restore` | propext, Classical.choice, Quot.sound |
| `Cddm.C64_verbose` | propext, Quot.sound |
| `Cddm.C65_blackman` | propext, Classical.choice, Quot.sound |
| `Cddm.C65_blackman_value` | propext, Classical.choice, Quot.sound |
| `Cddm.C65_tukey` | propext, Classical.choice, Quot.sound |
| `Cddm.C65_tukey_edge` | propext, Classical.choice, Quot.sound |
| `Cddm.C65_hann` | propext, Classical.choice, Quot.sound |
| `Cddm.C65_gaussian` | propext, Classical.choice, Quot.sound |
| `Cddm.C65_invalid` | propext, Classical.choice, Quot.sound |
| `Cddm.C66_thread_frame_shape` | propext, Quot.sound |
| `Cddm.C66_thread_frame_shape_none` | propext, Classical.choice, Quot.sound |
| `Cddm.C66_thread_frame_shape_pixels` | propext, Classical.choice, Quot.sound |
| `Cddm.C66_divisor_zero` | propext |
| `Cddm.C66_divisor_negative_refuted` | none |
| `Cddm.C66_unmasked_partial` | propext, Classical.choice, Quot.sound |
| `Cddm.C66_1d_refuted` | propext, Classical.choice, Quot.sound |
| `Cddm.C66_1d_divisor_refuted` | propext, Classical.choice, Quot.sound |
| `Cddm.C66_levels_divisor_refuted` | propext, Classical.choice, Quot.sound |
| `Cddm.C66_last_axis_partial` | propext, Classical.choice, Quot.sound |
| `Cddm.C66_axis_mixes_refuted` | propext, Quot.sound |
| `Cddm.C66_middle_axis_mixes_refuted` | propext, Quot.sound |
| `Cddm.C66_masked_partial` | propext, Classical.choice, Quot.sound |
| `Cddm.C66_mask_axis` | propext, Quot.sound |
| `Cddm.C66_mask_divisor_refuted` | propext, Classical.choice, Quot.sound |
| `Cddm.C66_mask_1d_refuted` | propext, Classical.choice, Quot.sound |
| `Cddm.C66_shape_none_refuted` | propext, Classical.choice, Quot.sound |
| `Cddm.C66_frame` | propext, Classical.choice, Quot.sound |
| `Cddm.C66_frame_masked` | propext, Classical.choice, Quot.sound |
| `Cddm.C67_iccorr_no_result` | propext, Classical.choice, Quot.sound |
| `Cddm.C67_iccorr_complex_no_result` | propext, Classical.choice, Quot.sound |
| `Cddm.C67_iccorr_default_false` | propext, Classical.choice, Quot.sound |
| `Cddm.C67_iacorr_default_false` | propext, Classical.choice, Quot.sound |
| `Cddm.C67_iacorr_complex_default_false` | propext, Classical.choice, Quot.sound |
| `Cddm.C67_iacorr_no_result` | propext, Classical.choice, Quot.sound |
| `Cddm.C67_iccorr_partial` | propext, Classical.choice, Quot.sound |
| `Cddm.C67_iccorr_complex_partial` | propext, Classical.choice, Quot.sound |
| `Cddm.C67_iacorr_partial` | propext, Classical.choice, Quot.sound |
| `Cddm.C68_list` | propext, Classical.choice, Quot.sound |
| `Cddm.C68_list_short` | propext, Classical.choice, Quot.sound |
| `Cddm.C68_generator` | propext, Classical.choice, Quot.sound |
| `Cddm.C68_generator_step_partial` | propext, Classical.choice, Quot.sound |
| `Cddm.C68_generator_forward_refuted` | propext, Classical.choice, Quot.sound |
| `Cddm.C68_camera` | propext, Quot.sound |
| `Cddm.C69_click` | propext, Classical.choice, Quot.sound |
| `Cddm.C69_history` | propext, Classical.choice, Quot.sound |
| `Cddm.C69_boxes` | propext, Quot.sound |
| `Cddm.C69_start` | propext, Classical.choice, Quot.sound |
| `Cddm.C69_reachable` | propext, Classical.choice, Quot.sound |
| `Cddm.C69_set_data_refuted` | propext, Classical.choice, Quot.sound |
| `Cddm.C69_set_norm_refuted` | propext, Classical.choice, Quot.sound |
| `Cddm.C70_scale_partial` | propext, Classical.choice, Quot.sound |
| `Cddm.C70_refuted` | propext, Classical.choice, Quot.sound |
| `Cddm.C71_equalize_partial` | propext, Classical.choice, Quot.sound |
| `Cddm.C71_equalize_refuted` | propext, Classical.choice, Quot.sound |
| `Cddm.C71_shift_refuted` | propext, Classical.choice, Quot.sound |
| `Cddm.C71_shift_actual` | propext, Classical.choice, Quot.sound |
| `Cddm.C72_complex_levels_false` | propext, Classical.choice, Quot.sound |
| `Cddm.C72_complex_fast_partial` | propext, Classical.choice, Quot.sound |
| `Cddm.C73_mean_partial` | propext, Classical.choice, Quot.sound |
| `Cddm.C73_mean` | propext, Classical.choice, Quot.sound |
| `Cddm.C73_pick` | propext, Classical.choice, Quot.sound |
| `Cddm.C73_level_zero` | propext, Classical.choice, Quot.sound |
| `Cddm.C73_bounds` | propext, Classical.choice, Quot.sound |
| `Cddm.C73_constant` | propext, Classical.choice, Quot.sound |
| `Cddm.C73_log_average` | propext, Classical.choice, Quot.sound |
| `Cddm.C73_rejects` | propext, Classical.choice, Quot.sound |
| `Cddm.C73_wide_refuted` | propext, Classical.choice, Quot.sound |
| `Cddm.C74_cross` | propext, Classical.choice, Quot.sound |
| `Cddm.C74_auto` | propext, Classical.choice, Quot.sound |
| `Cddm.C74_levels` | propext, Classical.choice, Quot.sound |
| `Cddm.C74_levels_refuted` | propext, Classical.choice, Quot.sound |
| `Cddm.C74_cross_slow_partial` | propext, Classical.choice, Quot.sound |
| `Cddm.C74_auto_slow_partial` | propext, Classical.choice, Quot.sound |
| `Cddm.C74_cross_zero_refuted` | propext, Classical.choice, Quot.sound |
| `Cddm.C74_fast_refuted` | propext, Classical.choice, Quot.sound |
| `Cddm.C74_log_merge` | propext, Classical.choice, Quot.sound |
| `Cddm.C75_fft2` | propext, Classical.choice, Quot.sound |
| `Cddm.C75_fft2_empty` | propext, Classical.choice, Quot.sound |
| `Cddm.C75_inverse` | propext, Classical.choice, Quot.sound |
| `Cddm.C75_libraries` | propext, Classical.choice, Quot.sound |
| `Cddm.C75_complex_refuted` | propext, Classical.choice, Quot.sound |
| `Cddm.C75_hermitian` | propext, Classical.choice, Quot.sound |
| `Cddm.C75_recover` | propext, Classical.choice, Quot.sound |
| `Cddm.C75_rfft2_video_partial` | propext, Classical.choice, Quot.sound |
| `Cddm.C75_fft2_video_partial` | propext, Classical.choice, Quot.sound |
| `Cddm.C75_failure` | propext, Quot.sound |
| `Cddm.C76_normalize_video` | propext, Classical.choice, Quot.sound |
| `Cddm.C76_normalize_fft` | propext, Classical.choice, Quot.sound |
| `Cddm.C76_zero` | propext, Classical.choice, Quot.sound |
| `Cddm.C76_empty` | propext, Classical.choice, Quot.sound |
| `Cddm.C76_scale` | propext, Classical.choice, Quot.sound |
| `Cddm.C76_commute` | propext, Classical.choice, Quot.sound |
| `Cddm.C77_spectrum_partial` | propext, Classical.choice, Quot.sound |
| `Cddm.C77_dls` | propext, Classical.choice, Quot.sound |
| `Cddm.C77_video` | propext, Classical.choice, Quot.sound |
| `Cddm.C77_rejects` | propext, Classical.choice, Quot.sound |
| `Cddm.C77_uniform` | propext, Classical.choice, Quot.sound |
| `Cddm.C77_opposite_refuted` | propext, Classical.choice, Quot.sound |
| `Cddm.C77_real` | propext, Classical.choice, Quot.sound |
| `Cddm.C78_stats` | propext, Classical.choice, Quot.sound |
| `Cddm.C78_stats_two` | propext, Classical.choice, Quot.sound |
| `Cddm.C78_best` | propext, Classical.choice, Quot.sound |
| `Cddm.C78_constant` | propext, Classical.choice, Quot.sound |
| `Cddm.C78_given` | propext, Classical.choice, Quot.sound |
| `Cddm.C78_subtract` | propext, Classical.choice, Quot.sound |
| `Cddm.C78_zero_mean` | propext, Classical.choice, Quot.sound |
| `Cddm.C78_rejects` | propext, Classical.choice, Quot.sound |
| `Cddm.C78_unit` | propext, Classical.choice, Quot.sound |
| `Cddm.C79_cross_mean_nlevel` | propext, Classical.choice, Quot.sound |
| `Cddm.C79_auto_mean_nlevel` | propext, Classical.choice, Quot.sound |
| `Cddm.C79_parts` | propext, Classical.choice, Quot.sound |
| `Cddm.C79_rejects` | propext, Classical.choice, Quot.sound |
| `Cddm.C79_cross_mean` | propext, Classical.choice, Quot.sound |
| `Cddm.C79_auto_mean` | propext, Classical.choice, Quot.sound |
| `Cddm.C79_cross_first` | propext, Classical.choice, Quot.sound |
| `Cddm.C79_auto_first` | propext, Classical.choice, Quot.sound |
| `Cddm.C79_cross_diff` | propext, Classical.choice, Quot.sound |
| `Cddm.C79_auto_diff` | propext, Classical.choice, Quot.sound |
| `Cddm.C79_bound` | propext, Classical.choice, Quot.sound |
| `Cddm.C80_level` | propext, Classical.choice, Quot.sound |
| `Cddm.C80_level_scale` | propext, Classical.choice, Quot.sound |
| `Cddm.C80_level_flat` | propext, Classical.choice, Quot.sound |
| `Cddm.C80_mean_corr` | propext, Classical.choice, Quot.sound |
| `Cddm.C80_mean_modes` | propext, Classical.choice, Quot.sound |
| `Cddm.C80_mean_normalized` | propext, Classical.choice, Quot.sound |
| `Cddm.C80_mean_rejects` | propext, Classical.choice, Quot.sound |
| `Cddm.C81_corr` | propext, Classical.choice, Quot.sound |
| `Cddm.C81_unfiltered` | propext, Classical.choice, Quot.sound |
| `Cddm.C81_rejects` | propext, Classical.choice, Quot.sound |
| `Cddm.C81_diff_partial` | propext, Classical.choice, Quot.sound |
| `Cddm.C81_diff_refuted` | propext, Classical.choice, Quot.sound |
| `Cddm.C82_cross` | propext, Classical.choice, Quot.sound |
| `Cddm.C82_cross_complex` | propext, Classical.choice, Quot.sound |
| `Cddm.C82_auto` | propext, Classical.choice, Quot.sound |
| `Cddm.C82_difference` | propext, Classical.choice, Quot.sound |
| `Cddm.C82_structure_function` | propext, Classical.choice, Quot.sound |
| `Cddm.C82_scaled` | propext, Classical.choice, Quot.sound |
| `Cddm.C82_compensated_refuted` | propext, Classical.choice, Quot.sound |
| `Cddm.C83_cross_times` | propext, Classical.choice, Quot.sound |
| `Cddm.C83_cross` | propext, Classical.choice, Quot.sound |
| `Cddm.C83_cross_linear` | propext, Classical.choice, Quot.sound |
| `Cddm.C83_auto` | propext, Classical.choice, Quot.sound |
| `Cddm.C83_log_average` | propext, Classical.choice, Quot.sound |
| `Cddm.C84_average_partial` | propext, Classical.choice, Quot.sound |
| `Cddm.C84_odd` | propext, Classical.choice, Quot.sound |
| `Cddm.C84_ring` | propext, Classical.choice, Quot.sound |
| `Cddm.C84_set_mask` | propext, Classical.choice, Quot.sound |
| `Cddm.C84_wave_number_partial` | propext, Classical.choice, Quot.sound |
| `Cddm.C84_wave_number_masked_refuted` | propext, Classical.choice, Quot.sound |
| `Cddm.C84_other_size_refuted` | propext, Classical.choice, Quot.sound |
| `Cddm.C84_order` | propext, Classical.choice, Quot.sound |
| `Cddm.C84_mode` | propext, Classical.choice, Quot.sound |
| `Cddm.C84_repr` | propext, Classical.choice, Quot.sound |
| `Cddm.C84_nyquist_refuted` | propext, Classical.choice, Quot.sound |
| `Cddm.C85_iccorr_multi_result` | propext, Classical.choice, Quot.sound |
| `Cddm.C85_iacorr_multi_result` | propext, Classical.choice, Quot.sound |
| `Cddm.C85_iccorr_result` | propext, Classical.choice, Quot.sound |
| `Cddm.C85_iacorr_result` | propext, Classical.choice, Quot.sound |
| `Cddm.C85_iccorr_multi_every` | propext, Classical.choice, Quot.sound |
| `Cddm.C85_iacorr_multi_every` | propext, Classical.choice, Quot.sound |
| `Cddm.C85_iccorr_multi_progress` | propext, Classical.choice, Quot.sound |
| `Cddm.C85_iccorr_multi_progress_complex` | propext, Classical.choice, Quot.sound |
| `Cddm.C85_iacorr_multi_progress` | propext, Classical.choice, Quot.sound |
| `Cddm.C85_iacorr_multi_progress_complex` | propext, Classical.choice, Quot.sound |
| `Cddm.C85_iccorr_multi_number` | propext, Classical.choice, Quot.sound |
| `Cddm.C85_iacorr_multi_number` | propext, Classical.choice, Quot.sound |
| `Cddm.C85_iccorr_multi_last` | propext, Classical.choice, Quot.sound |
| `Cddm.C85_iacorr_multi_last` | propext, Classical.choice, Quot.sound |
| `Cddm.C85_iccorr_multi_ends` | propext, Classical.choice, Quot.sound |
| `Cddm.C85_iccorr_shown` | propext, Classical.choice, Quot.sound |
| `Cddm.C85_iacorr_shown` | propext, Classical.choice, Quot.sound |
| `Cddm.C85_iccorr_progress` | propext, Classical.choice, Quot.sound |
| `Cddm.C85_iacorr_progress` | propext, Classical.choice, Quot.sound |
| `Cddm.C85_zero_interval` | propext, Classical.choice, Quot.sound |
| `Cddm.C85_last_shown_refuted` | propext, Classical.choice, Quot.sound |
| `Cddm.C86_walk` | propext, Classical.choice, Quot.sound |
| `Cddm.C86_steps_partial` | propext, Classical.choice, Quot.sound |
| `Cddm.C86_velocity_refuted` | propext, Classical.choice, Quot.sound |
| `Cddm.C86_delta_refuted` | propext, Classical.choice, Quot.sound |
| `Cddm.C86_delta_two_refuted` | propext, Classical.choice, Quot.sound |
| `Cddm.C86_rejected` | propext, Classical.choice, Quot.sound |
| `Cddm.C86_normal` | propext, Classical.choice, Quot.sound |
| `Cddm.C86_scattering` | propext, Classical.choice, Quot.sound |
| `Cddm.C87_given` | propext, Classical.choice, Quot.sound |
| `Cddm.C87_random` | propext, Classical.choice, Quot.sound |
| `Cddm.C87_scattering` | propext, Classical.choice, Quot.sound |
| `Cddm.C87_callable` | propext, Classical.choice, Quot.sound |
| `Cddm.C87_rejected` | propext, Classical.choice, Quot.sound |
| `Cddm.C88_dual` | propext, Classical.choice, Quot.sound |
| `Cddm.C88_single` | propext, Classical.choice, Quot.sound |
| `Cddm.C88_rejected` | propext, Classical.choice, Quot.sound |
| `Cddm.C89_cross` | propext, Classical.choice, Quot.sound |
| `Cddm.C89_difference` | propext, Classical.choice, Quot.sound |
| `Cddm.C89_cross_complex` | propext, Classical.choice, Quot.sound |
| `Cddm.C89_multi_times` | propext, Classical.choice, Quot.sound |
| `Cddm.C89_multi` | propext, Classical.choice, Quot.sound |
| `Cddm.C89_auto` | propext, Classical.choice, Quot.sound |
| `Cddm.C89_modes` | propext, Classical.choice, Quot.sound |
| `Cddm.C90_cross` | propext, Classical.choice, Quot.sound |
| `Cddm.C90_difference` | propext, Classical.choice, Quot.sound |
| `Cddm.C90_scaled` | propext, Classical.choice, Quot.sound |
| `Cddm.C90_complex` | propext, Classical.choice, Quot.sound |
| `Cddm.C90_auto` | propext, Classical.choice, Quot.sound |
| `Cddm.C90_multi` | propext, Classical.choice, Quot.sound |
| `Cddm.C91_corr_partial` | propext, Classical.choice, Quot.sound |
| `Cddm.C91_multi_partial` | propext, Classical.choice, Quot.sound |
| `Cddm.C91_signals_partial` | propext, Classical.choice, Quot.sound |
| `Cddm.C91_signals_complex_partial` | propext, Classical.choice, Quot.sound |
| `Cddm.C91_no_background` | propext, Classical.choice, Quot.sound |
| `Cddm.C91_errors` | propext, Classical.choice, Quot.sound |
| `Cddm.C91_fold_false_refuted` | propext, Classical.choice, Quot.sound |
| `Cddm.C91_fold_false_folds_refuted` | propext, Classical.choice, Quot.sound |
| `Cddm.C91_multi_one_sided_refuted` | propext, Classical.choice, Quot.sound |
| `Cddm.C91_log_partial` | propext, Classical.choice, Quot.sound |
| `Cddm.C91_log_complex_partial` | propext, Classical.choice, Quot.sound |
| `Cddm.C91_merge_partial` | propext, Classical.choice, Quot.sound |
| `Cddm.C91_linear_partial` | propext, Classical.choice, Quot.sound |
| `Cddm.C91_merge_complex_partial` | propext, Classical.choice, Quot.sound |
| `Cddm.C92_data_partial` | propext, Classical.choice, Quot.sound |
| `Cddm.C92_curves_partial` | propext, Classical.choice, Quot.sound |
| `Cddm.C92_sliders_partial` | propext, Classical.choice, Quot.sound |
| `Cddm.C92_failed_calls` | propext, Classical.choice, Quot.sound |
| `Cddm.C92_other_axes_refuted` | propext, Classical.choice, Quot.sound |
| `Cddm.C92_negative_axis_refuted` | propext, Classical.choice, Quot.sound |
| `Cddm.C92_wrong_times_refuted` | propext, Classical.choice, Quot.sound |
| `Cddm.C93_subtracted` | propext, Classical.choice, Quot.sound |
| `Cddm.C93_baseline_partial` | propext, Classical.choice, Quot.sound |
| `Cddm.C93_plain` | propext, Classical.choice, Quot.sound |
| `Cddm.C93_plain_baseline_partial` | propext, Classical.choice, Quot.sound |
| `Cddm.C93_optimal` | propext, Classical.choice, Quot.sound |
| `Cddm.C93_optimal_baseline_partial` | propext, Classical.choice, Quot.sound |
| `Cddm.C93_background_weight_refuted` | propext, Classical.choice, Quot.sound |
| `Cddm.C93_conjugate_refuted` | propext, Classical.choice, Quot.sound |
| `Cddm.C94_uniform` | propext, Classical.choice, Quot.sound |
| `Cddm.C94_uniform_abs` | propext, Classical.choice, Quot.sound |
| `Cddm.C94_simultaneous` | propext, Classical.choice, Quot.sound |
| `Cddm.C94_simultaneous_abs` | propext, Classical.choice, Quot.sound |
| `Cddm.C95_expected_count_partial` | propext, Classical.choice, Quot.sound |
| `Cddm.C95_no_frames` | propext, Classical.choice, Quot.sound |
| `Cddm.C95_zero_delay_refuted` | propext, Classical.choice, Quot.sound |
| `Cddm.C95_regular_in_the_end` | propext, Classical.choice, Quot.sound |
| `Cddm.C95_minimum_time_refuted` | propext, Classical.choice, Quot.sound |
| `Cddm.C96_random_times` | propext, Classical.choice, Quot.sound |
| `Cddm.C96_random_times_complex` | propext, Classical.choice, Quot.sound |
| `Cddm.C96_particles` | propext, Classical.choice, Quot.sound |
| `Cddm.C96_particles_complex` | propext, Classical.choice, Quot.sound |
| `Cddm.C97_ends` | propext, Classical.choice, Quot.sound |
| `Cddm.C97_between` | propext, Classical.choice, Quot.sound |
| `Cddm.C97_one_worker` | propext, Classical.choice, Quot.sound |
| `Cddm.C97_same_image_partial` | propext, Classical.choice, Quot.sound |
| `Cddm.C97_refuted` | propext, Classical.choice, Quot.sound |
| `Cddm.C98_full` | propext, Classical.choice, Quot.sound |
| `Cddm.C98_half` | propext, Classical.choice, Quot.sound |
| `Cddm.C98_no_window` | propext, Classical.choice, Quot.sound |
| `Cddm.C98_frame` | propext, Classical.choice, Quot.sound |
| `Cddm.C98_errors` | propext, Classical.choice, Quot.sound |
| `Cddm.C99_average_partial` | propext, Classical.choice, Quot.sound |
| `Cddm.C99_refuted` | propext, Classical.choice, Quot.sound |
| `Cddm.C100_crop` | propext, Classical.choice, Quot.sound |
| `Cddm.C100_args` | propext |
| `Cddm.C100_box` | propext, Classical.choice, Quot.sound |
| `Cddm.C100_whole` | propext, Classical.choice, Quot.sound |
| `Cddm.C100_twice` | propext, Classical.choice, Quot.sound |
| `Cddm.C100_combine` | propext, Classical.choice, Quot.sound |
| `Cddm.C100_errors` | propext, Classical.choice, Quot.sound |
| `Cddm.C101_mask` | propext, Classical.choice, Quot.sound |
| `Cddm.C101_shape` | propext, Quot.sound |
| `Cddm.C102_clip` | propext, Classical.choice, Quot.sound |
| `Cddm.C102_auto_partial` | propext, Classical.choice, Quot.sound |
| `Cddm.C102_flat_refuted` | propext, Classical.choice, Quot.sound |
| `Cddm.C102_errors` | propext, Classical.choice, Quot.sound |
| `Cddm.C103_difference_partial` | propext, Classical.choice, Quot.sound |
| `Cddm.C103_negative_refuted` | propext, Classical.choice, Quot.sound |
| `Cddm.C103_normalize` | propext, Classical.choice, Quot.sound |
| `Cddm.C103_means` | propext, Classical.choice, Quot.sound |
| `Cddm.C104_switches` | propext, Classical.choice, Quot.sound |
| `Cddm.C104_precision` | propext, Classical.choice, Quot.sound |
| `Cddm.C104_cache_partial` | propext, Quot.sound |
| `Cddm.C104_cache_refuted` | propext, Quot.sound |
| `Cddm.C105_cores` | propext, Quot.sound |
| `Cddm.C105_succeeds` | propext, Classical.choice, Quot.sound |
| `Cddm.C105_settings` | propext, Classical.choice, Quot.sound |
| `Cddm.C105_installed` | propext |
| `Cddm.C105_errors` | propext, Classical.choice, Quot.sound |
| `Cddm.C105_shipped_partial` | propext, Classical.choice, Quot.sound |
| `Cddm.C105_shipped_refuted` | propext, Classical.choice, Quot.sound |
| `Cddm.C106_home` | propext |
| `Cddm.C106_directory_partial` | propext |
| `Cddm.C106_directory_refuted` | none |
| `Cddm.C107_cross_correlate` | propext, Classical.choice, Quot.sound |
| `Cddm.C107_auto_correlate` | propext, Classical.choice, Quot.sound |
| `Cddm.C107_cross_difference` | propext, Classical.choice, Quot.sound |
| `Cddm.C107_auto_difference` | propext, Classical.choice, Quot.sound |
| `Cddm.C107_cross_correlate_complex` | propext, Classical.choice, Quot.sound |
| `Cddm.C107_auto_correlate_complex` | propext, Classical.choice, Quot.sound |
| `Cddm.C107_factor` | propext, Classical.choice, Quot.sound |
| `Cddm.C107_nearest` | propext, Classical.choice, Quot.sound |
| `Cddm.C107_not_relative` | propext, Classical.choice, Quot.sound |
| `Cddm.C108_cross_correlate` | propext, Classical.choice, Quot.sound |
| `Cddm.C108_auto_correlate` | propext, Classical.choice, Quot.sound |
| `Cddm.C108_cross_difference` | propext, Classical.choice, Quot.sound |
| `Cddm.C108_auto_difference` | propext, Classical.choice, Quot.sound |
| `Cddm.C108_cross_correlate_complex` | propext, Classical.choice, Quot.sound |
| `Cddm.C108_auto_correlate_complex` | propext, Classical.choice, Quot.sound |
| `Cddm.C108_nearest` | propext, Classical.choice, Quot.sound |
| `Cddm.C108_bound_needed` | propext, Classical.choice, Quot.sound |
| `Cddm.C109_auto_stamped` | propext, Classical.choice, Quot.sound |
| `Cddm.C109_auto_regular_partial` | propext, Classical.choice, Quot.sound |
| `Cddm.C109_auto_whole_stamped` | propext, Classical.choice, Quot.sound |
| `Cddm.C109_auto_whole_regular` | propext, Classical.choice, Quot.sound |
| `Cddm.C109_halves_nearest` | propext, Classical.choice, Quot.sound |
| `Cddm.C109_auto_refuted` | propext, Classical.choice, Quot.sound |
| `Cddm.C109_parts` | propext, Classical.choice, Quot.sound |
| `Cddm.C109_stamped` | propext, Classical.choice, Quot.sound |
| `Cddm.C109_stamped_signed` | propext, Classical.choice, Quot.sound |
| `Cddm.C109_regular_partial` | propext, Classical.choice, Quot.sound |
| `Cddm.C109_regular_signed_partial` | propext, Classical.choice, Quot.sound |
| `Cddm.C109_whole_stamped` | propext, Classical.choice, Quot.sound |
| `Cddm.C109_whole_stamped_signed` | propext, Classical.choice, Quot.sound |
| `Cddm.C109_whole_regular` | propext, Classical.choice, Quot.sound |
| `Cddm.C109_whole_regular_signed` | propext, Classical.choice, Quot.sound |
| `Cddm.C109_refuted` | propext, Classical.choice, Quot.sound |
| `Cddm.C109_refuted_stamped` | propext, Classical.choice, Quot.sound |
| `Cddm.C110_same` | propext, Quot.sound |
| `Cddm.C110_ends` | propext, Classical.choice, Quot.sound |
| `Cddm.C110_cross_corr` | propext, Quot.sound |
| `Cddm.C110_cross_corr_complex` | propext, Quot.sound |
| `Cddm.C110_cross_diff` | propext, Quot.sound |
| `Cddm.C110_auto_corr` | propext, Quot.sound |
| `Cddm.C110_auto_corr_complex` | propext, Quot.sound |
| `Cddm.C110_auto_diff` | propext, Quot.sound |
| `Cddm.C110_cross_sum` | propext, Quot.sound |
| `Cddm.C110_cross_sum_complex` | propext, Quot.sound |
| `Cddm.C110_cross_corr_regular` | propext, Classical.choice, Quot.sound |
| `Cddm.C110_cross_corr_complex_regular` | propext, Classical.choice, Quot.sound |
| `Cddm.C110_cross_diff_regular` | propext, Classical.choice, Quot.sound |
| `Cddm.C110_auto_corr_regular` | propext, Classical.choice, Quot.sound |
| `Cddm.C110_auto_corr_complex_regular` | propext, Classical.choice, Quot.sound |
| `Cddm.C110_auto_diff_regular` | propext, Classical.choice, Quot.sound |
| `Cddm.C110_cross_sum_regular` | propext, Quot.sound |
| `Cddm.C110_cross_sum_complex_regular_inverted` | propext, Quot.sound |
| `Cddm.C110_cross_sum_complex_regular` | propext, Quot.sound |
| `Cddm.C110_shared_lost` | propext |
| `Cddm.C111_camera_partial` | propext, Classical.choice, Quot.sound |
| `Cddm.C111_subtract_partial` | propext, Classical.choice, Quot.sound |
| `Cddm.C111_float` | propext, Classical.choice, Quot.sound |
| `Cddm.C111_integer_type` | propext, Classical.choice, Quot.sound |
| `Cddm.C111_inplace` | propext, Classical.choice, Quot.sound |
| `Cddm.C111_restores` | propext, Classical.choice, Quot.sound |
| `Cddm.C111_inplace_background` | propext, Classical.choice, Quot.sound |
| `Cddm.C111_refuted` | propext, Classical.choice, Quot.sound |
| `Cddm.C112_difference` | propext, Classical.choice, Quot.sound |
| `Cddm.C112_keeps_partial` | propext, Classical.choice, Quot.sound |
| `Cddm.C112_keeps_refuted` | propext, Classical.choice, Quot.sound |
| `Cddm.C112_half_refuted` | propext, Classical.choice, Quot.sound |
| `Cddm.C112_opencv` | propext, Classical.choice, Quot.sound |
| `Cddm.C113_cross_correlate_partial` | propext, Classical.choice, Quot.sound |
| `Cddm.C113_cross_correlate_complex_partial` | propext, Classical.choice, Quot.sound |
| `Cddm.C113_auto_correlate_partial` | propext, Classical.choice, Quot.sound |
| `Cddm.C113_auto_correlate_complex_partial` | propext, Classical.choice, Quot.sound |
| `Cddm.C113_cross_difference_partial` | propext, Classical.choice, Quot.sound |
| `Cddm.C113_auto_difference_partial` | propext, Classical.choice, Quot.sound |
| `Cddm.C113_cross_sum_partial` | propext, Classical.choice, Quot.sound |
| `Cddm.C113_cross_sum_complex_partial` | propext, Classical.choice, Quot.sound |
| `Cddm.C113_cross_count_partial` | propext, Classical.choice, Quot.sound |
| `Cddm.C113_cross_count_complex_partial` | propext, Classical.choice, Quot.sound |
| `Cddm.C113_auto_count_partial` | propext, Classical.choice, Quot.sound |
| `Cddm.C113_auto_sum_partial` | propext, Classical.choice, Quot.sound |
| `Cddm.C113_refuted` | propext |
| `Cddm.C113_outside_refuted` | propext |
| `Cddm.C113_length_refuted` | propext |
| `Cddm.C113_cross_correlate_fft_partial` | propext, Classical.choice, Quot.sound |
| `Cddm.C113_cross_correlate_complex_fft_partial` | propext, Classical.choice, Quot.sound |
| `Cddm.C113_auto_correlate_fft_partial` | propext, Classical.choice, Quot.sound |
| `Cddm.C113_auto_correlate_complex_fft_partial` | propext, Classical.choice, Quot.sound |
| `Cddm.C113_cross_sum_fft_partial` | propext, Classical.choice, Quot.sound |
| `Cddm.C113_cross_sum_cdata_fft_partial` | propext, Classical.choice, Quot.sound |
| `Cddm.C113_cross_sum_complex_fft_partial` | propext, Classical.choice, Quot.sound |
| `Cddm.C113_cross_sum_complex_cdata_fft_partial` | propext, Classical.choice, Quot.sound |
| `Cddm.C113_auto_sum_fft_partial` | propext, Classical.choice, Quot.sound |
| `Cddm.C113_auto_sum_cdata_fft_partial` | propext, Classical.choice, Quot.sound |
| `Cddm.C113_fft_refuted` | propext, Classical.choice, Quot.sound |
| `Cddm.C113_cross_correlate_frames_partial` | propext, Classical.choice, Quot.sound |
| `Cddm.C113_cross_correlate_complex_frames_partial` | propext, Classical.choice, Quot.sound |
| `Cddm.C113_cross_difference_frames_partial` | propext, Classical.choice, Quot.sound |
| `Cddm.C113_auto_correlate_frames_partial` | propext, Classical.choice, Quot.sound |
| `Cddm.C113_auto_correlate_complex_frames_partial` | propext, Classical.choice, Quot.sound |
| `Cddm.C113_auto_difference_frames_partial` | propext, Classical.choice, Quot.sound |
| `Cddm.C113_cross_sum_frames_partial` | propext, Classical.choice, Quot.sound |
| `Cddm.C113_auto_sum_frames_partial` | propext, Classical.choice, Quot.sound |
| `Cddm.C113_frames_entries_partial` | propext, Classical.choice, Quot.sound |
| `Cddm.C113_frames_outside_refuted` | propext |
| `Cddm.C113_frames_refuted` | propext |
| `Cddm.C114_cross_correlate_partial` | propext, Classical.choice, Quot.sound |
| `Cddm.C114_cross_correlate_complex_partial` | propext, Classical.choice, Quot.sound |
| `Cddm.C114_cross_difference_partial` | propext, Classical.choice, Quot.sound |
| `Cddm.C114_auto_correlate_partial` | propext, Classical.choice, Quot.sound |
| `Cddm.C114_auto_correlate_complex_partial` | propext, Classical.choice, Quot.sound |
| `Cddm.C114_cross_sum_partial` | propext, Classical.choice, Quot.sound |
| `Cddm.C114_cross_sum_complex_partial` | propext, Classical.choice, Quot.sound |
| `Cddm.C114_auto_sum_partial` | propext, Classical.choice, Quot.sound |
| `Cddm.C114_auto_difference_partial` | propext, Classical.choice, Quot.sound |
| `Cddm.C114_cross_count_partial` | propext, Classical.choice, Quot.sound |
| `Cddm.C114_auto_count_partial` | propext, Classical.choice, Quot.sound |
| `Cddm.C114_refuted` | propext, Classical.choice, Quot.sound |
| `Cddm.C114_auto_sum_refuted` | propext, Classical.choice, Quot.sound |
| `Cddm.C114_origin_refuted` | propext, Classical.choice, Quot.sound |
| `Cddm.C115_auto_times` | propext, Classical.choice, Quot.sound |
| `Cddm.C115_auto_times_order` | propext, Classical.choice, Quot.sound |
| `Cddm.C115_cross_times` | propext, Classical.choice, Quot.sound |
| `Cddm.C115_cross_times_length` | propext |
| `Cddm.C115_auto_count_partial` | propext, Classical.choice, Quot.sound |
| `Cddm.C115_period` | propext |
| `Cddm.C115_cross_count_partial` | propext, Classical.choice, Quot.sound |
| `Cddm.C115_refuted` | propext |
| `Cddm.C115_zero_delay_refuted` | propext, Classical.choice, Quot.sound |
| `Cddm.C116_cross_correlate` | propext, Classical.choice, Quot.sound |
| `Cddm.C116_cross_correlate_complex` | propext, Classical.choice, Quot.sound |
| `Cddm.C116_cross_difference` | propext, Classical.choice, Quot.sound |
| `Cddm.C116_auto_correlate` | propext, Classical.choice, Quot.sound |
| `Cddm.C116_auto_correlate_complex` | propext, Classical.choice, Quot.sound |
| `Cddm.C116_auto_difference` | propext, Classical.choice, Quot.sound |
| `Cddm.C116_cross_sum` | propext, Classical.choice, Quot.sound |
| `Cddm.C116_cross_sum_complex` | propext, Classical.choice, Quot.sound |
| `Cddm.C116_auto_sum` | propext, Classical.choice, Quot.sound |
| `Cddm.C116_cross_values` | propext, Classical.choice, Quot.sound |
| `Cddm.C116_auto_values` | propext, Classical.choice, Quot.sound |
| `Cddm.C116_layout` | propext, Classical.choice, Quot.sound |
| `Cddm.C116_axis_rejected` | propext, Classical.choice, Quot.sound |
| `Cddm.C116_axis_ignored` | propext, Classical.choice, Quot.sound |
| `Cddm.C116_out_rejected` | propext, Classical.choice, Quot.sound |
| `Cddm.C117_cross_correlate_fft` | propext, Classical.choice, Quot.sound |
| `Cddm.C117_cross_correlate_complex_fft` | propext, Classical.choice, Quot.sound |
| `Cddm.C117_auto_correlate_fft` | propext, Classical.choice, Quot.sound |
| `Cddm.C117_auto_correlate_complex_fft` | propext, Classical.choice, Quot.sound |
| `Cddm.C117_cross_sum_fft` | propext, Classical.choice, Quot.sound |
| `Cddm.C117_cross_sum_fft_complex` | propext, Classical.choice, Quot.sound |
| `Cddm.C117_auto_sum_fft` | propext, Classical.choice, Quot.sound |
| `Cddm.C117_auto_sum_fft_complex` | propext, Classical.choice, Quot.sound |
| `Cddm.C117_ccorr` | propext, Classical.choice, Quot.sound |
| `Cddm.C117_ccorr_complex` | propext, Classical.choice, Quot.sound |
| `Cddm.C117_acorr` | propext, Classical.choice, Quot.sound |
| `Cddm.C117_acorr_complex` | propext, Classical.choice, Quot.sound |
| `Cddm.C117_ccorr_values` | propext, Classical.choice, Quot.sound |
| `Cddm.C117_shapes_refused` | propext, Classical.choice, Quot.sound |
| `Cddm.C118_values` | propext, Classical.choice, Quot.sound |
| `Cddm.C118_same_as_subtracted` | propext, Classical.choice, Quot.sound |
| `Cddm.C118_complex_differences` | propext, Classical.choice, Quot.sound |
| `Cddm.C119_each_wave_partial` | propext, Classical.choice, Quot.sound |
| `Cddm.C119_mask_partial` | propext, Classical.choice, Quot.sound |
| `Cddm.C119_mask_selects_partial` | propext, Classical.choice, Quot.sound |
| `Cddm.C119_taken_for_a_pair` | propext, Classical.choice, Quot.sound |
| `Cddm.C119_tuple_partial` | propext, Classical.choice, Quot.sound |
| `Cddm.C119_ccorr_partial` | propext, Classical.choice, Quot.sound |
| `Cddm.C119_two_wave_vectors_false` | propext, Classical.choice, Quot.sound |
| `Cddm.C120_multilevel` | propext, Classical.choice, Quot.sound |
| `Cddm.C120_multilevel_complex` | propext, Classical.choice, Quot.sound |
| `Cddm.C120_merge` | propext, Classical.choice, Quot.sound |
| `Cddm.C120_merge_half_entry` | propext, Classical.choice, Quot.sound |
| `Cddm.C120_log_average` | propext, Classical.choice, Quot.sound |
| `Cddm.C120_log_average_each` | propext, Classical.choice, Quot.sound |
| `Cddm.C120_log_average_complex` | propext, Classical.choice, Quot.sound |
| `Cddm.C120_log_merge` | propext, Classical.choice, Quot.sound |
| `Cddm.C120_log_merge_each` | propext, Classical.choice, Quot.sound |
| `Cddm.C120_log_merge_complex` | propext, Classical.choice, Quot.sound |
| `Cddm.C120_log_merge_frames` | propext, Classical.choice, Quot.sound |
| `Cddm.C121_normalize_multi_partial` | propext, Classical.choice, Quot.sound |
| `Cddm.C121_mask_partial` | propext, Classical.choice, Quot.sound |
| `Cddm.C122_frames` | propext, Classical.choice, Quot.sound |
| `Cddm.C122_pixels_partial` | propext, Classical.choice, Quot.sound |
| `Cddm.C122_pixels_taken_for_frames` | propext, Classical.choice, Quot.sound |
| `Cddm.C122_average_partial` | propext, Classical.choice, Quot.sound |
| `Cddm.C123_ccorr_multi_partial` | propext, Classical.choice, Quot.sound |
| `Cddm.C123_ccorr_multi_complex_partial` | propext, Classical.choice, Quot.sound |
| `Cddm.C123_acorr_multi_partial` | propext, Classical.choice, Quot.sound |
| `Cddm.C123_acorr_multi_complex_partial` | propext, Classical.choice, Quot.sound |
| `Cddm.C123_one_axis_refuted` | propext, Classical.choice, Quot.sound |
| `Cddm.C123_last_axis_refuted` | propext, Classical.choice, Quot.sound |
| `Cddm.C124_iccorr_multi_partial` | propext, Classical.choice, Quot.sound |
| `Cddm.C124_iccorr_multi_complex_partial` | propext, Classical.choice, Quot.sound |
| `Cddm.C124_iacorr_multi_partial` | propext, Classical.choice, Quot.sound |
| `Cddm.C124_iacorr_multi_complex_partial` | propext, Classical.choice, Quot.sound |
| `Cddm.C124_iccorr_partial` | propext, Classical.choice, Quot.sound |
| `Cddm.C124_iccorr_complex_partial` | propext, Classical.choice, Quot.sound |
| `Cddm.C124_iacorr_partial` | propext, Classical.choice, Quot.sound |
| `Cddm.C124_iacorr_complex_partial` | propext, Classical.choice, Quot.sound |
| `Cddm.C124_iccorr_multi_refuses` | propext, Classical.choice, Quot.sound |
| `Cddm.C124_iacorr_multi_refuses` | propext, Classical.choice, Quot.sound |
| `Cddm.C124_one_axis_refuted` | propext, Classical.choice, Quot.sound |
| `Cddm.C125_ccorr_multi_partial` | propext, Classical.choice, Quot.sound |
| `Cddm.C125_ccorr_multi_complex_partial` | propext, Classical.choice, Quot.sound |
| `Cddm.C125_acorr_multi_partial` | propext, Classical.choice, Quot.sound |
| `Cddm.C125_acorr_multi_complex_partial` | propext, Classical.choice, Quot.sound |
| `Cddm.C125_iccorr_multi_partial` | propext, Classical.choice, Quot.sound |
| `Cddm.C125_iccorr_multi_complex_partial` | propext, Classical.choice, Quot.sound |
| `Cddm.C125_iacorr_multi_partial` | propext, Classical.choice, Quot.sound |
| `Cddm.C125_iacorr_multi_complex_partial` | propext, Classical.choice, Quot.sound |
| `Cddm.C125_iccorr_partial` | propext, Classical.choice, Quot.sound |
| `Cddm.C125_iccorr_complex_partial` | propext, Classical.choice, Quot.sound |
| `Cddm.C125_iacorr_partial` | propext, Classical.choice, Quot.sound |
| `Cddm.C125_iacorr_complex_partial` | propext, Classical.choice, Quot.sound |
| `Cddm.C125_ccorr_multi_refuses` | propext, Classical.choice, Quot.sound |
| `Cddm.C125_acorr_multi_refuses` | propext, Classical.choice, Quot.sound |
| `Cddm.C125_divisor_refuted` | propext, Classical.choice, Quot.sound |
| `Cddm.C125_one_axis_refuted` | propext, Classical.choice, Quot.sound |
| `Cddm.C125_three_axes_refuted` | propext, Classical.choice, Quot.sound |
| `Cddm.C125_refuses` | propext, Classical.choice, Quot.sound |
| `Cddm.C125_negative_axis_refuted` | propext, Classical.choice, Quot.sound |
| `Cddm.C126_ccorr_multi_partial` | propext, Classical.choice, Quot.sound |
| `Cddm.C126_acorr_multi_partial` | propext, Classical.choice, Quot.sound |
| `Cddm.C126_iccorr_multi_partial` | propext, Classical.choice, Quot.sound |
| `Cddm.C126_iacorr_multi_partial` | propext, Classical.choice, Quot.sound |
| `Cddm.C126_log_merge_partial` | propext, Classical.choice, Quot.sound |
| `Cddm.C126_log_merge_iccorr_partial` | propext, Classical.choice, Quot.sound |
| `Cddm.C126_ccorr_multi_first_partial` | propext, Classical.choice, Quot.sound |
| `Cddm.C126_acorr_multi_first_partial` | propext, Classical.choice, Quot.sound |
| `Cddm.C126_ccorr_multi_nlevel_partial` | propext, Classical.choice, Quot.sound |
| `Cddm.C126_acorr_multi_nlevel_partial` | propext, Classical.choice, Quot.sound |
| `Cddm.C126_iccorr_multi_nlevel_partial` | propext, Classical.choice, Quot.sound |
| `Cddm.C126_iacorr_multi_nlevel_partial` | propext, Classical.choice, Quot.sound |
| `Cddm.C126_log_merge_nlevel_partial` | propext, Classical.choice, Quot.sound |
| `Cddm.C126_log_merge_acorr_nlevel_partial` | propext, Classical.choice, Quot.sound |
| `Cddm.C126_log_merge_acorr_partial` | propext, Classical.choice, Quot.sound |
| `Cddm.C126_log_merge_iacorr_partial` | propext, Classical.choice, Quot.sound |
| `Cddm.C126_log_merge_first_partial` | propext, Classical.choice, Quot.sound |
| `Cddm.C126_log_merge_acorr_first_partial` | propext, Classical.choice, Quot.sound |
| `Cddm.C127_any` | propext, Classical.choice, Quot.sound |
| `Cddm.C127_cross_correlate` | propext, Classical.choice, Quot.sound |
| `Cddm.C127_auto_correlate` | propext, Classical.choice, Quot.sound |
| `Cddm.C127_cross_difference` | propext, Classical.choice, Quot.sound |
| `Cddm.C127_auto_difference` | propext, Classical.choice, Quot.sound |
| `Cddm.C127_auto_correlate_complex` | propext, Classical.choice, Quot.sound |
| `Cddm.C127_cross_correlate_complex` | propext, Classical.choice, Quot.sound |
| `Cddm.C127_two_builds` | propext, Classical.choice, Quot.sound |
| `Cddm.C127_source_cross` | propext, Classical.choice, Quot.sound |
| `Cddm.C127_source_auto` | propext, Classical.choice, Quot.sound |
| `Cddm.C127_changes` | propext, Classical.choice, Quot.sound |
| `Cddm.C127_cross_sum` | propext, Classical.choice, Quot.sound |
| `Cddm.C127_cross_sum_complex` | propext, Classical.choice, Quot.sound |
| `Cddm.C127_cross_sum_signed` | propext, Classical.choice, Quot.sound |
| `Cddm.C127_cross_sum_complex_signed` | propext, Classical.choice, Quot.sound |
| `Cddm.C128_cross` | propext, Classical.choice, Quot.sound |
| `Cddm.C128_cross_diff` | propext, Classical.choice, Quot.sound |
| `Cddm.C128_baseline` | propext, Classical.choice, Quot.sound |
| `Cddm.C128_not_relative` | propext, Classical.choice, Quot.sound |
| `Cddm.C128_auto` | propext, Classical.choice, Quot.sound |
| `Cddm.C128_auto_diff` | propext, Classical.choice, Quot.sound |
| `Cddm.C129_kernel` | propext, Classical.choice, Quot.sound |
| `Cddm.C129_component` | propext, Classical.choice, Quot.sound |
| `Cddm.C129_fft2_entry` | propext, Classical.choice, Quot.sound |
| `Cddm.C129_error` | propext, Classical.choice, Quot.sound |
| `Cddm.C129_dls_kernel` | propext, Classical.choice, Quot.sound |
| `Cddm.C130_type` | propext, Classical.choice, Quot.sound |
| `Cddm.C130_float_iff` | propext, Classical.choice, Quot.sound |
| `Cddm.C130_arith` | propext, Classical.choice, Quot.sound |
| `Cddm.C130_dtype` | propext, Classical.choice, Quot.sound |
| `Cddm.C130_wide` | propext, Classical.choice, Quot.sound |
| `Cddm.C130_shapes` | propext, Classical.choice, Quot.sound |
| `Cddm.C130_signed_background` | propext, Classical.choice, Quot.sound |
| `Cddm.C130_inplace_type` | propext, Classical.choice, Quot.sound |
| `Cddm.C130_inplace` | propext, Classical.choice, Quot.sound |
| `Cddm.C130_restores` | propext, Classical.choice, Quot.sound |
| `Cddm.C130_wraps` | propext, Classical.choice, Quot.sound |
| `Cddm.C131_video` | propext, Classical.choice, Quot.sound |
| `Cddm.C131_own_number` | propext, Quot.sound |
| `Cddm.C131_range` | propext, Classical.choice, Quot.sound |
| `Cddm.C131_levels` | propext, Classical.choice, Quot.sound |
| `Cddm.C131_negative_size` | propext, Classical.choice, Quot.sound |
| `Cddm.C131_empty` | propext, Classical.choice, Quot.sound |
| `Cddm.C131_dual_other` | propext, Classical.choice, Quot.sound |
| `Cddm.C131_load` | propext, Classical.choice, Quot.sound |
| `Cddm.C132_class_doc` | propext |
| `Cddm.C132_class_doc_inherited` | propext |
| `Cddm.C132_instance_doc_partial` | propext, Quot.sound |
| `Cddm.C132_instance_refuted` | propext |
| `Cddm.C132_instance_case` | propext |
| `Cddm.C132_call` | propext, Classical.choice, Quot.sound |
| `Cddm.C132_skip` | propext, Quot.sound |
| `Cddm.C132_deprecated` | propext, Classical.choice, Quot.sound |
| `Cddm.C132_deprecated_result` | propext, Classical.choice, Quot.sound |
| `Cddm.C132_other_categories` | propext, Classical.choice, Quot.sound |
| `Cddm.C132_filters_refuted` | propext, Classical.choice, Quot.sound |
| `Cddm.C132_filters_case` | propext, Classical.choice, Quot.sound |
| `Cddm.C132_shown_again_refuted` | propext |
