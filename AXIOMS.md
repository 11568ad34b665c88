# Axioms of each theorem in MANIFEST.json (`#print axioms`)

| Property | Theorem | Axioms |
|---|---|---|
| C01 | Verif.Props.C01_two_agreeing_copies_win | propext, Classical.choice, Quot.sound |
| C01 | Verif.Props.C01_integers | propext, Classical.choice, Quot.sound |
| C01 | Verif.Props.C01_weighted | propext, Classical.choice, Quot.sound |
| C02 | Verif.Props.C02_bitLevelVote_is_majority | propext, Quot.sound |
| C02 | Verif.Props.C02_disjoint_upsets_are_masked | propext, Quot.sound |
| C03 | Verif.Props.C03_etmr_strategies_agree | propext, Classical.choice, Quot.sound |
| C03 | Verif.Props.C03_all_strategies_agree | propext, Classical.choice, Quot.sound |
| C03 | Verif.Props.C03_all_strategies_agree_any_eq | propext, Classical.choice, Quot.sound |
| C04 | Verif.Props.C04_no_fault | propext, Quot.sound |
| C04 | Verif.Props.C04_classification_32_partial | propext, Classical.choice, Quot.sound |
| C04 | Verif.Props.C04_classification_32_distinct | propext, Classical.choice, Quot.sound |
| C04 | Verif.Props.C04_class32_total_unique | propext, Classical.choice, Quot.sound |
| C04 | Verif.Props.C04_adjacent_never_reported | propext, Classical.choice, Quot.sound |
| C04 | Verif.Props.C04_adjacent_violated | propext, Classical.choice, Quot.sound |
| C04 | Verif.Props.C04_detect64_violated | propext, Classical.choice, Quot.sound |
| C04 | Verif.Props.C04_confidence_same_pattern | propext, Classical.choice, Quot.sound |
| C05 | Verif.Props.C05_weighted_bits | propext, Classical.choice, Quot.sound |
| C05 | Verif.Props.C05_majority_weight_decides | propext, Classical.choice, Quot.sound |
| C06 | Verif.Props.C06_single_copy_corruption_masked | propext, Quot.sound |
| C06 | Verif.Props.C06_core_tmr_masks_and_repairs | propext |
| C06 | Verif.Props.C06_core_tmr_scrubbed_forever | propext |
| C07 | Verif.Props.C07_statistics_consistent | propext, Quot.sound |
| C07 | Verif.Props.C07_get_effect | propext |
| C08 | Verif.Props.C08_raw_access_bounds | propext, Quot.sound |
| C09 | Verif.Props.C09_crc_detects_bursts | propext, Classical.choice, Quot.sound |
| C09 | Verif.Props.C09_crc_detects_four_bytes | propext, Classical.choice, Quot.sound |
| C09 | Verif.Props.C09_crc_injective_on_small_values | propext, Classical.choice, Quot.sound |
| C09 | Verif.Props.C09_implementations_agree | propext, Classical.choice, Quot.sound |
| C10 | Verif.Props.C10_one_replica_masked | propext, Classical.choice, Quot.sound |
| C10 | Verif.Props.C10_repair_restores | propext, Classical.choice, Quot.sound |
| C10 | Verif.Props.C10_verify_iff | propext, Classical.choice, Quot.sound |
| C10 | Verif.Props.C10_scrubbing_forever | propext, Classical.choice, Quot.sound |
| C11 | Verif.Props.C11_two_values_corrupted_small | propext, Classical.choice, Quot.sound |
| C11 | Verif.Props.C11_two_values_burst | propext, Classical.choice, Quot.sound |
| C12 | Verif.Props.C12_get_accounts | propext, Classical.choice, Quot.sound |
| C12 | Verif.Props.C12_corrected_iff | propext, Classical.choice, Quot.sound |
| C12 | Verif.Props.C12_statistics_consistent | propext, Classical.choice, Quot.sound |
| C12 | Verif.Props.C12_copy | propext |
| C13 | Verif.Props.C13_one_replica_masked | propext, Classical.choice, Quot.sound |
| C13 | Verif.Props.C13_repair | propext, Classical.choice, Quot.sound |
| C13 | Verif.Props.C13_repair_reports | propext |
| C13 | Verif.Props.C13_two_values_corrupted | propext, Classical.choice, Quot.sound |
| C13 | Verif.Props.C13_status_meaning | propext, Quot.sound |
| C13 | Verif.Props.C13_success_value_violated | propext, Quot.sound |
| C14 | Verif.Props.C14_verify_checks_checksums_partial | propext |
| C14 | Verif.Props.C14_violated | propext, Quot.sound |
| C15 | Verif.Props.C15_float_vote_diverges_violated | propext, Classical.choice, Quot.sound |
| C15 | Verif.Props.C15_float_vote_terminates_partial | propext, Classical.choice, Quot.sound |
| C16 | Verif.Props.C16_health_bounds | propext, Classical.choice, Quot.sound |
| C16 | Verif.Props.C16_regenerate_uses_healthiest | propext, Classical.choice, Quot.sound |
| C16 | Verif.Props.C16_error_counters_monotone | propext, Classical.choice, Quot.sound |
| C17 | Verif.Props.C17_valid_copies_win | propext, Classical.choice, Quot.sound |
| C17 | Verif.Props.C17_weighted_vote | propext, Classical.choice, Quot.sound |
| C18 | Verif.Props.C18_int_roundtrip | propext, Classical.choice, Quot.sound |
| C18 | Verif.Props.C18_float_roundtrip_violated | propext, Quot.sound |
| C18 | Verif.Props.C18_float_roundtrip_partial | propext, Classical.choice, Quot.sound |
| C18 | Verif.Props.C18_corrupt_approximate_copy_partial | propext |
| C18 | Verif.Props.C18_masked_when_representable_partial | propext, Quot.sound |
| C18 | Verif.Props.C18_corrupt_exact_copy_violated | propext, Quot.sound |
| C18 | Verif.Props.C18_verify_detects | propext, Classical.choice, Quot.sound |
| C18 | Verif.Props.C18_repair_keeps_value | propext, Classical.choice, Quot.sound |
| C18 | Verif.Props.C18_reduced_precision | propext, Classical.choice, Quot.sound |
| C18 | Verif.Props.C18_range_limited_signed | propext, Quot.sound |
| C18 | Verif.Props.C18_range_limited_unsigned_violated | propext, Quot.sound |
| C18 | Verif.Props.C18_indexed_read | propext, Quot.sound |
| C19 | Verif.Props.C19_defined_iff | propext, Classical.choice, Quot.sound |
| C19 | Verif.Props.C19_most_common | propext, Classical.choice, Quot.sound |
| C19 | Verif.Props.C19_majority_masks | propext, Classical.choice, Quot.sound |
| C19 | Verif.Props.C19_deterministic | propext, Classical.choice, Quot.sound |
| C20 | Verif.Props.C20_store | propext, Quot.sound |
| C20 | Verif.Props.C20_latest | propext, Quot.sound |
| C20 | Verif.Props.C20_spacing | propext, Quot.sound |
| C21 | Verif.Props.C21_rollback_to_valid | propext, Quot.sound |
| C21 | Verif.Props.C21_rollback_to_version | propext, Quot.sound |
| C22 | Verif.Props.Gf.C22_constructible | propext, Classical.choice, Quot.sound |
| C22 | Verif.Props.Gf.C22_gf256_construct_violated | propext |
| C22 | Verif.Props.Gf.C22_polynomial_arithmetic | propext, Classical.choice, Quot.sound |
| C22 | Verif.Props.Gf.C22_representatives_unique | propext, Classical.choice, Quot.sound |
| C22 | Verif.Props.Gf.C22_zero_division_throws | propext |
| C22 | Verif.Props.Gf.C22_field_laws | propext, Classical.choice, Quot.sound |
| C22 | Verif.Props.Gf.C22_pow_partial | propext, Classical.choice, Quot.sound |
| C22 | Verif.Props.Gf.C22_pow_violated | propext, Classical.choice, Quot.sound |
| C22 | Verif.Props.Gf.C22_out_of_range_violated | propext, Classical.choice, Quot.sound |
| C23 | Verif.Props.Rs.C23_clean_word_partial | propext, Classical.choice, Quot.sound |
| C23 | Verif.Props.Rs.C23_dirty_word_violated | propext, Classical.choice, Quot.sound |
| C23 | Verif.Props.Rs.C23_single_error_violated | propext, Classical.choice, Quot.sound |
| C23 | Verif.Props.Rs.C23_generator_mismatch_violated | propext, Classical.choice, Quot.sound |
| C24 | Verif.Props.Rs.C24_roundtrip_exact_partial | propext, Classical.choice, Quot.sound |
| C24 | Verif.Props.Rs.C24_roundtrip_violated | propext |
| C24 | Verif.Props.Rs.C24_tail_lost_violated | propext, Classical.choice, Quot.sound |
| C25 | Verif.Props.Rs.C25_symbol8_violated | propext, Quot.sound |
| C25 | Verif.Props.Rs.C25_symbol_conversion | propext, Classical.choice, Quot.sound |
| C25 | Verif.Props.Rs.C25_symbol4_constructible | propext, Classical.choice, Quot.sound |
| C25 | Verif.Props.Rs.C25_encode_systematic_partial | propext, Classical.choice, Quot.sound |
| C25 | Verif.Props.Rs.C25_encode_systematic_all_partial | propext, Classical.choice, Quot.sound |
| C25 | Verif.Props.Rs.C25_short_buffer | propext |
| C25 | Verif.Props.Rs.C25_roundtrip_zero_partial | propext, Classical.choice, Quot.sound |
| C25 | Verif.Props.Rs.C25_roundtrip_violated | propext, Classical.choice, Quot.sound |
| C25 | Verif.Props.Rs.C25_encode_large_byte_violated | propext, Classical.choice, Quot.sound |
| C26 | Verif.Props.Multibit.C26_hamming_single_bit | propext, Classical.choice, Quot.sound |
| C26 | Verif.Props.Multibit.C26_secded_single_bit_partial | propext, Classical.choice, Quot.sound |
| C26 | Verif.Props.Multibit.C26_secded_violated | propext, Classical.choice, Quot.sound |
| C27 | Verif.Props.Multibit.C27_double_detected | propext, Classical.choice, Quot.sound |
| C27 | Verif.Props.Multibit.C27_secded_double_exact_partial | propext, Classical.choice, Quot.sound |
| C27 | Verif.Props.Multibit.C27_secded_violated | propext, Classical.choice, Quot.sound |
| C27 | Verif.Props.Multibit.C27_double_never_restored | propext, Classical.choice, Quot.sound |
| C28 | Verif.Props.Multibit.C28_layout | propext, Classical.choice, Quot.sound |
| C28 | Verif.Props.Multibit.C28_roundtrip | propext, Classical.choice, Quot.sound |
| C28 | Verif.Props.Multibit.C28_separation | propext, Classical.choice, Quot.sound |
| C28 | Verif.Props.Multibit.C28_burst | propext, Classical.choice, Quot.sound |
| C29 | Verif.Props.FixedC.C29_vector_refines_bounded_sequence | propext, Quot.sound |
| C29 | Verif.Props.FixedC.C29_checked_calls_always_defined | propext, Quot.sound |
| C30 | Verif.Props.FixedC.C30_map_refines_finite_map | propext, Quot.sound |
| C30 | Verif.Props.FixedC.C30_spec_card | propext, Classical.choice, Quot.sound |
| C31 | Verif.Props.StaticAlloc.C31_blocks_disjoint_partial | propext, Classical.choice, Quot.sound |
| C31 | Verif.Props.StaticAlloc.C31_max_size_partial | propext, Classical.choice, Quot.sound |
| C31 | Verif.Props.StaticAlloc.C31_huge_request_violated | propext, Quot.sound |
| C31 | Verif.Props.StaticAlloc.C31_empty_request_violated | propext, Quot.sound |
| C31 | Verif.Props.StaticAlloc.C31_converted_copy_violated | propext, Quot.sound |
| C32 | Verif.Props.Fixed.C32_add_sub_exact | propext, Classical.choice, Quot.sound |
| C32 | Verif.Props.Fixed.C32_add_out_of_range | propext, Classical.choice, Quot.sound |
| C32 | Verif.Props.Fixed.C32_mul_rounds_down | propext, Classical.choice, Quot.sound |
| C32 | Verif.Props.Fixed.C32_div_truncates_partial | propext, Classical.choice, Quot.sound |
| C32 | Verif.Props.Fixed.C32_negative_dividend_violated | propext |
| C32 | Verif.Props.Fixed.C32_comparison | propext, Classical.choice, Quot.sound |
| C32 | Verif.Props.Fixed.C32_conversions | propext, Classical.choice, Quot.sound |
| C32 | Verif.Props.Fixed.C32_no_sign_bit_violated | propext, Classical.choice, Quot.sound |
| C33 | Verif.Props.MathOps.C33_min_max | propext, Classical.choice, Quot.sound |
| C33 | Verif.Props.MathOps.C33_select_clamp | propext, Classical.choice, Quot.sound |
| C33 | Verif.Props.MathOps.C33_abs_sign | propext, Classical.choice, Quot.sound |
| C34 | Verif.Props.MathOps.C34_flip_exact | propext, Classical.choice, Quot.sound |
| C34 | Verif.Props.MathOps.C34_flip_involutive | propext, Quot.sound |
| C34 | Verif.Props.MathOps.C34_isBitSet | propext, Classical.choice, Quot.sound |
| C34 | Verif.Props.MathOps.C34_count_is_metric | propext, Classical.choice, Quot.sound |
| C34 | Verif.Props.MathOps.C34_count_long_double_violated | propext, Quot.sound |
| C35 | Verif.Props.AlignedMem.C35_upset_effect | propext, Classical.choice, Quot.sound |
| C35 | Verif.Props.AlignedMem.C35_single_upset_masked_partial | propext, Classical.choice, Quot.sound |
| C35 | Verif.Props.AlignedMem.C35_adjacent_upset_violated | propext, Classical.choice, Quot.sound |
| C35 | Verif.Props.AlignedMem.C35_scrub_restores | propext, Classical.choice, Quot.sound |
| C36 | Verif.Props.C36_verify_crc | propext, Classical.choice, Quot.sound |
| C36 | Verif.Props.C36_backup_restore | propext, Quot.sound |
| C36 | Verif.Props.C36_restore_extent | propext, Classical.choice, Quot.sound |
| C36 | Verif.Props.C36_compare_counts_differences | propext, Quot.sound |
| C36 | Verif.Props.C36_compare_zero_iff_equal | propext, Classical.choice, Quot.sound |
| C37 | Verif.Props.Scrubber.C37_clean_small_partial | propext, Quot.sound |
| C37 | Verif.Props.Scrubber.C37_clean_large_violated | propext, Quot.sound |
| C37 | Verif.Props.Scrubber.C37_detects_last_bytes_partial | propext, Classical.choice, Quot.sound |
| C37 | Verif.Props.Scrubber.C37_missed_violated | propext, Quot.sound |
| C37 | Verif.Props.Scrubber.C37_rebaselines | propext, Quot.sound |
| C37 | Verif.Props.Scrubber.C37_corrected_violated | propext, Quot.sound |
| C37 | Verif.Props.Scrubber.C37_block_count | propext, Classical.choice, Quot.sound |
| C38 | Verif.Props.Unified.C38_current | propext, Classical.choice, Quot.sound |
| C38 | Verif.Props.Unified.C38_deallocate | propext, Classical.choice, Quot.sound |
| C38 | Verif.Props.Unified.C38_totals_and_peaks_partial | propext, Classical.choice, Quot.sound |
| C38 | Verif.Props.Unified.C38_reset_violated | propext, Classical.choice, Quot.sound |
| C39 | Verif.Props.Unified.C39_verify_violated | propext, Classical.choice, Quot.sound |
| C39 | Verif.Props.Unified.C39_deallocate_protected_violated | propext, Classical.choice, Quot.sound |
| C39 | Verif.Props.Unified.C39_canary_release_violated | propext, Classical.choice, Quot.sound |
| C39 | Verif.Props.Unified.C39_unprotect_violated | propext, Classical.choice, Quot.sound |
| C39 | Verif.Props.Unified.C39_ecc_tmr_violated | propext, Quot.sound |
| C39 | Verif.Props.Unified.C39_canary_overwrites_violated | propext, Classical.choice, Quot.sound |
| C39 | Verif.Props.Unified.C39_release_partial | propext, Classical.choice, Quot.sound |
| C39 | Verif.Props.Unified.C39_unprotect_result | propext, Quot.sound |
| C39 | Verif.Props.Unified.C39_parity_area | propext, Classical.choice, Quot.sound |
| C39 | Verif.Props.Unified.C39_protected_count_partial | propext, Classical.choice, Quot.sound |
| C40 | Verif.Props.Mapped.C40_disjoint_partial | propext, Classical.choice, Quot.sound |
| C40 | Verif.Props.Mapped.C40_default_partial | propext, Classical.choice, Quot.sound |
| C40 | Verif.Props.Mapped.C40_constructor_partial | propext, Classical.choice, Quot.sound |
| C40 | Verif.Props.Mapped.C40_zero_size_violated | propext |
| C40 | Verif.Props.Mapped.C40_duplicate_level_violated | propext |
| C40 | Verif.Props.Mapped.C40_reversed_zone_violated | propext |
| C40 | Verif.Props.Mapped.C40_release | propext, Classical.choice, Quot.sound |
| C41 | Verif.Props.Tracker.C41_concurrent_totals | propext, Classical.choice, Quot.sound |
| C41 | Verif.Props.Tracker.C41_concurrent_bounds | propext, Classical.choice, Quot.sound |
| C41 | Verif.Props.Tracker.C41_wait_free | propext, Classical.choice, Quot.sound |
| C41 | Verif.Props.Tracker.C41_reset_race_violated | propext, Classical.choice, Quot.sound |
| C41 | Verif.Props.Tracker.C41_alone | propext, Classical.choice, Quot.sound |
| C41 | Verif.Props.Tracker.C41_reset_alone | propext, Classical.choice, Quot.sound |
| C41 | Verif.Props.Tracker.C41_sequential | propext, Classical.choice, Quot.sound |
| C41 | Verif.Props.Tracker.C41_distribution | propext, Classical.choice, Quot.sound |
| C41 | Verif.Props.Tracker.C41_time_since | propext, Classical.choice, Quot.sound |
| C42 | Verif.Props.Status.C42_status_equality | propext |
| C42 | Verif.Props.Status.C42_success_iff | propext |
| C42 | Verif.Props.Status.C42_predefined | none |
| C42 | Verif.Props.Status.C42_core_result | none |
| C42 | Verif.Props.Status.C42_core_void | none |
| C42 | Verif.Props.Status.C42_success_status_violated | none |
| C42 | Verif.Props.ErrorHandling.C42_access | none |
| C42 | Verif.Props.ErrorHandling.C42_except | none |
| C42 | Verif.Props.ErrorHandling.C42_laws | none |
| C42 | Verif.Props.ErrorHandling.C42_error_through | none |
| C42 | Verif.Props.ErrorHandling.C42_void | none |
| C43 | Verif.Props.Adaptive.C43_transition | propext, Classical.choice, Quot.sound |
| C43 | Verif.Props.Adaptive.C43_pattern_weights | propext, Classical.choice, Quot.sound |
| C43 | Verif.Props.Adaptive.C43_monotone | propext, Classical.choice, Quot.sound |
| C43 | Verif.Props.Adaptive.C43_settings_monotone | propext, Classical.choice, Quot.sound |
| C43 | Verif.Props.Adaptive.C43_settings_in_force | propext, Classical.choice, Quot.sound |
| C43 | Verif.Props.Adaptive.C43_notification | propext, Classical.choice, Quot.sound |
| C43 | Verif.Props.Adaptive.C43_listeners | propext, Classical.choice, Quot.sound |
| C43 | Verif.Props.Adaptive.C43_spacing | propext, Classical.choice, Quot.sound |
| C43 | Verif.Props.Adaptive.C43_extreme | propext, Classical.choice, Quot.sound |
| C43 | Verif.Props.Adaptive.C43_manual | propext, Classical.choice, Quot.sound |
| C43 | Verif.Props.Adaptive.C43_oscillation_violated | propext, Classical.choice, Quot.sound |
| C43 | Verif.Props.Adaptive.C43_extreme_not_sticky_violated | propext, Classical.choice, Quot.sound |
| C43 | Verif.Props.Adaptive.C43_spike_violated | propext, Classical.choice, Quot.sound |
| C44 | Verif.Props.AdaptiveProt.C44_update | propext, Classical.choice, Quot.sound |
| C44 | Verif.Props.AdaptiveProt.C44_ignored | propext, Classical.choice, Quot.sound |
| C44 | Verif.Props.AdaptiveProt.C44_flux_bounds | propext, Classical.choice, Quot.sound |
| C44 | Verif.Props.AdaptiveProt.C44_monotone | propext, Classical.choice, Quot.sound |
| C44 | Verif.Props.AdaptiveProt.C44_convergence | propext, Classical.choice, Quot.sound |
| C44 | Verif.Props.AdaptiveProt.C44_increase | propext, Classical.choice, Quot.sound |
| C44 | Verif.Props.AdaptiveProt.C44_configs_monotone | propext |
| C44 | Verif.Props.AdaptiveProt.C44_notification | propext, Classical.choice, Quot.sound |
| C44 | Verif.Props.AdaptiveProt.C44_handles | propext, Classical.choice, Quot.sound |
| C44 | Verif.Props.AdaptiveProt.C44_wrap_violated | propext, Classical.choice, Quot.sound |
| C44 | Verif.Props.AdaptiveProt.C44_lost_violated | propext, Classical.choice, Quot.sound |
| C44 | Verif.Props.AdaptiveProt.C44_temporary_violated | propext, Classical.choice, Quot.sound |
| C45 | Verif.Props.C45_confidence_in_range | propext, Classical.choice, Quot.sound |
| C46 | Verif.Props.C46_batch | propext, Classical.choice, Quot.sound |
| C47 | Verif.Props.C47_detect_fault_pattern_32 | propext, Classical.choice, Quot.sound |
| C47 | Verif.Props.C47_detect64_violated | propext, Quot.sound |
| C48 | Verif.Props.C48_registry | propext, Quot.sound |
| C49 | Verif.Props.C49_forged_copy_masked_after_set_partial | propext, Classical.choice, Quot.sound |
| C49 | Verif.Props.C49_forged_copy_violated | propext, Classical.choice, Quot.sound |
| C50 | Verif.Props.C50_one_copy_masked | propext, Classical.choice, Quot.sound |
| C51 | Verif.Props.C51_repair_clears_lost_bits_partial | propext, Classical.choice, Quot.sound |
| C51 | Verif.Props.C51_repair_restores_protection_violated | propext, Classical.choice, Quot.sound |
| C52 | Verif.Props.C52_health_bounds | propext, Classical.choice, Quot.sound |
| C52 | Verif.Props.C52_stuck_reports | propext, Classical.choice, Quot.sound |
| C53 | Verif.Props.C53_never_undefined | propext, Classical.choice, Quot.sound |
| C53 | Verif.Props.C53_one_copy_masked | propext, Classical.choice, Quot.sound |
| C53 | Verif.Props.C53_rollback | propext, Classical.choice, Quot.sound |
| C53 | Verif.Props.C53_set_creates_checkpoint_violated | propext, Classical.choice, Quot.sound |
| C54 | Verif.Props.AlignedMem.C54_scrubbing_reads | propext, Classical.choice, Quot.sound |
| C54 | Verif.Props.AlignedMem.C54_no_scrubbing_one_copy | propext, Classical.choice, Quot.sound |
| C55 | Verif.Props.AlignedMem.C55_never_wrong_partial | propext, Classical.choice, Quot.sound |
| C55 | Verif.Props.AlignedMem.C55_masked_unless_burst_partial | propext, Classical.choice, Quot.sound |
| C55 | Verif.Props.AlignedMem.C55_correctable_hit_reported_violated | propext, Classical.choice, Quot.sound |
| C55 | Verif.Props.AlignedMem.C55_transform_error_violated | propext, Classical.choice, Quot.sound |
| C55 | Verif.Props.AlignedMem.C55_transform_partial | propext, Classical.choice, Quot.sound |
| C56 | Verif.Props.Multibit.C56_secded_check_byte | propext, Classical.choice, Quot.sound |
| C56 | Verif.Props.Multibit.C56_hamming_overall_byte | propext, Classical.choice, Quot.sound |
| C56 | Verif.Props.Multibit.C56_hamming_parity_byte_violated | propext, Classical.choice, Quot.sound |
| C56 | Verif.Props.Multibit.C56_rs_check_byte | propext, Classical.choice, Quot.sound |
| C57 | Verif.Props.Multibit.C57_detects_everything | propext, Classical.choice, Quot.sound |
| C57 | Verif.Props.Multibit.C57_single_byte | propext, Classical.choice, Quot.sound |
| C57 | Verif.Props.Multibit.C57_double_byte | propext, Classical.choice, Quot.sound |
| C57 | Verif.Props.Multibit.C57_triple_byte_violated | propext, Classical.choice, Quot.sound |
| C58 | Verif.Props.Multibit.C58_single_byte_partial | propext, Classical.choice, Quot.sound |
| C58 | Verif.Props.Multibit.C58_double_bit_violated | propext, Quot.sound |
| C59 | Verif.Props.Scrubber.C59_registry | propext, Classical.choice, Quot.sound |
| C60 | Verif.Props.Mapped.C60_ideal_zone_partial | propext, Classical.choice, Quot.sound |
| C60 | Verif.Props.Mapped.C60_last_resort | propext, Classical.choice, Quot.sound |
| C60 | Verif.Props.Mapped.C60_ideal_zone_lost_violated | propext |
| C60 | Verif.Props.Mapped.C60_fallback_direction_violated | propext |
| C61 | Verif.Props.Mapped.C61_usage | propext, Classical.choice, Quot.sound |
| C61 | Verif.Props.Mapped.C61_charge | propext, Quot.sound |
| C61 | Verif.Props.Mapped.C61_score_range | propext, Classical.choice, Quot.sound |
| C62 | Verif.Props.Tracker.C62_rate_range_partial | propext, Classical.choice, Quot.sound |
| C62 | Verif.Props.Tracker.C62_threshold | propext, Classical.choice, Quot.sound |
| C62 | Verif.Props.Tracker.C62_unit_violated | propext, Classical.choice, Quot.sound |
| C62 | Verif.Props.Tracker.C62_reset_rate_violated | propext, Classical.choice, Quot.sound |
| C62 | Verif.Props.Tracker.C62_shared_statics_violated | propext, Classical.choice, Quot.sound |
| C63 | Verif.Props.ErrorHandling.C63_reporting | propext, Quot.sound |
| C63 | Verif.Props.ErrorHandling.C63_handle | propext |
| C63 | Verif.Props.ErrorHandling.C63_callbacks | propext, Classical.choice, Quot.sound |
| C63 | Verif.Props.ErrorHandling.C63_ids | propext, Classical.choice, Quot.sound |
| C63 | Verif.Props.ErrorHandling.C63_unregister_partial | propext, Classical.choice, Quot.sound |
| C63 | Verif.Props.ErrorHandling.C63_unregister_violated | propext, Quot.sound |
| C64 | Verif.Props.Multibit.C64_write_read | propext, Classical.choice, Quot.sound |
| C64 | Verif.Props.Multibit.C64_invalid | propext, Classical.choice, Quot.sound |
| C64 | Verif.Props.Multibit.C64_valid_iff_no_error | propext, Quot.sound |
| C64 | Verif.Props.Multibit.C64_invalid_value | propext, Classical.choice, Quot.sound |
| C65 | Verif.Props.Unified.C65_usable_partial | propext, Classical.choice, Quot.sound |
| C65 | Verif.Props.Unified.C65_overflow_violated | propext, Classical.choice, Quot.sound |
| C65 | Verif.Props.Unified.C65_alignment_violated | propext, Quot.sound |
| C66 | Verif.Props.Unified.C66_ownership_partial | propext, Quot.sound |
| C66 | Verif.Props.Unified.C66_no_leak_partial | propext, Quot.sound |
| C66 | Verif.Props.Unified.C66_total_partial | propext, Quot.sound |
| C66 | Verif.Props.Unified.C66_canary_leak_violated | propext, Classical.choice, Quot.sound |
| C66 | Verif.Props.Unified.C66_destructor_violated | propext, Quot.sound |
| C67 | Verif.Props.MTmrP.C67_majority_read | propext, Classical.choice, Quot.sound |
| C67 | Verif.Props.MTmrP.C67_single_copy_masked_partial | propext, Classical.choice, Quot.sound |
| C67 | Verif.Props.MTmrP.C67_regenerate_spreads_fault_violated | propext, Classical.choice, Quot.sound |
| C67 | Verif.Props.MTmrP.C67_read_then_regenerate | propext, Classical.choice, Quot.sound |
| C68 | Verif.Props.MTmrP.C68_health_range | propext, Classical.choice, Quot.sound |
| C68 | Verif.Props.MTmrP.C68_health_floor_partial | propext, Classical.choice, Quot.sound |
| C68 | Verif.Props.MTmrP.C68_health_floor_violated | propext, Classical.choice, Quot.sound |
| C69 | Verif.Props.MTmrP.C69_verify_iff | propext, Classical.choice, Quot.sound |
| C69 | Verif.Props.MTmrP.C69_fault_reported | propext, Classical.choice, Quot.sound |
| C70 | Verif.Props.MTmrP.C70_selection_proportional | propext, Classical.choice, Quot.sound |
| C70 | Verif.Props.MTmrP.C70_read_is_a_copy | propext, Classical.choice, Quot.sound |
| C70 | Verif.Props.MTmrP.C70_valid_copy_ignored_violated | propext, Classical.choice, Quot.sound |
| C71 | Verif.Props.MTmrP.C71_plain_calls_progress | propext, Classical.choice, Quot.sound |
| C71 | Verif.Props.MTmrP.C71_clone_never_returns_violated | propext |
| C72 | Verif.Props.StratP.C72_none | propext, Quot.sound |
| C72 | Verif.Props.StratP.C72_basic | propext, Classical.choice, Quot.sound |
| C72 | Verif.Props.StratP.C72_hybrid | propext, Classical.choice, Quot.sound |
| C72 | Verif.Props.StratP.C72_enhanced_partial | propext, Classical.choice, Quot.sound |
| C72 | Verif.Props.StratP.C72_enhanced_flags_violated | propext, Classical.choice, Quot.sound |
| C72 | Verif.Props.StratP.C72_enhanced_negative_violated | propext, Classical.choice, Quot.sound |
| C72 | Verif.Props.StratP.C72_nan_violated | propext, Classical.choice, Quot.sound |
| C73 | Verif.Props.StratP.C73_majority_partial | propext, Classical.choice, Quot.sound |
| C73 | Verif.Props.StratP.C73_disagreement | propext, Classical.choice, Quot.sound |
| C73 | Verif.Props.StratP.C73_zero_outvoted_violated | propext, Classical.choice, Quot.sound |
| C73 | Verif.Props.StratP.C73_zero_flagged_violated | propext, Classical.choice, Quot.sound |
| C73 | Verif.Props.StratP.C73_bitwise_majority | propext, Classical.choice, Quot.sound |
| C73 | Verif.Props.StratP.C73_vector_majority | propext, Classical.choice, Quot.sound |
| C73 | Verif.Props.StratP.C73_empty_ignored | propext, Classical.choice, Quot.sound |
| C73 | Verif.Props.StratP.C73_all_stuck_vectors | propext, Classical.choice, Quot.sound |
| C74 | Verif.Props.StratP.C74_score_range | propext, Classical.choice, Quot.sound |
| C74 | Verif.Props.StratP.C74_agreement | propext, Classical.choice, Quot.sound |
| C74 | Verif.Props.StratP.C74_confidence_range | propext, Classical.choice, Quot.sound |
| C74 | Verif.Props.StratP.C74_no_majority | propext, Classical.choice, Quot.sound |
| C74 | Verif.Props.StratP.C74_trusted_majority | propext, Classical.choice, Quot.sound |
| C74 | Verif.Props.StratP.C74_one_bad_component_partial | propext, Classical.choice, Quot.sound |
| C74 | Verif.Props.StratP.C74_majority_outvoted_violated | propext, Classical.choice, Quot.sound |
| C75 | Verif.Props.PolicyP.C75_level_monotone | propext, Classical.choice, Quot.sound |
| C75 | Verif.Props.PolicyP.C75_never_unprotected | propext, Classical.choice, Quot.sound |
| C75 | Verif.Props.PolicyP.C75_thresholds | propext, Classical.choice, Quot.sound |
| C76 | Verif.Props.PolicyP.C76_interval_bounds | propext, Classical.choice, Quot.sound |
| C76 | Verif.Props.PolicyP.C76_interval_value | propext, Classical.choice, Quot.sound |
| C76 | Verif.Props.PolicyP.C76_interval_monotone | propext, Classical.choice, Quot.sound |
| C77 | Verif.Props.PolicyP.C77_policy_safe | propext, Classical.choice, Quot.sound |
| C77 | Verif.Props.PolicyP.C77_set_get | propext, Quot.sound |
| C77 | Verif.Props.PolicyP.C77_optimize | propext, Classical.choice, Quot.sound |
| C78 | Verif.Props.PolicyP.C78_last_decision | propext, Classical.choice, Quot.sound |
| C78 | Verif.Props.PolicyP.C78_environment_monotone | propext, Classical.choice, Quot.sound |
| C78 | Verif.Props.PolicyP.C78_strategy_matches_level_partial | propext, Classical.choice, Quot.sound |
| C78 | Verif.Props.PolicyP.C78_predefined | propext, Classical.choice, Quot.sound |
| C78 | Verif.Props.PolicyP.C78_uninitialised_violated | propext |
| C78 | Verif.Props.PolicyP.C78_phase_lowers_saa_violated | propext, Classical.choice, Quot.sound |
| C79 | Verif.Props.MTmrP.C79_read_bookkeeping | propext, Classical.choice, Quot.sound |
| C79 | Verif.Props.MTmrP.C79_access_counters | propext, Classical.choice, Quot.sound |
| C79 | Verif.Props.MTmrP.C79_reset | propext, Quot.sound |
| C79 | Verif.Props.MTmrP.C79_set | propext, Classical.choice, Quot.sound |
| C79 | Verif.Props.MTmrP.C79_raw_access | propext, Classical.choice, Quot.sound |
| C79 | Verif.Props.MTmrP.C79_regenerate | propext, Classical.choice, Quot.sound |
| C80 | Verif.Props.FaultP.C80_flip | propext, Quot.sound |
| C80 | Verif.Props.FaultP.C80_count_partial | propext, Quot.sound |
| C80 | Verif.Props.FaultP.C80_flip_counts_one | propext, Classical.choice, Quot.sound |
| C80 | Verif.Props.FaultP.C80_count_large_violated | propext, Quot.sound |
| C80 | Verif.Props.FaultP.C80_is_bit_set | propext, Quot.sound |
| C80 | Verif.Props.FaultP.C80_bool_violated | propext, Quot.sound |
| C81 | Verif.Props.FaultP.C81_in_range | propext, Quot.sound |
| C81 | Verif.Props.FaultP.C81_single | propext, Classical.choice, Quot.sound |
| C81 | Verif.Props.FaultP.C81_stuck | propext, Classical.choice, Quot.sound |
| C81 | Verif.Props.FaultP.C81_block | propext, Classical.choice, Quot.sound |
| C81 | Verif.Props.FaultP.C81_row_column | propext, Classical.choice, Quot.sound |
| C81 | Verif.Props.FaultP.C81_adjacent_partial | propext, Classical.choice, Quot.sound |
| C81 | Verif.Props.FaultP.C81_adjacent_violated | propext, Classical.choice, Quot.sound |
| C81 | Verif.Props.FaultP.C81_reversible | propext, Classical.choice, Quot.sound |
| C81 | Verif.Props.FaultP.C81_clamped | propext, Quot.sound |
| C81 | Verif.Props.FaultP.C81_burst_violated | propext, Classical.choice, Quot.sound |
| C81 | Verif.Props.FaultP.C81_small_types_violated | propext, Quot.sound |
| C82 | Verif.Props.FaultP.C82_fault_local | propext, Classical.choice, Quot.sound |
| C82 | Verif.Props.FaultP.C82_multi_bit_violated | propext, Quot.sound |
| C82 | Verif.Props.FaultP.C82_empty_violated | propext, Quot.sound |
| C82 | Verif.Props.FaultP.C82_random_flip | propext, Quot.sound |
| C82 | Verif.Props.FaultP.C82_counts | propext, Quot.sound |
| C82 | Verif.Props.FaultP.C82_perfect | propext, Quot.sound |
| C82 | Verif.Props.FaultP.C82_flags_violated | none |
| C83 | Verif.Props.FaultP.C83_inject | propext, Classical.choice, Quot.sound |
| C83 | Verif.Props.FaultP.C83_nothing | propext, Quot.sound |
| C83 | Verif.Props.FaultP.C83_campaign | propext, Quot.sound |
| C84 | Verif.Props.TechniquesP.C84_hamming_single | propext, Quot.sound |
| C84 | Verif.Props.TechniquesP.C84_hamming_double_violated | propext, Quot.sound |
| C84 | Verif.Props.TechniquesP.C84_tmr | propext, Classical.choice, Quot.sound |
| C84 | Verif.Props.TechniquesP.C84_tmr_same_place_violated | propext, Classical.choice, Quot.sound |
| C84 | Verif.Props.TechniquesP.C84_edac_partial | propext, Classical.choice, Quot.sound |
| C84 | Verif.Props.TechniquesP.C84_edac_double_violated | propext, Classical.choice, Quot.sound |
| C84 | Verif.Props.TechniquesP.C84_scrubbing | propext, Classical.choice, Quot.sound |
| C84 | Verif.Props.TechniquesP.C84_none_violated | none |
| C84 | Verif.Props.TechniquesP.C84_empty_violated | propext, Quot.sound |
| C84 | Verif.Props.TechniquesP.C84_empty_transient | propext, Quot.sound |
| C84 | Verif.Props.TechniquesP.C84_edac_strikes | propext, Classical.choice, Quot.sound |
| C85 | Verif.Props.PNetP.C85_construct | propext, Classical.choice, Quot.sound |
| C85 | Verif.Props.PNetP.C85_forward | propext, Classical.choice, Quot.sound |
| C85 | Verif.Props.PNetP.C85_forward_shape | propext, Classical.choice, Quot.sound |
| C85 | Verif.Props.PNetP.C85_set_weights_result | propext, Classical.choice, Quot.sound |
| C85 | Verif.Props.PNetP.C85_set_weights_stores | propext, Classical.choice, Quot.sound |
| C85 | Verif.Props.PNetP.C85_set_biases | propext, Classical.choice, Quot.sound |
| C85 | Verif.Props.PNetP.C85_ragged_violated | propext, Classical.choice, Quot.sound |
| C86 | Verif.Props.PNetP.C86_strike_persists_violated | propext, Classical.choice, Quot.sound |
| C86 | Verif.Props.PNetP.C86_repair_does_nothing_violated | propext, Classical.choice, Quot.sound |
| C86 | Verif.Props.PNetP.C86_stats_blind_violated | propext, Classical.choice, Quot.sound |
| C86 | Verif.Props.PNetP.C86_levels_alike_violated | propext, Classical.choice, Quot.sound |
| C86 | Verif.Props.PNetP.C86_protected_is_struck_more_violated | propext, Classical.choice, Quot.sound |
| C87 | Verif.Props.PNetP.C87_single_strike | propext, Classical.choice, Quot.sound |
| C87 | Verif.Props.PNetP.C87_stats_balance | propext, Classical.choice, Quot.sound |
| C87 | Verif.Props.PNetP.C87_double_strike_violated | propext, Quot.sound |
| C87 | Verif.Props.PNetP.C87_vote_corrupts_violated | propext, Classical.choice, Quot.sound |
| C87 | Verif.Props.PNetP.C87_strike_one_bit | propext, Quot.sound |
| C87 | Verif.Props.PNetP.C87_nan_counted_violated | propext, Quot.sound |
| C88 | Verif.Props.PNetP.C88_view_tracks_setters | propext, Classical.choice, Quot.sound |
| C88 | Verif.Props.PNetP.C88_edit_ignored_violated | propext, Classical.choice, Quot.sound |
| C88 | Verif.Props.PNetP.C88_train_learns_nothing_violated | propext, Classical.choice, Quot.sound |
| C88 | Verif.Props.PNetP.C88_loss | propext, Classical.choice, Quot.sound |
| C88 | Verif.Props.PNetP.C88_loss_division_violated | propext, Classical.choice, Quot.sound |
| C88 | Verif.Props.PNetP.C88_copy | propext, Classical.choice, Quot.sound |
| C89 | Verif.Props.BTmrP.C89_basic_survives | propext, Classical.choice, Quot.sound |
| C89 | Verif.Props.BTmrP.C89_basic_vote | propext |
| C89 | Verif.Props.BTmrP.C89_basic_silent_violated | propext |
| C89 | Verif.Props.BTmrP.C89_quad_plurality | propext, Classical.choice, Quot.sound |
| C89 | Verif.Props.BTmrP.C89_quad_unique_winner | propext, Classical.choice, Quot.sound |
| C89 | Verif.Props.BTmrP.C89_quad_survives | propext, Classical.choice, Quot.sound |
| C89 | Verif.Props.BTmrP.C89_quad_repair | propext, Classical.choice, Quot.sound |
| C89 | Verif.Props.BTmrP.C89_quad_tie_violated | propext, Classical.choice, Quot.sound |
| C89 | Verif.Props.BTmrP.C89_quad_error_count_violated | propext, Classical.choice, Quot.sound |
| C90 | Verif.Props.BTmrP.C90_clean | propext, Classical.choice, Quot.sound |
| C90 | Verif.Props.BTmrP.C90_single_fault | propext, Quot.sound |
| C90 | Verif.Props.BTmrP.C90_flags_partial | propext, Classical.choice, Quot.sound |
| C90 | Verif.Props.BTmrP.C90_no_majority | propext, Quot.sound |
| C90 | Verif.Props.BTmrP.C90_unreported_violated | propext, Classical.choice, Quot.sound |
| C90 | Verif.Props.BTmrP.C90_high_levels_violated | propext, Classical.choice, Quot.sound |
| C90 | Verif.Props.BTmrP.C90_factors | propext, Classical.choice, Quot.sound |
| C90 | Verif.Props.BTmrP.C90_level_monotone | propext, Classical.choice, Quot.sound |
| C90 | Verif.Props.BTmrP.C90_history | propext, Classical.choice, Quot.sound |
| C90 | Verif.Props.BTmrP.C90_unreachable_levels_violated | propext, Classical.choice, Quot.sound |
| C90 | Verif.Props.BTmrP.C90_tolerance_violated | propext, Classical.choice, Quot.sound |
| C91 | Verif.Props.PhysP.C91_temperature | propext, Classical.choice, Quot.sound |
| C91 | Verif.Props.PhysP.C91_threshold_direction_violated | propext, Classical.choice, Quot.sound |
| C91 | Verif.Props.PhysP.C91_load_factor | propext, Classical.choice, Quot.sound |
| C91 | Verif.Props.PhysP.C91_compressive_violated | propext, Classical.choice, Quot.sound |
| C91 | Verif.Props.PhysP.C91_synergy | propext, Classical.choice, Quot.sound |
| C92 | Verif.Props.PhysP.C92_conservation | propext, Classical.choice, Quot.sound |
| C92 | Verif.Props.PhysP.C92_proportional | propext, Classical.choice, Quot.sound |
| C92 | Verif.Props.PhysP.C92_environment_ignored_violated | propext, Classical.choice, Quot.sound |
| C92 | Verif.Props.PhysP.C92_severity | propext, Classical.choice, Quot.sound |
| C92 | Verif.Props.PhysP.C92_zero_flux_violated | propext, Classical.choice, Quot.sound |
| C92 | Verif.Props.PhysP.C92_level | propext, Classical.choice, Quot.sound |
| C92 | Verif.Props.PhysP.C92_few_protected_violated | propext, Classical.choice, Quot.sound |
| C93 | Verif.Props.PhysP.C93_update | propext, Classical.choice, Quot.sound |
| C93 | Verif.Props.PhysP.C93_nothing_updated_violated | propext, Classical.choice, Quot.sound |
| C93 | Verif.Props.PhysP.C93_rate | propext, Classical.choice, Quot.sound |
| C93 | Verif.Props.PhysP.C93_history | propext, Classical.choice, Quot.sound |
| C93 | Verif.Props.PhysP.C93_range_partial | propext, Classical.choice, Quot.sound |
| C93 | Verif.Props.PhysP.C93_unbounded_violated | propext, Classical.choice, Quot.sound |
| C93 | Verif.Props.PhysP.C93_factor | propext, Classical.choice, Quot.sound |
| C93 | Verif.Props.PhysP.C93_defined_partial | propext, Classical.choice, Quot.sound |
| C93 | Verif.Props.PhysP.C93_undefined_violated | propext, Classical.choice, Quot.sound |
| C94 | Verif.Props.PhysP.C94_level | propext, Classical.choice, Quot.sound |
| C94 | Verif.Props.PhysP.C94_worst_case | propext, Classical.choice, Quot.sound |
| C94 | Verif.Props.PhysP.C94_single_fault | propext, Classical.choice, Quot.sound |
| C94 | Verif.Props.PhysP.C94_health_forgotten_violated | propext, Classical.choice, Quot.sound |
| C94 | Verif.Props.PhysP.C94_phase_ignored_violated | propext, Classical.choice, Quot.sound |
| C94 | Verif.Props.PhysP.C94_phase_reported | propext, Classical.choice, Quot.sound |
| C94 | Verif.Props.PhysP.C94_checkpoint | propext, Classical.choice, Quot.sound |
| C94 | Verif.Props.PhysP.C94_delay | propext, Classical.choice, Quot.sound |
| C95 | Verif.Props.PhysP.C95_forward_partial | propext, Classical.choice, Quot.sound |
| C95 | Verif.Props.PhysP.C95_empty_input_violated | propext, Classical.choice, Quot.sound |
| C95 | Verif.Props.PhysP.C95_shape_violated | propext, Classical.choice, Quot.sound |
| C95 | Verif.Props.PhysP.C95_last_write | propext, Quot.sound |
| C96 | Verif.Props.ConvP.C96_output_size | propext, Classical.choice, Quot.sound |
| C96 | Verif.Props.ConvP.C96_oversized_kernel_limit | propext |
| C96 | Verif.Props.ConvP.C96_forward_any | propext, Classical.choice, Quot.sound |
| C96 | Verif.Props.ConvP.C96_forward | propext, Classical.choice, Quot.sound |
| C96 | Verif.Props.ConvP.C96_windows_inside | propext, Classical.choice, Quot.sound |
| C97 | Verif.Props.ConvP.C97_parameter | propext, Classical.choice, Quot.sound |
| C97 | Verif.Props.ConvP.C97_forward | propext, Classical.choice, Quot.sound |
| C97 | Verif.Props.ConvP.C97_defined | propext |
| C97 | Verif.Props.ConvP.C97_two_copies_limit | propext |
| C97 | Verif.Props.ConvP.C97_no_majority_limit | propext |
| C97 | Verif.Props.ConvP.C97_bounds | propext |
| C98 | Verif.Props.ScrubTP.C98_no_crash | propext, Quot.sound |
| C98 | Verif.Props.ScrubTP.C98_stop | propext, Quot.sound |
| C98 | Verif.Props.ScrubTP.C98_stop_returns | propext, Quot.sound |
| C98 | Verif.Props.ScrubTP.C98_keeps_scrubbing | propext, Quot.sound |
| C98 | Verif.Props.ScrubTP.C98_two_starts_limit | propext |
| C98 | Verif.Props.ScrubTP.C98_restart_limit | propext |
| C98 | Verif.Props.ScrubTP.C98_two_stops_limit | propext |
| C99 | Verif.Props.ScrubTP.C99_enabled | propext, Quot.sound |
| C99 | Verif.Props.ScrubTP.C99_disable_then_destroy | propext, Quot.sound |
| C99 | Verif.Props.ScrubTP.C99_destroy_violated | propext, Quot.sound |
| C99 | Verif.Props.ScrubTP.C99_read_during_repair | propext, Classical.choice, Quot.sound |
| C99 | Verif.Props.ScrubTP.C99_repair_snapshots | propext, Classical.choice, Quot.sound |
| C99 | Verif.Props.ScrubTP.C99_lost_update_violated | propext, Classical.choice, Quot.sound |
| C99 | Verif.Props.ScrubTP.C99_race_values | propext, Quot.sound |
| C99 | Verif.Props.ScrubTP.C99_sequential | propext, Classical.choice, Quot.sound |
| C100 | Verif.Props.PowerP.C100_budget | propext, Classical.choice, Quot.sound |
| C100 | Verif.Props.PowerP.C100_shares | propext, Classical.choice, Quot.sound |
| C100 | Verif.Props.PowerP.C100_degenerate_violated | propext, Classical.choice, Quot.sound |
| C101 | Verif.Props.PowerP.C101_priority | propext, Classical.choice, Quot.sound |
| C101 | Verif.Props.PowerP.C101_exhausted_partial | propext, Classical.choice, Quot.sound |
| C101 | Verif.Props.PowerP.C101_step_limit_violated | propext, Classical.choice, Quot.sound |
| C101 | Verif.Props.PowerP.C101_more_power_limit | propext, Classical.choice, Quot.sound |
| C102 | Verif.Props.PowerP.C102_emergency | propext, Classical.choice, Quot.sound |
| C102 | Verif.Props.PowerP.C102_over_budget_violated | propext, Classical.choice, Quot.sound |
| C102 | Verif.Props.PowerP.C102_negative_power_violated | propext, Classical.choice, Quot.sound |
| C103 | Verif.Props.PowerP.C103_registry | propext, Classical.choice, Quot.sound |
| C103 | Verif.Props.PowerP.C103_history_independent | propext, Classical.choice, Quot.sound |
| C104 | Verif.Props.PowerP.C104_effectiveness | propext, Classical.choice, Quot.sound |
| C104 | Verif.Props.PowerP.C104_never_excellent_violated | propext, Classical.choice, Quot.sound |
| C104 | Verif.Props.PowerP.C104_negative_violated | propext, Classical.choice, Quot.sound |
| C104 | Verif.Props.PowerP.C104_error_rate | propext, Classical.choice, Quot.sound |
| C104 | Verif.Props.PowerP.C104_documented_reduction_violated | propext, Classical.choice, Quot.sound |
| C105 | Verif.Props.DiversityP.C105_consensus | propext, Classical.choice, Quot.sound |
| C105 | Verif.Props.DiversityP.C105_right_wins | propext, Classical.choice, Quot.sound |
| C105 | Verif.Props.DiversityP.C105_fallback | propext, Classical.choice, Quot.sound |
| C105 | Verif.Props.DiversityP.C105_empty_name_limit | propext, Classical.choice, Quot.sound |
| C105 | Verif.Props.DiversityP.C105_order_irrelevant | propext, Classical.choice, Quot.sound |
| C106 | Verif.Props.DiversityP.C106_range | propext, Classical.choice, Quot.sound |
| C106 | Verif.Props.DiversityP.C106_updates | propext, Classical.choice, Quot.sound |
| C106 | Verif.Props.DiversityP.C106_follows | propext, Classical.choice, Quot.sound |
| C106 | Verif.Props.DiversityP.C106_outvoted_limit | propext, Classical.choice, Quot.sound |
| C106 | Verif.Props.DiversityP.C106_shrink_violated | propext, Classical.choice, Quot.sound |
| C106 | Verif.Props.DiversityP.C106_grow | propext, Quot.sound |
| C106 | Verif.Props.DiversityP.C106_size_zero_violated | propext, Classical.choice, Quot.sound |
| C107 | Verif.Props.ErrorLookupP.C107_detection | propext, Classical.choice, Quot.sound |
| C107 | Verif.Props.ErrorLookupP.C107_correction | propext, Classical.choice, Quot.sound |
| C107 | Verif.Props.ErrorLookupP.C107_suggestion_known | propext, Classical.choice, Quot.sound |
| C107 | Verif.Props.ErrorLookupP.C107_input_ignored_violated | propext, Classical.choice, Quot.sound |
| C107 | Verif.Props.ErrorLookupP.C107_similar_violated | propext, Classical.choice, Quot.sound |
| C107 | Verif.Props.ErrorLookupP.C107_low_threshold_limit | propext, Classical.choice, Quot.sound |
| C108 | Verif.Props.LoggerP.C108_console | propext, Quot.sound |
| C108 | Verif.Props.LoggerP.C108_file_sublist | propext, Quot.sound |
| C108 | Verif.Props.LoggerP.C108_file | propext, Quot.sound |
| C108 | Verif.Props.LoggerP.C108_repath_violated | propext, Quot.sound |
| C108 | Verif.Props.LoggerP.C108_silent_limit | propext, Quot.sound |
| C109 | Verif.Props.HwAccelP.C109_masking | propext, Classical.choice, Quot.sound |
| C109 | Verif.Props.HwAccelP.C109_failure | propext, Quot.sound |
| C109 | Verif.Props.HwAccelP.C109_no_majority_violated | propext, Classical.choice, Quot.sound |
| C109 | Verif.Props.HwAccelP.C109_never_executes_violated | propext |
| C110 | Verif.Props.HwAccelP.C110_accelerator | propext, Classical.choice, Quot.sound |
| C110 | Verif.Props.HwAccelP.C110_system | propext, Classical.choice, Quot.sound |
| C110 | Verif.Props.HwAccelP.C110_voting_helps | propext, Classical.choice, Quot.sound |
| C110 | Verif.Props.HwAccelP.C110_phantom_tmr_violated | propext, Classical.choice, Quot.sound |
| C111 | Verif.ErrorPredictor.C111_range | propext, Classical.choice, Quot.sound |
| C111 | Verif.ErrorPredictor.C111_prediction | propext, Classical.choice, Quot.sound |
| C111 | Verif.ErrorPredictor.C111_gradient | propext, Classical.choice, Quot.sound |
| C111 | Verif.ErrorPredictor.C111_direction | propext, Classical.choice, Quot.sound |
| C111 | Verif.ErrorPredictor.C111_negative_level_limit | propext, Classical.choice, Quot.sound |
| C111 | Verif.ErrorPredictor.C111_fresh_violated | propext, Classical.choice, Quot.sound |
| C112 | Verif.ErrorPredictor.C112_bands | propext, Classical.choice, Quot.sound |
| C112 | Verif.ErrorPredictor.C112_monotone | propext, Classical.choice, Quot.sound |
| C112 | Verif.ErrorPredictor.C112_low_band_violated | propext, Classical.choice, Quot.sound |
| C112 | Verif.ErrorPredictor.C112_negative_violated | propext, Classical.choice, Quot.sound |
| C113 | Verif.ResidualNet.C113_results | propext, Classical.choice, Quot.sound |
| C113 | Verif.ResidualNet.C113_registry | propext, Classical.choice, Quot.sound |
| C113 | Verif.ResidualNet.C113_projection | propext, Classical.choice, Quot.sound |
| C113 | Verif.ResidualNet.C113_copy | propext, Classical.choice, Quot.sound |
| C113 | Verif.ResidualNet.C113_no_effect_violated | propext, Classical.choice, Quot.sound |
| C114 | Verif.ResidualNet.C114_roundtrip | propext, Classical.choice, Quot.sound |
| C114 | Verif.ResidualNet.C114_history | propext, Classical.choice, Quot.sound |
| C114 | Verif.ResidualNet.C114_network_violated | none |
| C114 | Verif.ResidualNet.C114_projection_violated | propext, Classical.choice, Quot.sound |
| C114 | Verif.ResidualNet.C114_truncated_violated | propext, Classical.choice, Quot.sound |
| C114 | Verif.ResidualNet.C114_failed_load_violated | propext, Classical.choice, Quot.sound |
| C114 | Verif.ResidualNet.C114_short_violated | propext, Quot.sound |
| C115 | Verif.ResidualNet.C115_loss | propext, Classical.choice, Quot.sound |
| C115 | Verif.ResidualNet.C115_train_violated | propext, Classical.choice, Quot.sound |
| C115 | Verif.ResidualNet.C115_accuracy_violated | propext, Classical.choice, Quot.sound |
| C116 | Verif.RadEnvironment.C116_range | propext, Classical.choice, Quot.sound |
| C116 | Verif.RadEnvironment.C116_shielding | propext, Classical.choice, Quot.sound |
| C116 | Verif.RadEnvironment.C116_materials | propext, Classical.choice, Quot.sound |
| C116 | Verif.RadEnvironment.C116_activity | propext, Classical.choice, Quot.sound |
| C116 | Verif.RadEnvironment.C116_heatmap | propext, Classical.choice, Quot.sound |
| C116 | Verif.RadEnvironment.C116_default_material_violated | propext, Classical.choice, Quot.sound |
| C117 | Verif.RadEnvironment.C117_order | propext, Classical.choice, Quot.sound |
| C117 | Verif.RadEnvironment.C117_sources | propext, Classical.choice, Quot.sound |
| C117 | Verif.RadEnvironment.C117_solar_probe_violated | propext, Classical.choice, Quot.sound |
| C117 | Verif.RadEnvironment.C117_geo_belt_violated | propext, Classical.choice, Quot.sound |
| C118 | Verif.RadEnvironment.C118_distance | propext, Classical.choice, Quot.sound |
| C118 | Verif.RadEnvironment.C118_metric | propext, Classical.choice, Quot.sound |
| C118 | Verif.RadEnvironment.C118_bounds | propext, Classical.choice, Quot.sound |
| C118 | Verif.RadEnvironment.C118_vertical | propext, Classical.choice, Quot.sound |
| C118 | Verif.RadEnvironment.C118_altitude_violated | propext, Classical.choice, Quot.sound |
| C118 | Verif.RadEnvironment.C118_orbit | propext, Classical.choice, Quot.sound |
| C118 | Verif.RadEnvironment.C118_period | propext, Classical.choice, Quot.sound |
| C118 | Verif.RadEnvironment.C118_longitude_limit | propext, Classical.choice, Quot.sound |
| C118 | Verif.RadEnvironment.C118_before_epoch_limit | propext, Classical.choice, Quot.sound |
| C119 | Verif.RadEnvironment.C119_flare | propext, Classical.choice, Quot.sound |
| C119 | Verif.RadEnvironment.C119_factor_violated | propext, Classical.choice, Quot.sound |
| C119 | Verif.RadEnvironment.C119_permanent_violated | propext, Classical.choice, Quot.sound |
| C119 | Verif.RadEnvironment.C119_negative_limit | propext, Classical.choice, Quot.sound |
| C120 | Verif.ArchTester.C120_range | propext, Classical.choice, Quot.sound |
| C120 | Verif.ArchTester.C120_accuracy | propext, Classical.choice, Quot.sound |
| C120 | Verif.ArchTester.C120_protection | propext, Classical.choice, Quot.sound |
| C120 | Verif.ArchTester.C120_data_violated | propext, Classical.choice, Quot.sound |
| C120 | Verif.ArchTester.C120_empty_violated | propext, Classical.choice, Quot.sound |
| C120 | Verif.ArchTester.C120_wrap_limit | propext, Classical.choice, Quot.sound |
| C121 | Verif.ArchTester.C121_best | propext, Classical.choice, Quot.sound |
| C121 | Verif.ArchTester.C121_default | propext, Classical.choice, Quot.sound |
| C122 | Verif.ArchTester.C122_seeds | propext, Classical.choice, Quot.sound |
| C122 | Verif.ArchTester.C122_monte_carlo | propext, Classical.choice, Quot.sound |
| C122 | Verif.ArchTester.C122_range | propext, Classical.choice, Quot.sound |
| C122 | Verif.ArchTester.C122_offset_violated | propext, Classical.choice, Quot.sound |
| C122 | Verif.ArchTester.C122_zero_trials_violated | propext, Classical.choice, Quot.sound |
| C123 | Verif.ArchTester.C123_recorded | propext, Classical.choice, Quot.sound |
| C123 | Verif.ArchTester.C123_width_violated | propext, Classical.choice, Quot.sound |
| C123 | Verif.ArchTester.C123_dropout_violated | propext, Classical.choice, Quot.sound |
| C124 | Verif.ArchTester.C124_appended | propext, Classical.choice, Quot.sound |
| C124 | Verif.ArchTester.C124_start | propext, Classical.choice, Quot.sound |
| C124 | Verif.ArchTester.C124_duplicates_violated | propext, Classical.choice, Quot.sound |
| C124 | Verif.ArchTester.C124_digits | propext, Classical.choice, Quot.sound |
| C124 | Verif.ArchTester.C124_columns | propext, Classical.choice, Quot.sound |
| C124 | Verif.ArchTester.C124_precision_violated | propext, Classical.choice, Quot.sound |
| C125 | Verif.AutoSearch.C125_fixed | propext, Classical.choice, Quot.sound |
| C125 | Verif.AutoSearch.C125_size | propext, Classical.choice, Quot.sound |
| C125 | Verif.AutoSearch.C125_free | propext, Classical.choice, Quot.sound |
| C125 | Verif.AutoSearch.C125_random_reaches | propext, Classical.choice, Quot.sound |
| C125 | Verif.AutoSearch.C125_missing_violated | propext, Classical.choice, Quot.sound |
| C126 | Verif.AutoSearch.C126_equality | propext, Classical.choice, Quot.sound |
| C126 | Verif.AutoSearch.C126_order | propext, Classical.choice, Quot.sound |
| C126 | Verif.AutoSearch.C126_tolerance_violated | propext, Classical.choice, Quot.sound |
| C127 | Verif.AutoSearch.C127_grid | propext, Classical.choice, Quot.sound |
| C127 | Verif.AutoSearch.C127_new | propext, Classical.choice, Quot.sound |
| C127 | Verif.AutoSearch.C127_labels_violated | propext, Classical.choice, Quot.sound |
| C127 | Verif.AutoSearch.C127_empty_violated | propext, Classical.choice, Quot.sound |
| C127 | Verif.AutoSearch.C127_no_trials_violated | propext, Classical.choice, Quot.sound |
| C128 | Verif.AutoSearch.C128_random | propext, Classical.choice, Quot.sound |
| C128 | Verif.AutoSearch.C128_hang_violated | propext, Classical.choice, Quot.sound |
| C128 | Verif.AutoSearch.C128_after_grid_violated | propext, Classical.choice, Quot.sound |
| C128 | Verif.AutoSearch.C128_zero_violated | propext, Classical.choice, Quot.sound |
| C129 | Verif.AutoSearch.C129_tournament | propext, Classical.choice, Quot.sound |
| C129 | Verif.AutoSearch.C129_generation | propext, Classical.choice, Quot.sound |
| C129 | Verif.AutoSearch.C129_evolution | propext, Classical.choice, Quot.sound |
| C129 | Verif.AutoSearch.C129_crossover | propext, Classical.choice, Quot.sound |
| C129 | Verif.AutoSearch.C129_rate | propext, Classical.choice, Quot.sound |
| C129 | Verif.AutoSearch.C129_mutation | propext, Classical.choice, Quot.sound |
| C129 | Verif.AutoSearch.C129_empty_violated | propext, Classical.choice, Quot.sound |
| C130 | Verif.RadTraining.C130_rejected | propext, Classical.choice, Quot.sound |
| C130 | Verif.RadTraining.C130_samples | propext, Classical.choice, Quot.sound |
| C130 | Verif.RadTraining.C130_presented | propext, Classical.choice, Quot.sound |
| C130 | Verif.RadTraining.C130_total | propext, Classical.choice, Quot.sound |
| C130 | Verif.RadTraining.C130_config_violated | propext, Classical.choice, Quot.sound |
| C130 | Verif.RadTraining.C130_negative_batch_violated | propext, Classical.choice, Quot.sound |
| C130 | Verif.RadTraining.C130_empty_violated | propext, Classical.choice, Quot.sound |
| C130 | Verif.RadTraining.C130_unlearned_violated | propext, Classical.choice, Quot.sound |
| C130 | Verif.RadTraining.C130_damage_violated | propext, Classical.choice, Quot.sound |
| C131 | Verif.RadTraining.C131_flips | propext, Classical.choice, Quot.sound |
| C131 | Verif.RadTraining.C131_rates | propext, Classical.choice, Quot.sound |
| C131 | Verif.RadTraining.C131_off | propext, Classical.choice, Quot.sound |
| C131 | Verif.RadTraining.C131_certain | propext, Classical.choice, Quot.sound |
| C131 | Verif.RadTraining.C131_environment_violated | propext, Classical.choice, Quot.sound |
| C132 | Verif.RadTraining.C132_restored | propext, Classical.choice, Quot.sound |
| C132 | Verif.RadTraining.C132_range | propext, Classical.choice, Quot.sound |
| C132 | Verif.RadTraining.C132_map | propext, Classical.choice, Quot.sound |
| C132 | Verif.RadTraining.C132_sampled_violated | propext, Classical.choice, Quot.sound |
| C132 | Verif.RadTraining.C132_half_violated | propext, Classical.choice, Quot.sound |
| C132 | Verif.RadTraining.C132_total | propext, Classical.choice, Quot.sound |
| C132 | Verif.RadTraining.C132_reuse_violated | propext, Classical.choice, Quot.sound |
| C132 | Verif.RadTraining.C132_empty_layer_violated | propext, Classical.choice, Quot.sound |
| C133 | Verif.RadTraining.C133_accounting | propext, Classical.choice, Quot.sound |
| C133 | Verif.RadTraining.C133_bounded | propext, Classical.choice, Quot.sound |
| C133 | Verif.RadTraining.C133_flips | propext, Classical.choice, Quot.sound |
| C133 | Verif.RadTraining.C133_blind_violated | propext, Classical.choice, Quot.sound |
| C133 | Verif.RadTraining.C133_nan_violated | propext, Classical.choice, Quot.sound |
| C133 | Verif.RadTraining.C133_average_violated | propext, Classical.choice, Quot.sound |
| C133 | Verif.RadTraining.C133_repeat_violated | propext, Classical.choice, Quot.sound |
| C134 | Verif.RadTraining.C134_contents | propext, Classical.choice, Quot.sound |
| C134 | Verif.RadTraining.C134_label_violated | propext, Classical.choice, Quot.sound |
| C134 | Verif.RadTraining.C134_bare_name_violated | propext, Classical.choice, Quot.sound |
| C134 | Verif.RadTraining.C134_full_violated | propext, Classical.choice, Quot.sound |
| C135 | Verif.SpaceMission.C135_property | propext, Classical.choice, Quot.sound |
| C135 | Verif.SpaceMission.C135_predefined | propext, Classical.choice, Quot.sound |
| C135 | Verif.SpaceMission.C135_names | propext, Classical.choice, Quot.sound |
| C135 | Verif.SpaceMission.C135_constructor_violated | propext, Classical.choice, Quot.sound |
| C136 | Verif.SpaceMission.C136_during | propext, Classical.choice, Quot.sound |
| C136 | Verif.SpaceMission.C136_after | propext, Classical.choice, Quot.sound |
| C136 | Verif.SpaceMission.C136_before | propext, Classical.choice, Quot.sound |
| C136 | Verif.SpaceMission.C136_complete | propext, Classical.choice, Quot.sound |
| C136 | Verif.SpaceMission.C136_negative_violated | propext, Classical.choice, Quot.sound |
| C137 | Verif.SpaceMission.C137_worst | propext, Classical.choice, Quot.sound |
| C137 | Verif.SpaceMission.C137_none | propext, Classical.choice, Quot.sound |
| C137 | Verif.SpaceMission.C137_exposure | propext, Classical.choice, Quot.sound |
| C137 | Verif.SpaceMission.C137_add | propext, Classical.choice, Quot.sound |
| C137 | Verif.SpaceMission.C137_bound | propext, Classical.choice, Quot.sound |
| C137 | Verif.SpaceMission.C137_shield_violated | propext, Classical.choice, Quot.sound |
| C138 | Verif.SpaceMission.C138_usable | propext, Classical.choice, Quot.sound |
| C138 | Verif.SpaceMission.C138_length | propext, Classical.choice, Quot.sound |
| C138 | Verif.SpaceMission.C138_named | propext, Classical.choice, Quot.sound |
| C138 | Verif.SpaceMission.C138_unconfigured_violated | propext, Classical.choice, Quot.sound |
| C138 | Verif.SpaceMission.C138_shared_violated | propext, Classical.choice, Quot.sound |
| C138 | Verif.SpaceMission.C138_separate | propext, Classical.choice, Quot.sound |
| C139 | Verif.Autoencoder.C139_encode | propext, Classical.choice, Quot.sound |
| C139 | Verif.Autoencoder.C139_reject | propext, Classical.choice, Quot.sound |
| C139 | Verif.Autoencoder.C139_pre | propext, Classical.choice, Quot.sound |
| C139 | Verif.Autoencoder.C139_constant_violated | propext, Classical.choice, Quot.sound |
| C140 | Verif.Autoencoder.C140_sample | propext, Classical.choice, Quot.sound |
| C140 | Verif.Autoencoder.C140_reproducible | propext, Classical.choice, Quot.sound |
| C140 | Verif.Autoencoder.C140_reparameterized | propext, Classical.choice, Quot.sound |
| C140 | Verif.Autoencoder.C140_short_limit | propext, Classical.choice, Quot.sound |
| C140 | Verif.Autoencoder.C140_techniques_violated | propext, Classical.choice, Quot.sound |
| C140 | Verif.Autoencoder.C140_seed_violated | propext, Classical.choice, Quot.sound |
| C141 | Verif.Autoencoder.C141_mirrored | propext, Classical.choice, Quot.sound |
| C141 | Verif.Autoencoder.C141_decode | propext, Classical.choice, Quot.sound |
| C141 | Verif.Autoencoder.C141_reject | propext, Classical.choice, Quot.sound |
| C141 | Verif.Autoencoder.C141_forward | propext, Classical.choice, Quot.sound |
| C141 | Verif.Autoencoder.C141_generate | propext, Classical.choice, Quot.sound |
| C141 | Verif.Autoencoder.C141_reproducible | propext, Classical.choice, Quot.sound |
| C141 | Verif.Autoencoder.C141_inverse | propext, Classical.choice, Quot.sound |
| C141 | Verif.Autoencoder.C141_range_violated | propext, Classical.choice, Quot.sound |
| C142 | Verif.Autoencoder.C142_linear | propext, Classical.choice, Quot.sound |
| C142 | Verif.Autoencoder.C142_learned | propext, Classical.choice, Quot.sound |
| C142 | Verif.Autoencoder.C142_reject | propext, Classical.choice, Quot.sound |
| C142 | Verif.Autoencoder.C142_end_violated | propext, Classical.choice, Quot.sound |
| C143 | Verif.Autoencoder.C143_divergence | propext, Classical.choice, Quot.sound |
| C143 | Verif.Autoencoder.C143_reconstruction | propext, Classical.choice, Quot.sound |
| C143 | Verif.Autoencoder.C143_gradients | propext, Classical.choice, Quot.sound |
| C143 | Verif.Autoencoder.C143_total | propext, Classical.choice, Quot.sound |
| C143 | Verif.Autoencoder.C143_small_input_violated | propext, Classical.choice, Quot.sound |
| C143 | Verif.Autoencoder.C143_interpolation_violated | propext, Classical.choice, Quot.sound |
| C144 | Verif.Autoencoder.C144_split | propext, Classical.choice, Quot.sound |
| C144 | Verif.Autoencoder.C144_share_violated | propext, Classical.choice, Quot.sound |
| C144 | Verif.Autoencoder.C144_single_violated | propext, Classical.choice, Quot.sound |
| C144 | Verif.Autoencoder.C144_batches | propext, Classical.choice, Quot.sound |
| C144 | Verif.Autoencoder.C144_zero_violated | propext |
| C144 | Verif.Autoencoder.C144_negative_limit | propext, Classical.choice, Quot.sound |
| C145 | Verif.Autoencoder.C145_metrics | propext, Classical.choice, Quot.sound |
| C145 | Verif.Autoencoder.C145_returns | propext, Classical.choice, Quot.sound |
| C145 | Verif.Autoencoder.C145_returns_split | propext, Classical.choice, Quot.sound |
| C145 | Verif.Autoencoder.C145_no_validation_violated | propext, Classical.choice, Quot.sound |
| C146 | Verif.Autoencoder.C146_learning_violated | propext, Classical.choice, Quot.sound |
| C146 | Verif.Autoencoder.C146_legacy_violated | propext, Classical.choice, Quot.sound |
| C146 | Verif.Autoencoder.C146_loss | propext, Classical.choice, Quot.sound |
| C146 | Verif.Autoencoder.C146_average_violated | propext, Classical.choice, Quot.sound |
| C146 | Verif.Autoencoder.C146_zero_violated | propext, Classical.choice, Quot.sound |
| C147 | Verif.Autoencoder.C147_majority | propext, Classical.choice, Quot.sound |
| C147 | Verif.Autoencoder.C147_unchanged | propext, Classical.choice, Quot.sound |
| C147 | Verif.Autoencoder.C147_near | propext, Classical.choice, Quot.sound |
| C147 | Verif.Autoencoder.C147_counts_violated | propext, Classical.choice, Quot.sound |
| C147 | Verif.Autoencoder.C147_noise_violated | propext, Classical.choice, Quot.sound |
| C147 | Verif.Autoencoder.C147_pair_violated | propext, Classical.choice, Quot.sound |
| C148 | Verif.Autoencoder.C148_reset | propext, Classical.choice, Quot.sound |
| C148 | Verif.Autoencoder.C148_totals | propext, Classical.choice, Quot.sound |
| C148 | Verif.Autoencoder.C148_strike | propext, Classical.choice, Quot.sound |
| C148 | Verif.Autoencoder.C148_copy | propext, Classical.choice, Quot.sound |
| C148 | Verif.Autoencoder.C148_metrics_violated | propext, Classical.choice, Quot.sound |
| C149 | Verif.Autoencoder.C149_save | propext, Classical.choice, Quot.sound |
| C149 | Verif.Autoencoder.C149_missing | propext, Classical.choice, Quot.sound |
| C149 | Verif.Autoencoder.C149_load_violated | propext, Classical.choice, Quot.sound |
| C149 | Verif.Autoencoder.C149_cut_violated | propext, Classical.choice, Quot.sound |
| C149 | Verif.Autoencoder.C149_damaged_violated | propext, Classical.choice, Quot.sound |
| C149 | Verif.Autoencoder.C149_model_violated | propext, Classical.choice, Quot.sound |
| C150 | Verif.RadSimulator.C150_shares | propext, Classical.choice, Quot.sound |
| C150 | Verif.RadSimulator.C150_monotone | propext, Classical.choice, Quot.sound |
| C150 | Verif.RadSimulator.C150_orbit | propext, Classical.choice, Quot.sound |
| C150 | Verif.RadSimulator.C150_altitude_violated | propext, Classical.choice, Quot.sound |
| C150 | Verif.RadSimulator.C150_missions | propext, Classical.choice, Quot.sound |
| C150 | Verif.RadSimulator.C150_jupiter_violated | propext, Classical.choice, Quot.sound |
| C150 | Verif.RadSimulator.C150_name_violated | propext, Classical.choice, Quot.sound |
| C151 | Verif.RadSimulator.C151_events | propext, Classical.choice, Quot.sound |
| C151 | Verif.RadSimulator.C151_contained | propext, Classical.choice, Quot.sound |
| C151 | Verif.RadSimulator.C151_empty_violated | propext, Classical.choice, Quot.sound |
| C151 | Verif.RadSimulator.C151_instant_violated | propext, Classical.choice, Quot.sound |
| C151 | Verif.RadSimulator.C151_stuck_violated | propext, Classical.choice, Quot.sound |
| C151 | Verif.RadSimulator.C151_harmless_violated | propext, Classical.choice, Quot.sound |
| C152 | Verif.RadSimulator.C152_kinds | propext, Classical.choice, Quot.sound |
| C153 | Verif.MissionSim.C153_sound | propext, Classical.choice, Quot.sound |
| C153 | Verif.MissionSim.C153_unknown_violated | propext, Classical.choice, Quot.sound |
| C154 | Verif.MissionSim.C154_select | propext, Classical.choice, Quot.sound |
| C154 | Verif.MissionSim.C154_total | propext, Classical.choice, Quot.sound |
| C154 | Verif.MissionSim.C154_surplus_violated | propext, Classical.choice, Quot.sound |
| C154 | Verif.MissionSim.C154_announced | propext, Classical.choice, Quot.sound |
| C155 | Verif.MissionSim.C155_time | propext, Classical.choice, Quot.sound |
| C155 | Verif.MissionSim.C155_attributed | propext, Classical.choice, Quot.sound |
| C155 | Verif.MissionSim.C155_stay | propext, Classical.choice, Quot.sound |
| C155 | Verif.MissionSim.C155_due | propext, Classical.choice, Quot.sound |
| C155 | Verif.MissionSim.C155_returns | propext, Classical.choice, Quot.sound |
| C155 | Verif.MissionSim.C155_standard | propext, Classical.choice, Quot.sound |
| C155 | Verif.MissionSim.C155_zero_violated | propext, Classical.choice, Quot.sound |
| C155 | Verif.MissionSim.C155_empty_violated | propext, Classical.choice, Quot.sound |
| C156 | Verif.MissionSim.C156_books | propext, Classical.choice, Quot.sound |
| C156 | Verif.MissionSim.C156_chances | propext, Classical.choice, Quot.sound |
| C156 | Verif.MissionSim.C156_run | propext, Classical.choice, Quot.sound |
| C156 | Verif.MissionSim.C156_names | propext, Classical.choice, Quot.sound |
| C157 | Verif.MissionSim.C157_range | propext, Classical.choice, Quot.sound |
| C157 | Verif.MissionSim.C157_share | propext, Classical.choice, Quot.sound |
| C157 | Verif.MissionSim.C157_quiet_violated | propext, Classical.choice, Quot.sound |
| C157 | Verif.MissionSim.C157_missed_violated | propext, Classical.choice, Quot.sound |
| C158 | Verif.MissionSim.C158_level | propext, Classical.choice, Quot.sound |
| C158 | Verif.MissionSim.C158_fixed | propext, Classical.choice, Quot.sound |
| C158 | Verif.MissionSim.C158_low_violated | propext, Classical.choice, Quot.sound |
| C158 | Verif.MissionSim.C158_high_violated | propext, Classical.choice, Quot.sound |
| C159 | Verif.MissionSim.C159_scrubbing | propext, Classical.choice, Quot.sound |
| C159 | Verif.MissionSim.C159_memory | propext, Classical.choice, Quot.sound |
| C159 | Verif.MissionSim.C159_protection_violated | propext, Classical.choice, Quot.sound |
| C159 | Verif.MissionSim.C159_corrected_violated | propext, Classical.choice, Quot.sound |
| C160 | Verif.QuantumField.C160_construct | propext, Classical.choice, Quot.sound |
| C160 | Verif.QuantumField.C160_set_get | propext, Classical.choice, Quot.sound |
| C160 | Verif.QuantumField.C160_outside | propext, Classical.choice, Quot.sound |
| C160 | Verif.QuantumField.C160_zero_violated | propext, Classical.choice, Quot.sound |
| C160 | Verif.QuantumField.C160_large_violated | propext, Classical.choice, Quot.sound |
| C161 | Verif.QuantumField.C161_coherent | propext, Classical.choice, Quot.sound |
| C161 | Verif.QuantumField.C161_gaussian | propext, Classical.choice, Quot.sound |
| C161 | Verif.QuantumField.C161_create | propext, Classical.choice, Quot.sound |
| C161 | Verif.QuantumField.C161_deviation_limit | propext, Classical.choice, Quot.sound |
| C162 | Verif.QuantumField.C162_formula | propext, Classical.choice, Quot.sound |
| C162 | Verif.QuantumField.C162_energy | propext, Classical.choice, Quot.sound |
| C162 | Verif.QuantumField.C162_uniform | propext, Classical.choice, Quot.sound |
| C162 | Verif.QuantumField.C162_flat | propext, Classical.choice, Quot.sound |
| C162 | Verif.QuantumField.C162_default_violated | propext, Classical.choice, Quot.sound |
| C163 | Verif.QuantumField.C163_evolve | propext, Classical.choice, Quot.sound |
| C163 | Verif.QuantumField.C163_energy | propext, Classical.choice, Quot.sound |
| C163 | Verif.QuantumField.C163_modulus | propext, Classical.choice, Quot.sound |
| C163 | Verif.QuantumField.C163_correlation_violated | propext, Classical.choice, Quot.sound |
| C164 | Verif.QuantumField.C164_kleinGordon | propext, Classical.choice, Quot.sound |
| C164 | Verif.QuantumField.C164_dissipation_violated | propext, Classical.choice, Quot.sound |
| C164 | Verif.QuantumField.C164_dirac_violated | propext, Classical.choice, Quot.sound |
| C164 | Verif.QuantumField.C164_propagator_violated | propext, Classical.choice, Quot.sound |
| C165 | Verif.QuantumField.C165_refused | propext, Classical.choice, Quot.sound |
| C165 | Verif.QuantumField.C165_maxwell | propext, Classical.choice, Quot.sound |
| C165 | Verif.QuantumField.C165_lattice_violated | propext, Classical.choice, Quot.sound |
| C165 | Verif.QuantumField.C165_interact | propext, Classical.choice, Quot.sound |
| C165 | Verif.QuantumField.C165_fermions | propext, Classical.choice, Quot.sound |
| C165 | Verif.QuantumField.C165_steps_violated | propext, Classical.choice, Quot.sound |
| C166 | Verif.QuantumPhysics.C166_range | propext, Classical.choice, Quot.sound |
| C166 | Verif.QuantumPhysics.C166_formula | propext, Classical.choice, Quot.sound |
| C166 | Verif.QuantumPhysics.C166_monotone | propext, Classical.choice, Quot.sound |
| C166 | Verif.QuantumPhysics.C166_type | propext, Classical.choice, Quot.sound |
| C166 | Verif.QuantumPhysics.C166_negative_limit | propext, Classical.choice, Quot.sound |
| C167 | Verif.QuantumPhysics.C167_formula | propext, Classical.choice, Quot.sound |
| C167 | Verif.QuantumPhysics.C167_monotone | propext, Classical.choice, Quot.sound |
| C167 | Verif.QuantumPhysics.C167_defect | propext, Classical.choice, Quot.sound |
| C167 | Verif.QuantumPhysics.C167_units_violated | propext, Classical.choice, Quot.sound |
| C168 | Verif.QuantumPhysics.C168_correct | propext, Classical.choice, Quot.sound |
| C168 | Verif.QuantumPhysics.C168_factors | propext, Classical.choice, Quot.sound |
| C168 | Verif.QuantumPhysics.C168_scale_violated | propext, Classical.choice, Quot.sound |
| C169 | Verif.QuantumPhysics.C169_cascade | propext, Classical.choice, Quot.sound |
| C169 | Verif.QuantumPhysics.C169_nothing_violated | propext, Classical.choice, Quot.sound |
| C170 | Verif.QuantumPhysics.C170_displacement | propext, Classical.choice, Quot.sound |
| C170 | Verif.QuantumPhysics.C170_silicon_violated | propext, Classical.choice, Quot.sound |
| C171 | Verif.QuantumPhysics.C171_decoherence | propext, Classical.choice, Quot.sound |
| C171 | Verif.QuantumPhysics.C171_transition | propext, Classical.choice, Quot.sound |
| C172 | Verif.QuantumPhysics.C172_deposit | propext, Classical.choice, Quot.sound |
| C172 | Verif.QuantumPhysics.C172_energy_violated | propext, Classical.choice, Quot.sound |
| C172 | Verif.QuantumPhysics.C172_ion_violated | propext, Classical.choice, Quot.sound |
| C172 | Verif.QuantumPhysics.C172_lattice_violated | propext, Classical.choice, Quot.sound |
| C173 | Verif.QuantumPhysics.C173_critical | propext, Classical.choice, Quot.sound |
| C173 | Verif.QuantumPhysics.C173_cold_violated | propext, Classical.choice, Quot.sound |
| C174 | Verif.QuantumPhysics.C174_sensitivity | propext, Classical.choice, Quot.sound |
| C174 | Verif.QuantumPhysics.C174_jump_violated | propext, Classical.choice, Quot.sound |
| C175 | Verif.QuantumPhysics.C175_probability | propext, Classical.choice, Quot.sound |
| C175 | Verif.QuantumPhysics.C175_monotone | propext, Classical.choice, Quot.sound |
| C175 | Verif.QuantumPhysics.C175_drop_violated | propext, Classical.choice, Quot.sound |
| C176 | Verif.QuantumPhysics.C176_size | propext, Classical.choice, Quot.sound |
| C176 | Verif.QuantumPhysics.C176_monotone | propext, Classical.choice, Quot.sound |
| C176 | Verif.QuantumPhysics.C176_overflow_violated | propext, Classical.choice, Quot.sound |
| C177 | Verif.QuantumPhysics.C177_trivial | propext, Classical.choice, Quot.sound |
| C177 | Verif.QuantumPhysics.C177_apply | propext, Classical.choice, Quot.sound |
| C177 | Verif.QuantumPhysics.C177_harmless | propext, Classical.choice, Quot.sound |
| C177 | Verif.QuantumPhysics.C177_instant_violated | propext, Classical.choice, Quot.sound |
| C177 | Verif.QuantumPhysics.C177_long_violated | propext, Classical.choice, Quot.sound |
| C178 | Verif.Props.NasaP.C178_metrics | propext, Classical.choice, Quot.sound |
| C178 | Verif.Props.NasaP.C178_no_event_violated | propext, Classical.choice, Quot.sound |
| C178 | Verif.Props.NasaP.C178_quiet_trial_violated | propext, Classical.choice, Quot.sound |
| C179 | Verif.Props.NasaP.C179_assessment | propext, Classical.choice, Quot.sound |
| C179 | Verif.Props.NasaP.C179_no_errors_violated | propext, Classical.choice, Quot.sound |
| C179 | Verif.Props.NasaP.C179_report | propext, Classical.choice, Quot.sound |
| C179 | Verif.Props.NasaP.C179_validation | propext, Classical.choice, Quot.sound |
| C180 | Verif.Props.NasaP.C180_never_compliant_violated | propext, Classical.choice, Quot.sound |
| C180 | Verif.Props.NasaP.C180_untested_compliant_violated | propext, Classical.choice, Quot.sound |
| C180 | Verif.Props.NasaP.C180_verdict_partial | propext, Classical.choice, Quot.sound |
| C181 | Verif.Props.NasaP.C181_criteria | propext, Classical.choice, Quot.sound |
| C181 | Verif.Props.NasaP.C181_not_measured_violated | propext, Classical.choice, Quot.sound |
| C182 | Verif.Props.NasaP.C182_no_threshold_violated | propext, Classical.choice, Quot.sound |
| C182 | Verif.Props.NasaP.C182_leo_contradiction_violated | propext, Classical.choice, Quot.sound |
| C182 | Verif.Props.NasaP.C182_attainable | propext, Classical.choice, Quot.sound |
| C183 | Verif.Props.NasaP.C183_shielding | propext, Classical.choice, Quot.sound |
| C183 | Verif.Props.NasaP.C183_modifications | propext, Classical.choice, Quot.sound |
| C183 | Verif.Props.NasaP.C183_suitable | propext, Classical.choice, Quot.sound |
| C183 | Verif.Props.NasaP.C183_infinite_shielding_violated | propext, Classical.choice, Quot.sound |
| C184 | Verif.Props.NasaP.C184_correlation | propext, Classical.choice, Quot.sound |
| C184 | Verif.Props.NasaP.C184_percent | propext, Classical.choice, Quot.sound |
| C184 | Verif.Props.NasaP.C184_negative_limit | propext, Classical.choice, Quot.sound |
| C185 | Verif.Props.PhysicsSimP.C185_solar | propext, Classical.choice, Quot.sound |
| C185 | Verif.Props.PhysicsSimP.C185_solar_extremes | propext, Classical.choice, Quot.sound |
| C185 | Verif.Props.PhysicsSimP.C185_solar_dip_limit | propext, Classical.choice, Quot.sound |
| C185 | Verif.Props.PhysicsSimP.C185_shielding | propext, Classical.choice, Quot.sound |
| C185 | Verif.Props.PhysicsSimP.C185_shielding_range | propext, Classical.choice, Quot.sound |
| C185 | Verif.Props.PhysicsSimP.C185_thick_limit | propext, Classical.choice, Quot.sound |
| C186 | Verif.Props.PhysicsSimP.C186_rates | propext, Classical.choice, Quot.sound |
| C186 | Verif.Props.PhysicsSimP.C186_history | propext, Classical.choice, Quot.sound |
| C186 | Verif.Props.PhysicsSimP.C186_shielding | propext, Classical.choice, Quot.sound |
| C186 | Verif.Props.PhysicsSimP.C186_extremes | propext, Classical.choice, Quot.sound |
| C187 | Verif.Props.PhysicsSimP.C187_events | propext, Classical.choice, Quot.sound |
| C187 | Verif.Props.PhysicsSimP.C187_empty_violated | propext, Classical.choice, Quot.sound |
| C187 | Verif.Props.PhysicsSimP.C187_exceeds_memory_violated | propext, Classical.choice, Quot.sound |
| C188 | Verif.Props.PhysicsSimP.C188_timeline | propext, Classical.choice, Quot.sound |
| C188 | Verif.Props.PhysicsSimP.C188_standard | propext, Classical.choice, Quot.sound |
| C188 | Verif.Props.PhysicsSimP.C188_changes_environment_violated | propext, Classical.choice, Quot.sound |
| C188 | Verif.Props.PhysicsSimP.C188_missing_duration_violated | propext, Classical.choice, Quot.sound |
| C189 | Verif.Props.PhysicsSimP.C189_dose | propext, Classical.choice, Quot.sound |
| C189 | Verif.Props.PhysicsSimP.C189_expected | propext, Classical.choice, Quot.sound |
| C189 | Verif.Props.PhysicsSimP.C189_ignores_activity_limit | propext, Classical.choice, Quot.sound |
| C189 | Verif.Props.PhysicsSimP.C189_changes_environment_violated | propext, Classical.choice, Quot.sound |
| C190 | Verif.Props.PhysicsSimP.C190_same_attenuation_violated | propext, Classical.choice, Quot.sound |
| C191 | Verif.Props.PhysicsSimP.C191_tables | propext, Classical.choice, Quot.sound |
| C191 | Verif.Props.PhysicsSimP.C191_custom_limit | propext, Classical.choice, Quot.sound |
| C191 | Verif.Props.PhysicsSimP.C191_conditions_violated | propext, Classical.choice, Quot.sound |
| C191 | Verif.Props.PhysicsSimP.C191_conditions_partial | propext, Classical.choice, Quot.sound |
| C192 | Verif.Props.UpsetTmrP.C192_no_upset | propext, Classical.choice, Quot.sound |
| C192 | Verif.Props.UpsetTmrP.C192_single | propext, Classical.choice, Quot.sound |
| C192 | Verif.Props.UpsetTmrP.C192_adjacent | propext, Classical.choice, Quot.sound |
| C192 | Verif.Props.UpsetTmrP.C192_top_pair_limit | propext, Classical.choice, Quot.sound |
| C192 | Verif.Props.UpsetTmrP.C192_row | propext, Classical.choice, Quot.sound |
| C192 | Verif.Props.UpsetTmrP.C192_column | propext, Classical.choice, Quot.sound |
| C192 | Verif.Props.UpsetTmrP.C192_random | propext, Classical.choice, Quot.sound |
| C192 | Verif.Props.UpsetTmrP.C192_random_rare_violated | propext, Classical.choice, Quot.sound |
| C192 | Verif.Props.UpsetTmrP.C192_cancel_violated | propext, Classical.choice, Quot.sound |
| C192 | Verif.Props.UpsetTmrP.C192_double_violated | propext, Classical.choice, Quot.sound |
| C193 | Verif.Props.UpsetTmrP.C193_masked | propext, Quot.sound |
| C193 | Verif.Props.UpsetTmrP.C193_conversion | propext, Classical.choice, Quot.sound |
| C193 | Verif.Props.UpsetTmrP.C193_conversion_violated | propext, Classical.choice, Quot.sound |
| C193 | Verif.Props.UpsetTmrP.C193_default_violated | propext, Quot.sound |
| C194 | Verif.Props.UpsetTmrP.C194_value | propext, Classical.choice, Quot.sound |
| C194 | Verif.Props.UpsetTmrP.C194_switching | propext, Classical.choice, Quot.sound |
| C194 | Verif.Props.UpsetTmrP.C194_on | propext, Classical.choice, Quot.sound |
| C194 | Verif.Props.UpsetTmrP.C194_off_partial | propext, Classical.choice, Quot.sound |
| C194 | Verif.Props.UpsetTmrP.C194_stale_violated | propext, Classical.choice, Quot.sound |
| C194 | Verif.Props.UpsetTmrP.C194_initial_violated | propext, Classical.choice, Quot.sound |
| C194 | Verif.Props.UpsetTmrP.C194_default_violated | propext, Classical.choice, Quot.sound |
| C195 | Verif.Props.UpsetTmrP.C195_one_replica | propext, Classical.choice, Quot.sound |
| C195 | Verif.Props.UpsetTmrP.C195_detects | propext, Classical.choice, Quot.sound |
| C195 | Verif.Props.UpsetTmrP.C195_failure_hidden_violated | propext, Classical.choice, Quot.sound |
| C196 | Verif.Props.UpsetTmrP.C196_rounds | propext, Classical.choice, Quot.sound |
| C196 | Verif.Props.UpsetTmrP.C196_no_majority | propext, Classical.choice, Quot.sound |
| C196 | Verif.Props.UpsetTmrP.C196_nan_limit | propext, Classical.choice, Quot.sound |
| C197 | Verif.Props.UpsetTmrP.C197_simple | propext, Quot.sound |
| C197 | Verif.Props.UpsetTmrP.C197_masked | propext |
| C197 | Verif.Props.UpsetTmrP.C197_nan_limit | propext |
| C198 | Verif.MissionProfile.C198_names | propext, Classical.choice, Quot.sound |
| C198 | Verif.MissionProfile.C198_kind | propext, Classical.choice, Quot.sound |
| C198 | Verif.MissionProfile.C198_unknown_limit | propext, Classical.choice, Quot.sound |
| C199 | Verif.MissionProfile.C199_sane | propext, Classical.choice, Quot.sound |
| C199 | Verif.MissionProfile.C199_monotone | propext, Classical.choice, Quot.sound |
| C199 | Verif.MissionProfile.C199_anomaly | propext, Classical.choice, Quot.sound |
| C199 | Verif.MissionProfile.C199_dose_limit | propext, Classical.choice, Quot.sound |
| C199 | Verif.MissionProfile.C199_log_violated | propext, Classical.choice, Quot.sound |
| C199 | Verif.MissionProfile.C199_mars_violated | propext, Classical.choice, Quot.sound |
| C200 | Verif.MissionProfile.C200_environment | propext, Classical.choice, Quot.sound |
| C200 | Verif.MissionProfile.C200_positive | propext, Classical.choice, Quot.sound |
| C200 | Verif.MissionProfile.C200_order_violated | propext, Classical.choice, Quot.sound |
| C200 | Verif.MissionProfile.C200_mars_violated | propext, Classical.choice, Quot.sound |
| C201 | Verif.MissionProfile.C201_last | propext, Classical.choice, Quot.sound |
| C201 | Verif.MissionProfile.C201_quantised | propext, Classical.choice, Quot.sound |
| C201 | Verif.MissionProfile.C201_sticky_violated | propext, Classical.choice, Quot.sound |
| C202 | Verif.MissionProfile.C202_formulas | propext, Classical.choice, Quot.sound |
| C202 | Verif.MissionProfile.C202_leaky | propext, Classical.choice, Quot.sound |
| C202 | Verif.MissionProfile.C202_ranges | propext, Classical.choice, Quot.sound |
| C202 | Verif.MissionProfile.C202_monotone | propext, Classical.choice, Quot.sound |
| C202 | Verif.MissionProfile.C202_softmax_violated | propext, Classical.choice, Quot.sound |
| C202 | Verif.MissionProfile.C202_nan | propext, Classical.choice, Quot.sound |
| C203 | Verif.Hardening.C203_mean | propext, Classical.choice, Quot.sound |
| C203 | Verif.Hardening.C203_range | propext, Classical.choice, Quot.sound |
| C203 | Verif.Hardening.C203_scale | propext, Classical.choice, Quot.sound |
| C203 | Verif.Hardening.C203_monotone | propext, Classical.choice, Quot.sound |
| C203 | Verif.Hardening.C203_zero_violated | propext, Classical.choice, Quot.sound |
| C204 | Verif.Hardening.C204_ranking | propext, Classical.choice, Quot.sound |
| C204 | Verif.Hardening.C204_layers | propext, Classical.choice, Quot.sound |
| C205 | Verif.Hardening.C205_threshold | propext, Classical.choice, Quot.sound |
| C205 | Verif.Hardening.C205_order | propext, Classical.choice, Quot.sound |
| C205 | Verif.Hardening.C205_negative_limit | propext, Classical.choice, Quot.sound |
| C206 | Verif.Hardening.C206_budget | propext, Classical.choice, Quot.sound |
| C206 | Verif.Hardening.C206_entries | propext, Classical.choice, Quot.sound |
| C206 | Verif.Hardening.C206_first | propext, Classical.choice, Quot.sound |
| C206 | Verif.Hardening.C206_default_violated | propext, Classical.choice, Quot.sound |
| C206 | Verif.Hardening.C206_order_violated | propext, Classical.choice, Quot.sound |
| C207 | Verif.Hardening.C207_budget | propext, Classical.choice, Quot.sound |
| C207 | Verif.Hardening.C207_levels | propext, Classical.choice, Quot.sound |
| C207 | Verif.Hardening.C207_enough | propext, Classical.choice, Quot.sound |
| C207 | Verif.Hardening.C207_default_violated | propext, Classical.choice, Quot.sound |
| C207 | Verif.Hardening.C207_usage_violated | propext, Classical.choice, Quot.sound |
| C208 | Verif.Hardening.C208_step | propext, Classical.choice, Quot.sound |
| C208 | Verif.Hardening.C208_figures | propext, Classical.choice, Quot.sound |
| C208 | Verif.Hardening.C208_converges | propext, Classical.choice, Quot.sound |
| C208 | Verif.Hardening.C208_budget_violated | propext, Classical.choice, Quot.sound |
| C208 | Verif.Hardening.C208_stuck_violated | propext, Classical.choice, Quot.sound |
| C209 | Verif.Hardening.C209_range | propext, Classical.choice, Quot.sound |
| C209 | Verif.Hardening.C209_monotone | propext, Classical.choice, Quot.sound |
| C209 | Verif.Hardening.C209_extremes | propext, Classical.choice, Quot.sound |
| C209 | Verif.Hardening.C209_unlisted_violated | propext, Classical.choice, Quot.sound |
| C209 | Verif.Hardening.C209_analysis | propext, Classical.choice, Quot.sound |
| C210 | Verif.Topology.C210_paths | propext, Classical.choice, Quot.sound |
| C210 | Verif.Topology.C210_once | propext, Classical.choice, Quot.sound |
| C211 | Verif.Topology.C211_connections | propext, Classical.choice, Quot.sound |
| C211 | Verif.Topology.C211_shared_limit | propext, Classical.choice, Quot.sound |
| C211 | Verif.Topology.C211_propagation | propext, Classical.choice, Quot.sound |
| C211 | Verif.Topology.C211_outputs | propext, Classical.choice, Quot.sound |
| C211 | Verif.Topology.C211_size_limit | propext, Classical.choice, Quot.sound |
| C212 | Verif.Topology.C212_range | propext, Classical.choice, Quot.sound |
| C212 | Verif.Topology.C212_formula | propext, Classical.choice, Quot.sound |
| C212 | Verif.Topology.C212_marked | propext, Classical.choice, Quot.sound |
| C212 | Verif.Topology.C212_quarter_violated | propext, Classical.choice, Quot.sound |
| C212 | Verif.Topology.C212_name_violated | propext, Classical.choice, Quot.sound |
| C213 | Verif.Topology.C213_importance | propext, Classical.choice, Quot.sound |
| C213 | Verif.Topology.C213_range | propext, Classical.choice, Quot.sound |
| C213 | Verif.Topology.C213_zero_violated | propext, Classical.choice, Quot.sound |
| C214 | Verif.Topology.C214_importance | propext, Classical.choice, Quot.sound |
| C214 | Verif.Topology.C214_range | propext, Classical.choice, Quot.sound |
| C214 | Verif.Topology.C214_sparse_violated | propext, Classical.choice, Quot.sound |
| C214 | Verif.Topology.C214_sparsity_counts | propext, Classical.choice, Quot.sound |
| C215 | Verif.Topology.C215_range | propext, Classical.choice, Quot.sound |
| C215 | Verif.Topology.C215_formula | propext, Classical.choice, Quot.sound |
| C215 | Verif.Topology.C215_flux_violated | propext, Classical.choice, Quot.sound |
| C215 | Verif.Topology.C215_wrap_violated | propext, Classical.choice, Quot.sound |
| C215 | Verif.Topology.C215_impact_formula | propext, Classical.choice, Quot.sound |
| C216 | Verif.Topology.C216_level | propext, Classical.choice, Quot.sound |
| C216 | Verif.Topology.C216_monotone | propext, Classical.choice, Quot.sound |
| C216 | Verif.Topology.C216_every | propext, Classical.choice, Quot.sound |
| C216 | Verif.Topology.C216_flux_violated | propext, Classical.choice, Quot.sound |
| C216 | Verif.Topology.C216_default_violated | propext, Classical.choice, Quot.sound |
| C217 | Verif.Topology.C217_adjusted | propext, Classical.choice, Quot.sound |
| C217 | Verif.Topology.C217_order | propext, Classical.choice, Quot.sound |
| C218 | Verif.LayerPolicy.C218_policy | propext, Classical.choice, Quot.sound |
| C218 | Verif.LayerPolicy.C218_layers | propext, Classical.choice, Quot.sound |
| C219 | Verif.LayerPolicy.C219_mission | propext, Classical.choice, Quot.sound |
| C219 | Verif.LayerPolicy.C219_repeat_violated | propext, Classical.choice, Quot.sound |
| C220 | Verif.LayerPolicy.C220_shares | propext, Classical.choice, Quot.sound |
| C220 | Verif.LayerPolicy.C220_none | propext, Classical.choice, Quot.sound |
| C220 | Verif.LayerPolicy.C220_monotone | propext, Classical.choice, Quot.sound |
| C220 | Verif.LayerPolicy.C220_all_violated | propext, Classical.choice, Quot.sound |
| C220 | Verif.LayerPolicy.C220_variant | propext, Classical.choice, Quot.sound |
| C220 | Verif.LayerPolicy.C220_levels | propext, Classical.choice, Quot.sound |
| C221 | Verif.LayerPolicy.C221_decay | propext, Classical.choice, Quot.sound |
| C221 | Verif.LayerPolicy.C221_depth | propext, Classical.choice, Quot.sound |
| C221 | Verif.LayerPolicy.C221_total_violated | propext, Classical.choice, Quot.sound |
| C221 | Verif.LayerPolicy.C221_range | propext, Classical.choice, Quot.sound |
| C222 | Verif.LayerPolicy.C222_mission | propext, Classical.choice, Quot.sound |
| C222 | Verif.LayerPolicy.C222_budget_violated | propext, Classical.choice, Quot.sound |
| C222 | Verif.LayerPolicy.C222_depth | propext, Classical.choice, Quot.sound |
| C222 | Verif.LayerPolicy.C222_name_violated | propext, Quot.sound |
| C223 | Verif.FineTuning.C223_sensitivity | propext, Classical.choice, Quot.sound |
| C223 | Verif.FineTuning.C223_minimum_violated | propext, Classical.choice, Quot.sound |
| C223 | Verif.FineTuning.C223_empty_limit | propext, Classical.choice, Quot.sound |
| C224 | Verif.FineTuning.C224_profile | propext, Classical.choice, Quot.sound |
| C224 | Verif.FineTuning.C224_equal_violated | propext, Classical.choice, Quot.sound |
| C224 | Verif.FineTuning.C224_empty_limit | propext, Classical.choice, Quot.sound |
| C225 | Verif.FineTuning.C225_layers | propext, Classical.choice, Quot.sound |
| C225 | Verif.FineTuning.C225_monotone | propext, Classical.choice, Quot.sound |
| C225 | Verif.FineTuning.C225_first_violated | propext, Classical.choice, Quot.sound |
| C225 | Verif.FineTuning.C225_empty_limit | propext, Classical.choice, Quot.sound |
| C226 | Verif.FineTuning.C226_monotone | propext, Classical.choice, Quot.sound |
| C226 | Verif.FineTuning.C226_bytes | propext, Classical.choice, Quot.sound |
| C226 | Verif.FineTuning.C226_roundtrip | propext, Classical.choice, Quot.sound |
| C226 | Verif.FineTuning.C226_environment_violated | propext, Classical.choice, Quot.sound |
| C226 | Verif.FineTuning.C226_short_limit | propext, Quot.sound |
| C227 | Verif.FineTuning.C227_learn | propext, Classical.choice, Quot.sound |
| C227 | Verif.FineTuning.C227_estimate | propext, Classical.choice, Quot.sound |
| C227 | Verif.FineTuning.C227_range | propext, Classical.choice, Quot.sound |
| C227 | Verif.FineTuning.C227_patterns_violated | propext, Classical.choice, Quot.sound |
| C227 | Verif.FineTuning.C227_environment_violated | propext, Classical.choice, Quot.sound |
| C227 | Verif.FineTuning.C227_nan_violated | propext, Classical.choice, Quot.sound |
| C228 | Verif.FineTuning.C228_layout | propext, Classical.choice, Quot.sound |
| C228 | Verif.FineTuning.C228_interleave_violated | propext, Classical.choice, Quot.sound |
| C228 | Verif.FineTuning.C228_lost_violated | propext, Classical.choice, Quot.sound |
| C229 | Verif.FineTuning.C229_result | propext, Classical.choice, Quot.sound |
| C229 | Verif.FineTuning.C229_optimize | propext, Classical.choice, Quot.sound |
| C229 | Verif.FineTuning.C229_history | propext, Classical.choice, Quot.sound |
| C229 | Verif.FineTuning.C229_failure_violated | propext, Classical.choice, Quot.sound |
| C229 | Verif.FineTuning.C229_validation_violated | propext, Classical.choice, Quot.sound |
| C230 | Verif.QuantumIntegration.C230_when | propext, Classical.choice, Quot.sound |
| C230 | Verif.QuantumIntegration.C230_what | propext, Classical.choice, Quot.sound |
| C231 | Verif.QuantumIntegration.C231_temperature | propext, Classical.choice, Quot.sound |
| C231 | Verif.QuantumIntegration.C231_mass | propext, Classical.choice, Quot.sound |
| C231 | Verif.QuantumIntegration.C231_constant_violated | propext, Classical.choice, Quot.sound |
| C231 | Verif.QuantumIntegration.C231_zero_violated | propext, Classical.choice, Quot.sound |
| C232 | Verif.QuantumIntegration.C232_range | propext, Classical.choice, Quot.sound |
| C232 | Verif.QuantumIntegration.C232_cap_violated | propext, Classical.choice, Quot.sound |
| C232 | Verif.QuantumIntegration.C232_header_violated | propext, Classical.choice, Quot.sound |
| C233 | Verif.CustomDefense.C233_config | propext, Quot.sound |
| C233 | Verif.CustomDefense.C233_harsh_violated | propext, Classical.choice, Quot.sound |
| C234 | Verif.CustomDefense.C234_register | propext, Quot.sound |
| C235 | Verif.CustomDefense.C235_custom | propext |
| C235 | Verif.CustomDefense.C235_same_violated | propext |
| C235 | Verif.CustomDefense.C235_environment | propext, Quot.sound |
| C235 | Verif.CustomDefense.C235_late_limit | propext |
| C236 | Verif.CustomDefense.C236_wrap | propext |
| C236 | Verif.CustomDefense.C236_ignored_violated | propext |
| C236 | Verif.CustomDefense.C236_accelerator | propext |
| C237 | Verif.CustomDefense.C237_nothing_violated | none |
| C237 | Verif.CustomDefense.C237_factor | propext, Quot.sound |
| C237 | Verif.CustomDefense.C237_lost_violated | propext, Quot.sound |
| C237 | Verif.CustomDefense.C237_negative_violated | propext, Quot.sound |
| C238 | Verif.CustomDefense.C238_simple | propext, Quot.sound |
| C238 | Verif.CustomDefense.C238_short_violated | propext, Classical.choice, Quot.sound |
| C238 | Verif.CustomDefense.C238_hardened | propext, Classical.choice, Quot.sound |
| C238 | Verif.CustomDefense.C238_weights_violated | propext, Classical.choice, Quot.sound |
| C239 | Verif.CrossSection.C239_measured | propext, Classical.choice, Quot.sound |
| C239 | Verif.CrossSection.C239_validate | propext, Classical.choice, Quot.sound |
| C240 | Verif.CrossSection.C240_weibull | propext, Classical.choice, Quot.sound |
| C240 | Verif.CrossSection.C240_curve | propext, Classical.choice, Quot.sound |
| C240 | Verif.CrossSection.C240_comment_violated | propext, Classical.choice, Quot.sound |
| C241 | Verif.CrossSection.C241_fit | propext, Classical.choice, Quot.sound |
| C241 | Verif.CrossSection.C241_shape_violated | propext, Classical.choice, Quot.sound |
| C241 | Verif.CrossSection.C241_peak_violated | propext, Classical.choice, Quot.sound |
| C241 | Verif.CrossSection.C241_cap_violated | propext, Classical.choice, Quot.sound |
| C242 | Verif.CrossSection.C242_rate | propext, Classical.choice, Quot.sound |
| C242 | Verif.CrossSection.C242_technology_violated | propext, Classical.choice, Quot.sound |
| C242 | Verif.CrossSection.C242_names | none |
| C243 | Verif.ValidationTools.C243_judge | propext, Classical.choice, Quot.sound |
| C243 | Verif.ValidationTools.C243_levels | propext, Classical.choice, Quot.sound |
| C243 | Verif.ValidationTools.C243_default | propext, Classical.choice, Quot.sound |
| C243 | Verif.ValidationTools.C243_unknown_violated | propext |
| C243 | Verif.ValidationTools.C243_accuracy_violated | propext, Classical.choice, Quot.sound |
| C243 | Verif.ValidationTools.C243_names | none |
| C244 | Verif.ValidationTools.C244_summary | propext, Classical.choice, Quot.sound |
| C244 | Verif.ValidationTools.C244_verdict | propext, Classical.choice, Quot.sound |
| C244 | Verif.ValidationTools.C244_empty_violated | propext, Classical.choice, Quot.sound |
| C244 | Verif.ValidationTools.C244_missions_violated | propext |
| C244 | Verif.ValidationTools.C244_difference | propext, Classical.choice, Quot.sound |
| C245 | Verif.ValidationTools.C245_options | propext, Quot.sound |
| C245 | Verif.ValidationTools.C245_sites | propext |
| C245 | Verif.ValidationTools.C245_first_violated | propext |
| C245 | Verif.ValidationTools.C245_two_loops_violated | propext |
| C245 | Verif.ValidationTools.C245_unreadable | propext, Quot.sound |
| C246 | Verif.ValidationTools.C246_single_byte | propext, Classical.choice, Quot.sound |
| C246 | Verif.ValidationTools.C246_count | propext, Classical.choice, Quot.sound |
| C246 | Verif.ValidationTools.C246_cross_section | propext, Classical.choice, Quot.sound |
| C246 | Verif.ValidationTools.C246_two_bytes_violated | propext, Quot.sound |
| C246 | Verif.ValidationTools.C246_saturation_violated | propext, Classical.choice, Quot.sound |
| C246 | Verif.ValidationTools.C246_ratio_violated | propext, Classical.choice, Quot.sound |
| C246 | Verif.ValidationTools.C246_rate_violated | propext, Classical.choice, Quot.sound |
| C247 | Verif.ValidationTools.C247_results | propext, Classical.choice, Quot.sound |
| C247 | Verif.ValidationTools.C247_average | propext, Classical.choice, Quot.sound |
| C247 | Verif.ValidationTools.C247_verdicts | propext, Classical.choice, Quot.sound |
| C247 | Verif.ValidationTools.C247_ranking | propext, Classical.choice, Quot.sound |
| C247 | Verif.ValidationTools.C247_trials_violated | propext, Classical.choice, Quot.sound |
| C248 | Verif.ValidationTools.C248_suitable | propext, Classical.choice, Quot.sound |
| C248 | Verif.ValidationTools.C248_improvements | propext, Classical.choice, Quot.sound |
| C248 | Verif.ValidationTools.C248_unset_violated | propext, Classical.choice, Quot.sound |
| C248 | Verif.ValidationTools.C248_missing_violated | propext, Classical.choice, Quot.sound |
| C249 | Verif.NeuralAdaptive.C249_effective | propext, Classical.choice, Quot.sound |
| C249 | Verif.NeuralAdaptive.C249_environment | propext, Classical.choice, Quot.sound |
| C249 | Verif.NeuralAdaptive.C249_mode_violated | propext, Classical.choice, Quot.sound |
| C249 | Verif.NeuralAdaptive.C249_thresholds | propext, Classical.choice, Quot.sound |
| C250 | Verif.NeuralAdaptive.C250_none | propext, Classical.choice, Quot.sound |
| C250 | Verif.NeuralAdaptive.C250_hamming_violated | propext, Classical.choice, Quot.sound |
| C251 | Verif.NeuralAdaptive.C251_roundtrip | propext, Classical.choice, Quot.sound |
| C251 | Verif.NeuralAdaptive.C251_detect | propext, Classical.choice, Quot.sound |
| C251 | Verif.NeuralAdaptive.C251_odd_violated | propext, Classical.choice, Quot.sound |
| C251 | Verif.NeuralAdaptive.C251_sign_violated | propext, Classical.choice, Quot.sound |
| C252 | Verif.NeuralAdaptive.C252_shipped_violated | propext, Classical.choice, Quot.sound |
| C252 | Verif.NeuralAdaptive.C252_codec | propext, Classical.choice, Quot.sound |
| C252 | Verif.NeuralAdaptive.C252_corrected_violated | propext, Classical.choice, Quot.sound |
| C253 | Verif.NeuralAdaptive.C253_differences | propext, Classical.choice, Quot.sound |
| C253 | Verif.NeuralAdaptive.C253_history | propext, Classical.choice, Quot.sound |
| C253 | Verif.NeuralAdaptive.C253_radiate | propext, Classical.choice, Quot.sound |
| C253 | Verif.NeuralAdaptive.C253_reset_violated | propext, Classical.choice, Quot.sound |
| C253 | Verif.NeuralAdaptive.C253_overhead_violated | propext, Classical.choice, Quot.sound |
| C253 | Verif.NeuralAdaptive.C253_ratio | propext, Classical.choice, Quot.sound |
| C254 | Verif.NeuralAdaptive.C254_identify | propext, Classical.choice, Quot.sound |
| C254 | Verif.NeuralAdaptive.C254_sorted | propext, Classical.choice, Quot.sound |
| C254 | Verif.NeuralAdaptive.C254_perfect_violated | propext, Classical.choice, Quot.sound |
| C254 | Verif.NeuralAdaptive.C254_restore_violated | propext, Classical.choice, Quot.sound |
| C255 | Verif.NeuralAdaptive.C255_optimize | propext, Classical.choice, Quot.sound |
| C255 | Verif.NeuralAdaptive.C255_budget_violated | propext, Classical.choice, Quot.sound |
| C255 | Verif.NeuralAdaptive.C255_sign_violated | propext, Classical.choice, Quot.sound |
| C256 | Verif.Props.BenchP.C256_counts | propext, Classical.choice, Quot.sound |
| C256 | Verif.Props.BenchP.C256_defined | propext, Classical.choice, Quot.sound |
| C256 | Verif.Props.BenchP.C256_time_violated | propext, Classical.choice, Quot.sound |
| C257 | Verif.Props.BenchP.C257_detection_violated | propext, Classical.choice, Quot.sound |
| C257 | Verif.Props.BenchP.C257_fresh | propext, Classical.choice, Quot.sound |
| C257 | Verif.Props.BenchP.C257_enhanced_corrected | propext, Classical.choice, Quot.sound |
| C258 | Verif.Props.BenchP.C258_approximate_violated | propext, Classical.choice, Quot.sound |
| C258 | Verif.Props.BenchP.C258_byte_rounding | propext |
| C258 | Verif.Props.BenchP.C258_rate_violated | propext, Classical.choice, Quot.sound |
| C259 | Verif.Props.BenchP.C259_suite | propext, Classical.choice, Quot.sound |
| C259 | Verif.Props.BenchP.C259_defined | propext, Classical.choice, Quot.sound |
| C259 | Verif.Props.BenchP.C259_costs_violated | propext, Classical.choice, Quot.sound |
| C259 | Verif.Props.BenchP.C259_zero_violated | propext, Classical.choice, Quot.sound |
| C259 | Verif.Props.BenchP.C259_exposure_violated | propext, Classical.choice, Quot.sound |
| C259 | Verif.Props.BenchP.C259_patterned | propext |
| C260 | Verif.Props.BenchP.C260_best | propext, Classical.choice, Quot.sound |
| C260 | Verif.Props.BenchP.C260_recommendation_violated | propext, Classical.choice, Quot.sound |
| C260 | Verif.Props.BenchP.C260_suite_metrics | propext, Classical.choice, Quot.sound |
| C261 | Verif.Props.BenchP.C261_time_table | propext, Classical.choice, Quot.sound |
| C261 | Verif.Props.BenchP.C261_defined | propext, Classical.choice, Quot.sound |
| C261 | Verif.Props.BenchP.C261_short_violated | propext, Classical.choice, Quot.sound |
| C261 | Verif.Props.BenchP.C261_comparison | propext, Classical.choice, Quot.sound |
| C262 | Verif.Props.NasaRunnerP.C262_rows | propext, Classical.choice, Quot.sound |
| C262 | Verif.Props.NasaRunnerP.C262_let_violated | propext, Classical.choice, Quot.sound |
| C262 | Verif.Props.NasaRunnerP.C262_mtbf_violated | propext, Classical.choice, Quot.sound |
| C262 | Verif.Props.NasaRunnerP.C262_program | propext, Classical.choice, Quot.sound |
| C262 | Verif.Props.NasaRunnerP.C262_exit_violated | propext, Classical.choice, Quot.sound |
| C263 | Verif.Props.LetSim.C263_flux | propext, Classical.choice, Quot.sound |
| C263 | Verif.Props.LetSim.C263_altitude_violated | propext, Classical.choice, Quot.sound |
| C263 | Verif.Props.LetSim.C263_mean | propext, Classical.choice, Quot.sound |
| C263 | Verif.Props.LetSim.C263_distributions | propext, Classical.choice, Quot.sound |
| C264 | Verif.Props.LetSim.C264_empirical | propext, Classical.choice, Quot.sound |
| C264 | Verif.Props.LetSim.C264_jump_violated | propext, Classical.choice, Quot.sound |
| C265 | Verif.Props.LetSim.C265_formula | propext, Classical.choice, Quot.sound |
| C265 | Verif.Props.LetSim.C265_slow_violated | propext, Classical.choice, Quot.sound |
| C265 | Verif.Props.LetSim.C265_photon_violated | propext, Classical.choice, Quot.sound |
| C266 | Verif.Props.LetSim.C266_probability | propext, Classical.choice, Quot.sound |
| C266 | Verif.Props.LetSim.C266_temperature_violated | propext, Classical.choice, Quot.sound |
| C266 | Verif.Props.LetSim.C266_types | propext, Classical.choice, Quot.sound |
| C266 | Verif.Props.LetSim.C266_protons_violated | propext, Classical.choice, Quot.sound |
| C266 | Verif.Props.LetSim.C266_magnitude | propext, Classical.choice, Quot.sound |
| C267 | Verif.Props.LetSim.C267_simulate | propext, Classical.choice, Quot.sound |
| C267 | Verif.Props.LetSim.C267_reported | propext, Classical.choice, Quot.sound |
| C267 | Verif.Props.LetSim.C267_empty_violated | propext, Classical.choice, Quot.sound |
| C267 | Verif.Props.LetSim.C267_duration_violated | propext, Classical.choice, Quot.sound |
| C267 | Verif.Props.LetSim.C267_environment_violated | propext, Classical.choice, Quot.sound |
| C267 | Verif.Props.LetSim.C267_kinds | propext, Classical.choice, Quot.sound |
| C268 | Verif.Props.PyDef.C268_integer | propext, Classical.choice, Quot.sound |
| C268 | Verif.Props.PyDef.C268_large_violated | propext, Classical.choice, Quot.sound |
| C268 | Verif.Props.PyDef.C268_float_violated | propext, Classical.choice, Quot.sound |
| C268 | Verif.Props.PyDef.C268_types | propext, Classical.choice, Quot.sound |
| C268 | Verif.Props.PyDef.C268_unprotected | propext, Classical.choice, Quot.sound |
| C269 | Verif.Props.PyDef.C269_value | propext, Classical.choice, Quot.sound |
| C269 | Verif.Props.PyDef.C269_array | propext, Classical.choice, Quot.sound |
| C269 | Verif.Props.PyDef.C269_no_majority | propext, Classical.choice, Quot.sound |
| C269 | Verif.Props.PyDef.C269_multilayer_violated | propext, Classical.choice, Quot.sound |
| C269 | Verif.Props.PyDef.C269_multilayer_array | propext, Classical.choice, Quot.sound |
| C269 | Verif.Props.PyDef.C269_repair_violated | propext, Classical.choice, Quot.sound |
| C269 | Verif.Props.PyDef.C269_nan_violated | propext, Classical.choice, Quot.sound |
| C269 | Verif.Props.PyDef.C269_multilayer | propext, Classical.choice, Quot.sound |
| C270 | Verif.Props.PyDef.C270_repair | propext |
| C270 | Verif.Props.PyDef.C270_training_violated | propext |
| C270 | Verif.Props.PyDef.C270_forward_violated | propext, Classical.choice, Quot.sound |
| C270 | Verif.Props.PyDef.C270_execute | propext, Classical.choice, Quot.sound |
| C270 | Verif.Props.PyDef.C270_report_violated | propext, Classical.choice, Quot.sound |
| C271 | Verif.Props.PyDef.C271_ranges | propext, Classical.choice, Quot.sound |
| C271 | Verif.Props.PyDef.C271_environment | propext |
| C271 | Verif.Props.PyDef.C271_harsh_violated | propext, Classical.choice, Quot.sound |
| C271 | Verif.Props.PyDef.C271_update | none |
| C272 | Verif.Props.TestRs.C272_decode | propext, Classical.choice, Quot.sound |
| C272 | Verif.Props.TestRs.C272_encode | propext, Quot.sound |
| C272 | Verif.Props.TestRs.C272_roundtrip_violated | propext, Classical.choice, Quot.sound |
| C272 | Verif.Props.TestRs.C272_correction_violated | propext, Classical.choice, Quot.sound |
| C272 | Verif.Props.TestRs.C272_multiply_violated | propext, Quot.sound |
| C272 | Verif.Props.TestRs.C272_doubling | propext, Quot.sound |
| C273 | Verif.Props.PyRs.C273_field | propext, Classical.choice, Quot.sound |
| C274 | Verif.Props.PyRs.C274_roundtrip | propext, Classical.choice, Quot.sound |
| C274 | Verif.Props.PyRs.C274_detect | propext, Classical.choice, Quot.sound |
| C274 | Verif.Props.PyRs.C274_correction_violated | propext, Classical.choice, Quot.sound |
| C275 | Verif.Props.PyMethods.C275_code | propext, Classical.choice, Quot.sound |
| C275 | Verif.Props.PyMethods.C275_single | propext, Classical.choice, Quot.sound |
| C275 | Verif.Props.PyMethods.C275_double_limit | propext, Classical.choice, Quot.sound |
| C276 | Verif.Props.PyMethods.C276_single_partial | propext, Classical.choice, Quot.sound |
| C276 | Verif.Props.PyMethods.C276_single_violated | propext, Classical.choice, Quot.sound |
| C276 | Verif.Props.PyMethods.C276_double_violated | propext, Classical.choice, Quot.sound |
| C277 | Verif.Props.PyMethods.C277_tmr | propext, Classical.choice, Quot.sound |
| C277 | Verif.Props.PyMethods.C277_tmr_limit | propext, Classical.choice, Quot.sound |
| C277 | Verif.Props.PyMethods.C277_none | propext, Quot.sound |
| C278 | Verif.Props.PyMethods.C278_rs_violated | propext, Classical.choice, Quot.sound |
| C278 | Verif.Props.PyMethods.C278_hybrid | propext, Quot.sound |
| C278 | Verif.Props.PyMethods.C278_first | propext, Quot.sound |
| C278 | Verif.Props.PyMethods.C278_hybrid_violated | propext, Classical.choice, Quot.sound |
| C278 | Verif.Props.PyMethods.C278_overhead_violated | propext, Classical.choice, Quot.sound |
| C278 | Verif.Props.PyMethods.C278_choice | propext, Quot.sound |
| C279 | Verif.Props.RsTests.C279_field | propext, Classical.choice, Quot.sound |
| C279 | Verif.Props.RsTests.C279_order_violated | propext |
| C280 | Verif.Props.RsTests.C280_roundtrip | propext, Quot.sound |
| C280 | Verif.Props.RsTests.C280_unchanged | propext, Quot.sound |
| C280 | Verif.Props.RsTests.C280_correction_violated | propext, Classical.choice, Quot.sound |
| C280 | Verif.Props.RsTests.C280_check_bytes | propext, Quot.sound |
| C281 | Verif.Props.RsTests.C281_minimal_violated | propext, Quot.sound |
| C281 | Verif.Props.RsTests.C281_stub_violated | propext, Quot.sound |
| C282 | Verif.Props.Materials.C282_factor | propext, Classical.choice, Quot.sound |
| C282 | Verif.Props.Materials.C282_database | propext, Classical.choice, Quot.sound |
| C282 | Verif.Props.Materials.C282_order | propext, Classical.choice, Quot.sound |
| C282 | Verif.Props.Materials.C282_names_violated | propext, Classical.choice, Quot.sound |
| C283 | Verif.Props.Materials.C283_environment | propext, Classical.choice, Quot.sound |
| C284 | Verif.Props.Facade.C284_history | propext, Quot.sound |
| C284 | Verif.Props.Facade.C284_room | propext, Classical.choice, Quot.sound |
| C284 | Verif.Props.Facade.C284_initialize | propext, Quot.sound |
| C284 | Verif.Props.Facade.C284_default_level_violated | propext, Classical.choice, Quot.sound |
| C284 | Verif.Props.Facade.C284_shutdown_violated | propext |
| C284 | Verif.Props.Facade.C284_overflow_violated | propext, Classical.choice, Quot.sound |
| C284 | Verif.Props.Facade.C284_messages | propext, Quot.sound |
| C285 | Verif.Props.MonteCarlo.C285_channel | propext, Classical.choice, Quot.sound |
| C285 | Verif.Props.MonteCarlo.C285_counter | propext, Classical.choice, Quot.sound |
| C286 | Verif.Props.MonteCarlo.C286_counts | propext, Classical.choice, Quot.sound |
| C286 | Verif.Props.MonteCarlo.C286_interval | propext, Classical.choice, Quot.sound |
| C286 | Verif.Props.MonteCarlo.C286_interval_limit | propext, Classical.choice, Quot.sound |
| C286 | Verif.Props.MonteCarlo.C286_row | propext, Classical.choice, Quot.sound |
| C286 | Verif.Props.MonteCarlo.C286_threshold | propext, Classical.choice, Quot.sound |
| C286 | Verif.Props.MonteCarlo.C286_correction_violated | propext, Classical.choice, Quot.sound |
| C287 | Verif.Props.Visualizer.C287_rate | propext, Classical.choice, Quot.sound |
| C287 | Verif.Props.Visualizer.C287_monotone | propext, Classical.choice, Quot.sound |
| C287 | Verif.Props.Visualizer.C287_table | propext, Classical.choice, Quot.sound |
| C288 | Verif.Props.Visualizer.C288_report | propext, Classical.choice, Quot.sound |
| C288 | Verif.Props.Visualizer.C288_level_violated | propext, Classical.choice, Quot.sound |
| C288 | Verif.Props.Visualizer.C288_corrections_violated | propext, Classical.choice, Quot.sound |
| C288 | Verif.Props.Visualizer.C288_errors_violated | propext, Classical.choice, Quot.sound |
| C288 | Verif.Props.Visualizer.C288_names | propext, Classical.choice, Quot.sound |
| C289 | Verif.Props.Industry.C289_impact | propext, Classical.choice, Quot.sound |
| C289 | Verif.Props.Industry.C289_accuracy | propext, Classical.choice, Quot.sound |
| C289 | Verif.Props.Industry.C289_monotone | propext, Classical.choice, Quot.sound |
| C289 | Verif.Props.Industry.C289_reference | propext, Classical.choice, Quot.sound |
| C290 | Verif.Props.Industry.C290_verdict | propext, Classical.choice, Quot.sound |
| C290 | Verif.Props.Industry.C290_summary | propext, Classical.choice, Quot.sound |
| C290 | Verif.Props.Industry.C290_rating | propext, Classical.choice, Quot.sound |
| C290 | Verif.Props.Industry.C290_measured_violated | propext, Classical.choice, Quot.sound |
| C290 | Verif.Props.Industry.C290_exposure_violated | propext, Classical.choice, Quot.sound |
| C290 | Verif.Props.Industry.C290_unused_limit | propext, Classical.choice, Quot.sound |
| C290 | Verif.Props.Industry.C290_percentage | propext, Classical.choice, Quot.sound |
| C291 | Verif.Props.MissionValidation.C291_factor | propext, Classical.choice, Quot.sound |
| C291 | Verif.Props.MissionValidation.C291_vulnerability | propext, Classical.choice, Quot.sound |
| C291 | Verif.Props.MissionValidation.C291_score_monotone | propext, Classical.choice, Quot.sound |
| C291 | Verif.Props.MissionValidation.C291_level | propext, Classical.choice, Quot.sound |
| C291 | Verif.Props.MissionValidation.C291_predominant | propext, Classical.choice, Quot.sound |
| C291 | Verif.Props.MissionValidation.C291_resource | propext, Classical.choice, Quot.sound |
| C291 | Verif.Props.MissionValidation.C291_full_limit | propext, Classical.choice, Quot.sound |
| C292 | Verif.Props.MissionValidation.C292_rate | propext, Classical.choice, Quot.sound |
| C292 | Verif.Props.MissionValidation.C292_rate_monotone | propext, Classical.choice, Quot.sound |
| C292 | Verif.Props.MissionValidation.C292_verdict | propext, Classical.choice, Quot.sound |
| C292 | Verif.Props.MissionValidation.C292_phases | propext, Quot.sound |
| C292 | Verif.Props.MissionValidation.C292_worst | propext, Classical.choice, Quot.sound |
| C292 | Verif.Props.MissionValidation.C292_clean_violated | propext, Classical.choice, Quot.sound |
| C292 | Verif.Props.MissionValidation.C292_negative_violated | propext, Classical.choice, Quot.sound |
| C292 | Verif.Props.MissionValidation.C292_run | propext, Classical.choice, Quot.sound |
| C292 | Verif.Props.MissionValidation.C292_tables | propext, Classical.choice, Quot.sound |
| C292 | Verif.Props.MissionValidation.C292_assessment | propext, Classical.choice, Quot.sound |
| C293 | Verif.Props.EnhancementComparison.C293_ranges | propext, Classical.choice, Quot.sound |
| C293 | Verif.Props.EnhancementComparison.C293_monotone | propext, Classical.choice, Quot.sound |
| C293 | Verif.Props.EnhancementComparison.C293_master_switch | propext, Classical.choice, Quot.sound |
| C293 | Verif.Props.EnhancementComparison.C293_enhanced | propext, Classical.choice, Quot.sound |
| C293 | Verif.Props.EnhancementComparison.C293_always_better | propext, Classical.choice, Quot.sound |
| C293 | Verif.Props.EnhancementComparison.C293_passes | propext, Classical.choice, Quot.sound |
| C293 | Verif.Props.EnhancementComparison.C293_unused_settings_limit | propext, Classical.choice, Quot.sound |
| C293 | Verif.Props.EnhancementComparison.C293_accuracy_range_limit | propext, Classical.choice, Quot.sound |
| C294 | Verif.Props.EnhancementComparison.C294_averages | propext, Classical.choice, Quot.sound |
| C294 | Verif.Props.EnhancementComparison.C294_improvements | propext, Classical.choice, Quot.sound |
| C294 | Verif.Props.EnhancementComparison.C294_resource_power | propext, Classical.choice, Quot.sound |
| C294 | Verif.Props.EnhancementComparison.C294_always_positive | propext, Classical.choice, Quot.sound |
| C294 | Verif.Props.EnhancementComparison.C294_suitability | propext, Classical.choice, Quot.sound |
| C294 | Verif.Props.EnhancementComparison.C294_printed | propext, Classical.choice, Quot.sound |
| C294 | Verif.Props.EnhancementComparison.C294_second_program | propext, Classical.choice, Quot.sound |
| C294 | Verif.Props.EnhancementComparison.C294_second_averages | propext, Classical.choice, Quot.sound |
| C294 | Verif.Props.EnhancementComparison.C294_programs_agree | propext, Classical.choice, Quot.sound |
| C295 | Verif.Props.StressTest.C295_count_events | propext, Quot.sound |
| C295 | Verif.Props.StressTest.C295_events_add_up | propext, Classical.choice, Quot.sound |
| C295 | Verif.Props.StressTest.C295_errors_add_up | propext, Classical.choice, Quot.sound |
| C295 | Verif.Props.StressTest.C295_report_spacing | propext, Classical.choice, Quot.sound |
| C295 | Verif.Props.StressTest.C295_report | propext, Classical.choice, Quot.sound |
| C295 | Verif.Props.StressTest.C295_corrected_counts_all | propext, Classical.choice, Quot.sound |
| C295 | Verif.Props.StressTest.C295_uncorrectable_partial | propext, Classical.choice, Quot.sound |
| C295 | Verif.Props.StressTest.C295_uncorrectable_violated | propext, Classical.choice, Quot.sound |
| C295 | Verif.Props.StressTest.C295_interval | propext, Classical.choice, Quot.sound |
| C295 | Verif.Props.StressTest.C295_ends | propext, Classical.choice, Quot.sound |
| C295 | Verif.Props.StressTest.C295_one_second_limit | propext, Classical.choice, Quot.sound |
| C295 | Verif.Props.StressTest.C295_simulated_time_limit | propext, Classical.choice, Quot.sound |
| C296 | Verif.Props.StressTest.C296_recovery_partial | propext, Classical.choice, Quot.sound |
| C296 | Verif.Props.StressTest.C296_recovery_violated | propext, Classical.choice, Quot.sound |
| C296 | Verif.Props.StressTest.C296_verdict | propext, Classical.choice, Quot.sound |
| C296 | Verif.Props.StressTest.C296_shares | propext, Classical.choice, Quot.sound |
| C296 | Verif.Props.StressTest.C296_integrity | propext, Classical.choice, Quot.sound |
| C296 | Verif.Props.StressTest.C296_csv | propext |
| C296 | Verif.Props.StressTest.C296_csv_violated | propext, Classical.choice, Quot.sound |
| C296 | Verif.Props.StressTest.C296_duration | propext, Classical.choice, Quot.sound |
| C297 | Verif.Props.StressTest.C297_adaptive_violated | propext, Classical.choice, Quot.sound |
| C297 | Verif.Props.StressTest.C297_adaptive_passes | propext, Classical.choice, Quot.sound |
| C297 | Verif.Props.StressTest.C297_environment_violated | propext, Classical.choice, Quot.sound |
| C297 | Verif.Props.StressTest.C297_repair_all | propext, Classical.choice, Quot.sound |
| C297 | Verif.Props.StressTest.C297_recovery | propext, Classical.choice, Quot.sound |
| C297 | Verif.Props.StressTest.C297_recovery_violated | propext, Classical.choice, Quot.sound |
| C298 | Verif.Props.RadStress.C298_vote | propext, Classical.choice, Quot.sound |
| C298 | Verif.Props.RadStress.C298_forward | propext, Classical.choice, Quot.sound |
| C298 | Verif.Props.RadStress.C298_repair_violated | propext, Classical.choice, Quot.sound |
| C298 | Verif.Props.RadStress.C298_flips | propext, Classical.choice, Quot.sound |
| C299 | Verif.Props.RadStress.C299_vote_counter | propext, Classical.choice, Quot.sound |
| C299 | Verif.Props.RadStress.C299_totals | propext, Classical.choice, Quot.sound |
| C299 | Verif.Props.RadStress.C299_clean_violated | propext, Classical.choice, Quot.sound |
| C300 | Verif.Props.RadStress.C300_saturated | propext, Classical.choice, Quot.sound |
| C300 | Verif.Props.RadStress.C300_test | propext, Classical.choice, Quot.sound |
| C300 | Verif.Props.RadStress.C300_reference_violated | propext, Classical.choice, Quot.sound |
| C300 | Verif.Props.RadStress.C300_inputs_violated | propext, Classical.choice, Quot.sound |
| C301 | Verif.Props.EnhMC.C301_rate | propext, Classical.choice, Quot.sound |
| C301 | Verif.Props.EnhMC.C301_errorfree | propext, Classical.choice, Quot.sound |
| C301 | Verif.Props.EnhMC.C301_rs_violated | propext, Classical.choice, Quot.sound |
| C301 | Verif.Props.EnhMC.C301_results | propext, Classical.choice, Quot.sound |
| C302 | Verif.Props.EnhMC.C302_rows | propext, Classical.choice, Quot.sound |
| C302 | Verif.Props.EnhMC.C302_order_violated | propext, Classical.choice, Quot.sound |
| C302 | Verif.Props.EnhMC.C302_columns_violated | propext, Classical.choice, Quot.sound |
| C302 | Verif.Props.EnhMC.C302_columns | propext, Classical.choice, Quot.sound |
| C303 | Verif.Props.EnhMC.C303_recommendation | propext, Classical.choice, Quot.sound |
| C303 | Verif.Props.EnhMC.C303_drift_violated | propext, Classical.choice, Quot.sound |
| C303 | Verif.Props.EnhMC.C303_empty_violated | propext, Classical.choice, Quot.sound |
| C304 | Verif.Props.MissionSim.C304_majority | propext, Classical.choice, Quot.sound |
| C304 | Verif.Props.MissionSim.C304_vote_violated | propext, Classical.choice, Quot.sound |
| C304 | Verif.Props.MissionSim.C304_hull | propext, Classical.choice, Quot.sound |
| C304 | Verif.Props.MissionSim.C304_weighted | propext, Classical.choice, Quot.sound |
| C304 | Verif.Props.MissionSim.C304_selective | propext, Classical.choice, Quot.sound |
| C304 | Verif.Props.MissionSim.C304_selective_violated | propext, Classical.choice, Quot.sound |
| C305 | Verif.Props.MissionSim.C305_reliabilities | propext, Classical.choice, Quot.sound |
| C305 | Verif.Props.MissionSim.C305_floor | propext, Classical.choice, Quot.sound |
| C305 | Verif.Props.MissionSim.C305_decrease_violated | propext, Classical.choice, Quot.sound |
| C306 | Verif.Props.MissionSim.C306_answer | propext, Classical.choice, Quot.sound |
| C306 | Verif.Props.MissionSim.C306_selection_limit | propext, Classical.choice, Quot.sound |
| C306 | Verif.Props.MissionSim.C306_distribution_violated | propext, Classical.choice, Quot.sound |
| C306 | Verif.Props.MissionSim.C306_range | propext, Classical.choice, Quot.sound |
| C306 | Verif.Props.MissionSim.C306_similar | propext, Classical.choice, Quot.sound |
| C307 | Verif.Props.MissionSim.C307_data | propext, Classical.choice, Quot.sound |
| C307 | Verif.Props.MissionSim.C307_days | propext, Classical.choice, Quot.sound |
| C307 | Verif.Props.MissionSim.C307_environments | propext, Classical.choice, Quot.sound |
| C307 | Verif.Props.MissionSim.C307_level | propext, Classical.choice, Quot.sound |
| C307 | Verif.Props.MissionSim.C307_violated | propext, Classical.choice, Quot.sound |
| C308 | Verif.Props.MissionSim.C308_estimates | propext, Classical.choice, Quot.sound |
| C308 | Verif.Props.MissionSim.C308_worst | propext, Classical.choice, Quot.sound |
| C308 | Verif.Props.MissionSim.C308_verdicts_violated | propext, Classical.choice, Quot.sound |
| C308 | Verif.Props.MissionSim.C308_inputs_violated | propext, Classical.choice, Quot.sound |
| C308 | Verif.Props.MissionSim.C308_vulnerability | propext, Classical.choice, Quot.sound |
| C308 | Verif.Props.MissionSim.C308_ratings | propext, Classical.choice, Quot.sound |
| C309 | Verif.Props.SimpleMC.C309_correct_two | propext, Classical.choice, Quot.sound |
| C309 | Verif.Props.SimpleMC.C309_correct_fails | propext, Classical.choice, Quot.sound |
| C309 | Verif.Props.SimpleMC.C309_check_plain | propext, Classical.choice, Quot.sound |
| C309 | Verif.Props.SimpleMC.C309_check_plain_useless_violated | propext, Classical.choice, Quot.sound |
| C309 | Verif.Props.SimpleMC.C309_check_plain_single_violated | propext, Classical.choice, Quot.sound |
| C309 | Verif.Props.SimpleMC.C309_check_sum_single | propext, Classical.choice, Quot.sound |
| C309 | Verif.Props.SimpleMC.C309_check_sum_cancels_limit | propext, Classical.choice, Quot.sound |
| C310 | Verif.Props.SimpleMC.C310_values_survive | propext, Classical.choice, Quot.sound |
| C310 | Verif.Props.SimpleMC.C310_flips_counted | propext, Classical.choice, Quot.sound |
| C310 | Verif.Props.SimpleMC.C310_plain_flips | propext, Classical.choice, Quot.sound |
| C310 | Verif.Props.SimpleMC.C310_minimal_blind_violated | propext, Classical.choice, Quot.sound |
| C310 | Verif.Props.SimpleMC.C310_enhanced_counts | propext, Classical.choice, Quot.sound |
| C310 | Verif.Props.SimpleMC.C310_counts_ordered | propext, Classical.choice, Quot.sound |
| C310 | Verif.Props.SimpleMC.C310_own_draws | propext, Classical.choice, Quot.sound |
| C311 | Verif.Props.SimpleMC.C311_trial_accuracy | propext, Classical.choice, Quot.sound |
| C311 | Verif.Props.SimpleMC.C311_rows_constant | propext, Classical.choice, Quot.sound |
| C311 | Verif.Props.SimpleMC.C311_other_baseline_violated | propext, Classical.choice, Quot.sound |
| C311 | Verif.Props.SimpleMC.C311_row_averages | propext, Classical.choice, Quot.sound |
| C311 | Verif.Props.SimpleMC.C311_correction_rate_range | propext, Classical.choice, Quot.sound |
| C311 | Verif.Props.SimpleMC.C311_minimal_rate_violated | propext, Classical.choice, Quot.sound |
| C311 | Verif.Props.SimpleMC.C311_sustainable_largest | propext, Classical.choice, Quot.sound |
| C311 | Verif.Props.SimpleMC.C311_sustainable_gap_violated | propext, Classical.choice, Quot.sound |
| C311 | Verif.Props.SimpleMC.C311_sustainable_all_or_nothing | propext, Classical.choice, Quot.sound |
| C311 | Verif.Props.SimpleMC.C311_label_range | propext, Classical.choice, Quot.sound |
| C312 | Verif.Props.TmrDemo.C312_value_two | propext |
| C312 | Verif.Props.TmrDemo.C312_correct_single | propext, Quot.sound |
| C312 | Verif.Props.TmrDemo.C312_correct_false | propext, Quot.sound |
| C312 | Verif.Props.TmrDemo.C312_intact_single | propext, Quot.sound |
| C312 | Verif.Props.TmrDemo.C312_nan_never_intact_limit | propext, Classical.choice, Quot.sound |
| C312 | Verif.Props.TmrDemo.C312_all_differ_first_limit | propext |
| C313 | Verif.Props.TmrDemo.C313_flip_one_bit | propext, Classical.choice, Quot.sound |
| C313 | Verif.Props.TmrDemo.C313_flip_changes | propext, Classical.choice, Quot.sound |
| C313 | Verif.Props.TmrDemo.C313_flip_out_of_range | propext, Quot.sound |
| C313 | Verif.Props.TmrDemo.C313_lower_bits_are_upper_violated | propext, Classical.choice, Quot.sound |
| C313 | Verif.Props.TmrDemo.C313_flip_differs | propext, Classical.choice, Quot.sound |
| C313 | Verif.Props.TmrDemo.C313_zero_sign_limit | propext, Quot.sound |
| C313 | Verif.Props.TmrDemo.C313_float_rounds_limit | propext, Quot.sound |
| C314 | Verif.Props.TmrDemo.C314_test_verdict | propext, Classical.choice, Quot.sound |
| C314 | Verif.Props.TmrDemo.C314_counters_partition | propext, Quot.sound |
| C314 | Verif.Props.TmrDemo.C314_never_fails | propext, Classical.choice, Quot.sound |
| C314 | Verif.Props.TmrDemo.C314_scripts_disagree_limit | propext, Quot.sound |
| C315 | Verif.Props.NeuralMission.C315_sampled_exactly | propext, Quot.sound |
| C315 | Verif.Props.NeuralMission.C315_sampled_order | propext, Quot.sound |
| C315 | Verif.Props.NeuralMission.C315_sampled_count | propext, Classical.choice, Quot.sound |
| C315 | Verif.Props.NeuralMission.C315_three_announced_violated | propext, Classical.choice, Quot.sound |
| C315 | Verif.Props.NeuralMission.C315_phase_near_sample | propext, Quot.sound |
| C315 | Verif.Props.NeuralMission.C315_surface_skipped_violated | propext, Classical.choice, Quot.sound |
| C316 | Verif.Props.NeuralMission.C316_forward_outputs | propext, Classical.choice, Quot.sound |
| C316 | Verif.Props.NeuralMission.C316_error_detected | propext, Classical.choice, Quot.sound |
| C316 | Verif.Props.NeuralMission.C316_sample_extremes | propext, Classical.choice, Quot.sound |
| C316 | Verif.Props.NeuralMission.C316_sign_only_violated | propext, Classical.choice, Quot.sound |
| C317 | Verif.Props.NeuralMission.C317_tally | propext, Classical.choice, Quot.sound |
| C317 | Verif.Props.NeuralMission.C317_rates | propext, Classical.choice, Quot.sound |
| C317 | Verif.Props.NeuralMission.C317_last_of_name | propext, Classical.choice, Quot.sound |
| C317 | Verif.Props.NeuralMission.C317_same_name_violated | propext, Classical.choice, Quot.sound |
| C317 | Verif.Props.NeuralMission.C317_most_vulnerable | propext, Classical.choice, Quot.sound |
| C317 | Verif.Props.NeuralMission.C317_profile | propext |
| C318 | Verif.Props.SpaceVal.C318_apply_pattern | propext, Classical.choice, Quot.sound |
| C318 | Verif.Props.SpaceVal.C318_injected | propext, Classical.choice, Quot.sound |
| C318 | Verif.Props.SpaceVal.C318_effective | propext, Classical.choice, Quot.sound |
| C318 | Verif.Props.SpaceVal.C318_two_errors_differ | propext, Classical.choice, Quot.sound |
| C318 | Verif.Props.SpaceVal.C318_untouched | propext, Quot.sound |
| C318 | Verif.Props.SpaceVal.C318_copies_violated | propext, Classical.choice, Quot.sound |
| C319 | Verif.Props.SpaceVal.C319_detected_iff | propext |
| C319 | Verif.Props.SpaceVal.C319_actual_iff | propext |
| C319 | Verif.Props.SpaceVal.C319_corrected | propext |
| C319 | Verif.Props.SpaceVal.C319_all_corrupted | propext |
| C319 | Verif.Props.SpaceVal.C319_repair_same_status | propext, Quot.sound |
| C319 | Verif.Props.SpaceVal.C319_trial_counts | propext, Classical.choice, Quot.sound |
| C320 | Verif.Props.SpaceVal.C320_books | propext, Classical.choice, Quot.sound |
| C320 | Verif.Props.SpaceVal.C320_repair_never_violated | propext, Classical.choice, Quot.sound |
| C320 | Verif.Props.SpaceVal.C320_report_exact | propext, Classical.choice, Quot.sound |
| C320 | Verif.Props.SpaceVal.C320_detection_rate | propext, Classical.choice, Quot.sound |
| C320 | Verif.Props.SpaceVal.C320_rates | propext, Classical.choice, Quot.sound |
| C320 | Verif.Props.SpaceVal.C320_int32 | propext, Classical.choice, Quot.sound |
| C320 | Verif.Props.SpaceVal.C320_float32 | propext, Classical.choice, Quot.sound |
| C320 | Verif.Props.SpaceVal.C320_printed_success_violated | propext, Classical.choice, Quot.sound |
| C320 | Verif.Props.SpaceVal.C320_performance_violated | propext, Classical.choice, Quot.sound |
| C320 | Verif.Props.SpaceVal.C320_categories_violated | propext, Quot.sound |
| C321 | Verif.Props.SysFault.C321_indices | propext, Quot.sound |
| C321 | Verif.Props.SysFault.C321_injection_effect | propext, Quot.sound |
| C321 | Verif.Props.SysFault.C321_diverges_violated | propext, Quot.sound |
| C322 | Verif.Props.SysFault.C322_masked | propext, Quot.sound |
| C322 | Verif.Props.SysFault.C322_unprotected | propext, Quot.sound |
| C322 | Verif.Props.SysFault.C322_accumulation_violated | propext, Quot.sound |
| C323 | Verif.Props.SysFault.C323_reported | propext, Quot.sound |
| C323 | Verif.Props.SysFault.C323_corrected_count | propext, Classical.choice, Quot.sound |
| C323 | Verif.Props.SysFault.C323_rate_violated | propext, Classical.choice, Quot.sound |
| C323 | Verif.Props.SysFault.C323_rate_unprotected | propext, Classical.choice, Quot.sound |
| C323 | Verif.Props.SysFault.C323_affected_le | propext, Classical.choice, Quot.sound |
| C323 | Verif.Props.SysFault.C323_detected_violated | propext, Classical.choice, Quot.sound |
| C324 | Verif.Props.RealisticSpace.C324_dose_between | propext, Classical.choice, Quot.sound |
| C324 | Verif.Props.RealisticSpace.C324_dose_node | propext, Classical.choice, Quot.sound |
| C324 | Verif.Props.RealisticSpace.C324_dose_linear | propext, Classical.choice, Quot.sound |
| C324 | Verif.Props.RealisticSpace.C324_dose_outside | propext, Classical.choice, Quot.sound |
| C324 | Verif.Props.RealisticSpace.C324_dose_antitone | propext, Classical.choice, Quot.sound |
| C324 | Verif.Props.RealisticSpace.C324_dose_map | propext, Classical.choice, Quot.sound |
| C324 | Verif.Props.RealisticSpace.C324_dose_empty_limit | propext, Classical.choice, Quot.sound |
| C324 | Verif.Props.RealisticSpace.C324_dose_program | propext, Classical.choice, Quot.sound |
| C325 | Verif.Props.RealisticSpace.C325_factor_value | propext, Classical.choice, Quot.sound |
| C325 | Verif.Props.RealisticSpace.C325_factor_antitone | propext, Classical.choice, Quot.sound |
| C325 | Verif.Props.RealisticSpace.C325_seu_reference | propext, Classical.choice, Quot.sound |
| C325 | Verif.Props.RealisticSpace.C325_seu_space | propext, Classical.choice, Quot.sound |
| C325 | Verif.Props.RealisticSpace.C325_seu_antitone | propext, Classical.choice, Quot.sound |
| C325 | Verif.Props.RealisticSpace.C325_validation_violated | propext, Classical.choice, Quot.sound |
| C326 | Verif.Props.RealisticSpace.C326_errors_bit | propext, Classical.choice, Quot.sound |
| C326 | Verif.Props.RealisticSpace.C326_errors_value | propext, Classical.choice, Quot.sound |
| C326 | Verif.Props.RealisticSpace.C326_errors_none | propext, Classical.choice, Quot.sound |
| C326 | Verif.Props.RealisticSpace.C326_errors_monotone | propext, Classical.choice, Quot.sound |
| C326 | Verif.Props.RealisticSpace.C326_errors_extremes | propext, Classical.choice, Quot.sound |
| C326 | Verif.Props.RealisticSpace.C326_errors_granularity_violated | propext, Classical.choice, Quot.sound |
| C327 | Verif.Props.RealisticSpace.C327_corrupt_index | propext, Quot.sound |
| C327 | Verif.Props.RealisticSpace.C327_read_intact | propext, Classical.choice, Quot.sound |
| C327 | Verif.Props.RealisticSpace.C327_read_common_limit | propext, Classical.choice, Quot.sound |
| C327 | Verif.Props.RealisticSpace.C327_trial_iff | propext, Classical.choice, Quot.sound |
| C327 | Verif.Props.RealisticSpace.C327_float_comparable | propext, Classical.choice, Quot.sound |
| C327 | Verif.Props.RealisticSpace.C327_successes_antitone | propext, Classical.choice, Quot.sound |
| C327 | Verif.Props.RealisticSpace.C327_rates_ordered | propext, Classical.choice, Quot.sound |
| C327 | Verif.Props.RealisticSpace.C327_read_pair | propext, Classical.choice, Quot.sound |
| C328 | Verif.Props.RealisticSpace.C328_radius_eq | propext, Classical.choice, Quot.sound |
| C328 | Verif.Props.RealisticSpace.C328_latitude_violated | propext, Classical.choice, Quot.sound |
| C328 | Verif.Props.RealisticSpace.C328_hemisphere_violated | propext, Classical.choice, Quot.sound |
| C328 | Verif.Props.RealisticSpace.C328_latitude_le | propext, Classical.choice, Quot.sound |
| C328 | Verif.Props.RealisticSpace.C328_radius_between | propext, Classical.choice, Quot.sound |
| C328 | Verif.Props.RealisticSpace.C328_kepler_residual | propext, Classical.choice, Quot.sound |
| C328 | Verif.Props.RealisticSpace.C328_kepler_program | propext, Classical.choice, Quot.sound |
| C328 | Verif.Props.RealisticSpace.C328_axis_bounds | propext, Classical.choice, Quot.sound |
| C328 | Verif.Props.RealisticSpace.C328_orbit_range | propext, Classical.choice, Quot.sound |
| C328 | Verif.Props.RealisticSpace.C328_never_polar_violated | propext, Classical.choice, Quot.sound |
| C328 | Verif.Props.RealisticSpace.C328_true_anomaly | propext, Classical.choice, Quot.sound |
| C329 | Verif.Props.RealisticSpace.C329_comparison_violated | propext, Classical.choice, Quot.sound |
| C329 | Verif.Props.RealisticSpace.C329_upset_exists | propext, Classical.choice, Quot.sound |
| C329 | Verif.Props.RealisticSpace.C329_program_violated | propext, Classical.choice, Quot.sound |
| C330 | Verif.Props.RealisticSpace.C330_cell_contains | propext, Classical.choice, Quot.sound |
| C330 | Verif.Props.RealisticSpace.C330_cell_dropped_limit | propext, Classical.choice, Quot.sound |
| C330 | Verif.Props.RealisticSpace.C330_symbol_legend | propext, Classical.choice, Quot.sound |
| C330 | Verif.Props.RealisticSpace.C330_outline_violated | propext, Classical.choice, Quot.sound |
| C330 | Verif.Props.RealisticSpace.C330_regions_partition | propext, Classical.choice, Quot.sound |
| C330 | Verif.Props.RealisticSpace.C330_region_line | propext, Classical.choice, Quot.sound |
| C330 | Verif.Props.RealisticSpace.C330_polar_empty | propext, Classical.choice, Quot.sound |
| C330 | Verif.Props.RealisticSpace.C330_table_dose_violated | propext, Classical.choice, Quot.sound |
| C331 | Verif.Props.LeoMission.C331_flux | propext, Classical.choice, Quot.sound |
| C332 | Verif.Props.LeoMission.C332_peak | propext, Classical.choice, Quot.sound |
| C332 | Verif.Props.LeoMission.C332_saa_violated | propext, Classical.choice, Quot.sound |
| C333 | Verif.Props.LeoMission.C333_range | propext, Classical.choice, Quot.sound |
| C333 | Verif.Props.LeoMission.C333_electron | propext, Classical.choice, Quot.sound |
| C333 | Verif.Props.LeoMission.C333_literature_violated | propext, Classical.choice, Quot.sound |
| C334 | Verif.Props.LeoMission.C334_dpa | propext, Classical.choice, Quot.sound |
| C335 | Verif.Props.LeoMission.C335_check_violated | propext, Classical.choice, Quot.sound |
| C336 | Verif.Props.ExampleDetails.C336_forced | propext, Classical.choice, Quot.sound |
| C336 | Verif.Props.LeoMission.C336_above | propext, Classical.choice, Quot.sound |
| C336 | Verif.Props.LeoMission.C336_proton_violated | propext, Classical.choice, Quot.sound |
| C336 | Verif.Props.LeoMission.C336_electron_violated | propext, Classical.choice, Quot.sound |
| C336 | Verif.Props.LeoMission.C336_heavy | propext, Classical.choice, Quot.sound |
| C337 | Verif.Props.LeoMission.C337_totals | propext, Classical.choice, Quot.sound |
| C337 | Verif.Props.LeoMission.C337_energy | propext, Classical.choice, Quot.sound |
| C337 | Verif.Props.LeoMission.C337_enhancement_violated | propext, Classical.choice, Quot.sound |
| C338 | Verif.Props.Extreme.C338_basic | propext |
| C338 | Verif.Props.Extreme.C338_health | propext, Classical.choice, Quot.sound |
| C338 | Verif.Props.Extreme.C338_approximate | propext |
| C338 | Verif.Props.Extreme.C338_no_majority | propext, Classical.choice, Quot.sound |
| C339 | Verif.Props.Extreme.C339_reward | propext, Classical.choice, Quot.sound |
| C339 | Verif.Props.Extreme.C339_unchanged | propext, Classical.choice, Quot.sound |
| C339 | Verif.Props.Extreme.C339_range | propext, Classical.choice, Quot.sound |
| C340 | Verif.Props.Extreme.C340_limit_value | propext, Classical.choice, Quot.sound |
| C340 | Verif.Props.Extreme.C340_store | propext, Classical.choice, Quot.sound |
| C340 | Verif.Props.Extreme.C340_negative_violated | propext |
| C340 | Verif.Props.Extreme.C340_masked | propext, Classical.choice, Quot.sound |
| C340 | Verif.Props.Extreme.C340_exposed_violated | propext, Classical.choice, Quot.sound |
| C341 | Verif.Props.Extreme.C341_single | propext, Quot.sound |
| C341 | Verif.Props.Extreme.C341_multi | propext, Classical.choice, Quot.sound |
| C341 | Verif.Props.Extreme.C341_multi_violated | propext, Classical.choice, Quot.sound |
| C341 | Verif.Props.Extreme.C341_stuck | propext, Classical.choice, Quot.sound |
| C341 | Verif.Props.Extreme.C341_severe | propext, Quot.sound |
| C341 | Verif.Props.Extreme.C341_severe_limit | propext, Quot.sound |
| C342 | Verif.Props.Extreme.C342_probabilities | propext, Classical.choice, Quot.sound |
| C342 | Verif.Props.Extreme.C342_order | propext, Classical.choice, Quot.sound |
| C342 | Verif.Props.Extreme.C342_draw | propext, Classical.choice, Quot.sound |
| C342 | Verif.Props.Extreme.C342_mean | propext, Classical.choice, Quot.sound |
| C343 | Verif.Props.Extreme.C343_accounting | propext, Quot.sound |
| C343 | Verif.Props.Extreme.C343_rates | propext, Classical.choice, Quot.sound |
| C343 | Verif.Props.Extreme.C343_skipped_violated | propext, Quot.sound |
| C344 | Verif.Props.Extreme.C344_repair_violated | propext, Classical.choice, Quot.sound |
| C344 | Verif.Props.Extreme.C344_reference_violated | propext, Quot.sound |
| C344 | Verif.Props.Extreme.C344_undefined_violated | propext, Quot.sound |
| C345 | Verif.Props.Extreme.C345_one_copy | propext, Classical.choice, Quot.sound |
| C345 | Verif.Props.Extreme.C345_two_copies_violated | propext, Classical.choice, Quot.sound |
| C346 | Verif.Props.Extreme.C346_best | propext, Classical.choice, Quot.sound |
| C346 | Verif.Props.Extreme.C346_tie_limit | propext, Classical.choice, Quot.sound |
| C347 | Verif.Props.FrameworkVal.C347_checks | propext |
| C347 | Verif.Props.FrameworkVal.C347_repair_violated | propext, Classical.choice, Quot.sound |
| C348 | Verif.Props.FrameworkVal.C348_levels_violated | propext, Classical.choice, Quot.sound |
| C349 | Verif.Props.FrameworkVal.C349_operation | propext, Classical.choice, Quot.sound |
| C349 | Verif.Props.FrameworkVal.C349_verdict | propext, Classical.choice, Quot.sound |
| C349 | Verif.Props.FrameworkVal.C349_unreported_violated | propext, Classical.choice, Quot.sound |
| C350 | Verif.Props.MissionCrit.C350_exec | propext, Classical.choice, Quot.sound |
| C350 | Verif.Props.MissionCrit.C350_tables | propext, Classical.choice, Quot.sound |
| C350 | Verif.Props.MissionCrit.C350_harmless_violated | propext, Classical.choice, Quot.sound |
| C351 | Verif.Props.MissionCrit.C351_length | propext, Classical.choice, Quot.sound |
| C351 | Verif.Props.MissionCrit.C351_entries | propext, Classical.choice, Quot.sound |
| C351 | Verif.Props.MissionCrit.C351_update | propext, Classical.choice, Quot.sound |
| C351 | Verif.Props.MissionCrit.C351_forward | propext, Classical.choice, Quot.sound |
| C351 | Verif.Props.MissionCrit.C351_layers | propext, Classical.choice, Quot.sound |
| C351 | Verif.Props.MissionCrit.C351_best | propext, Classical.choice, Quot.sound |
| C351 | Verif.Props.MissionCrit.C351_accuracy | propext, Classical.choice, Quot.sound |
| C352 | Verif.Props.MissionCrit.C352_samples | propext, Classical.choice, Quot.sound |
| C352 | Verif.Props.MissionCrit.C352_file_violated | propext, Classical.choice, Quot.sound |
| C353 | Verif.Props.MissionCrit.C353_schedule | propext, Classical.choice, Quot.sound |
| C353 | Verif.Props.MissionCrit.C353_start_violated | propext, Classical.choice, Quot.sound |
| C353 | Verif.Props.MissionCrit.C353_protection_partial | propext, Classical.choice, Quot.sound |
| C353 | Verif.Props.MissionCrit.C353_stuck_violated | propext, Classical.choice, Quot.sound |
| C354 | Verif.Props.MissionCrit.C354_spike_violated | propext, Classical.choice, Quot.sound |
| C354 | Verif.Props.MissionCrit.C354_overhead_violated | propext, Classical.choice, Quot.sound |
| C355 | Verif.Props.MissionCrit.C355_radiation_violated | propext, Classical.choice, Quot.sound |
| C355 | Verif.Props.MissionCrit.C355_same_violated | propext, Classical.choice, Quot.sound |
| C355 | Verif.Props.MissionCrit.C355_rate | propext, Classical.choice, Quot.sound |
| C355 | Verif.Props.MissionCrit.C355_rate_violated | propext, Classical.choice, Quot.sound |
| C356 | Verif.Props.UnitTests.C356_voting | propext |
| C356 | Verif.Props.UnitTests.C356_callback | propext, Classical.choice, Quot.sound |
| C357 | Verif.Props.UnitTests.C357_count | propext, Quot.sound |
| C357 | Verif.Props.UnitTests.C357_single_flip | propext, Quot.sound |
| C358 | Verif.Props.UnitTests.C358_resilience | propext, Classical.choice, Quot.sound |
| C358 | Verif.Props.UnitTests.C358_uncorrected_violated | propext, Classical.choice, Quot.sound |
| C358 | Verif.Props.UnitTests.C358_one_copy | propext, Classical.choice, Quot.sound |
| C359 | Verif.Props.UnitTests.C359_identity | propext, Classical.choice, Quot.sound |
| C359 | Verif.Props.UnitTests.C359_extent_violated | propext |
| C359 | Verif.Props.UnitTests.C359_edges | propext, Classical.choice, Quot.sound |
| C359 | Verif.Props.UnitTests.C359_test | propext, Classical.choice, Quot.sound |
| C360 | Verif.Props.UnitTests.C360_resilience | propext, Classical.choice, Quot.sound |
| C360 | Verif.Props.UnitTests.C360_two_copies_limit | propext, Classical.choice, Quot.sound |
| C361 | Verif.Props.MatPhys.C361_threshold | propext, Classical.choice, Quot.sound |
| C362 | Verif.Props.MatPhys.C362_load | propext, Classical.choice, Quot.sound |
| C362 | Verif.Props.MatPhys.C362_growth | propext, Classical.choice, Quot.sound |
| C362 | Verif.Props.MatPhys.C362_water_violated | propext, Classical.choice, Quot.sound |
| C363 | Verif.Props.MatPhys.C363_damage | propext, Classical.choice, Quot.sound |
| C363 | Verif.Props.MatPhys.C363_extreme | propext, Classical.choice, Quot.sound |
| C363 | Verif.Props.MatPhys.C363_temperature_violated | propext, Classical.choice, Quot.sound |
| C364 | Verif.Props.ExampleDetails.C364_accepted | propext, Classical.choice, Quot.sound |
| C364 | Verif.Props.ExampleDetails.C364_density | propext, Classical.choice, Quot.sound |
| C364 | Verif.Props.MatPhys.C364_best | propext, Classical.choice, Quot.sound |
| C364 | Verif.Props.MatPhys.C364_polyethylene | propext, Classical.choice, Quot.sound |
| C364 | Verif.Props.MatPhys.C364_optimal | propext, Classical.choice, Quot.sound |
| C365 | Verif.Props.Ieee.C365_flip | propext, Classical.choice, Quot.sound |
| C365 | Verif.Props.Ieee.C365_two_bits | propext, Classical.choice, Quot.sound |
| C366 | Verif.Props.Ieee.C366_answer | propext, Classical.choice, Quot.sound |
| C367 | Verif.Props.Ieee.C367_finite | propext, Classical.choice, Quot.sound |
| C367 | Verif.Props.Ieee.C367_infinite_limit | propext, Classical.choice, Quot.sound |
| C368 | Verif.Props.Ieee.C368_two_bits | propext, Classical.choice, Quot.sound |
| C368 | Verif.Props.Ieee.C368_unnoticed_limit | propext, Classical.choice, Quot.sound |
| C369 | Verif.Props.Ieee.C369_sort_violated | propext, Classical.choice, Quot.sound |
| C369 | Verif.Props.Ieee.C369_one_special | propext, Classical.choice, Quot.sound |
| C369 | Verif.Props.Ieee.C369_zero_violated | propext, Classical.choice, Quot.sound |
| C369 | Verif.Props.Ieee.C369_all_nan | propext, Classical.choice, Quot.sound |
| C369 | Verif.Props.Ieee.C369_summary | propext, Quot.sound |
| C370 | Verif.Props.ExampleDetails.C370_registered | propext, Classical.choice, Quot.sound |
| C370 | Verif.Props.ExampleDetails.C370_length | propext, Classical.choice, Quot.sound |
| C370 | Verif.Props.MissionDemo.C370_untouched_limit | propext, Classical.choice, Quot.sound |
| C371 | Verif.Props.MissionDemo.C371_adaptation | propext, Classical.choice, Quot.sound |
| C371 | Verif.Props.MissionDemo.C371_level_limit | propext, Classical.choice, Quot.sound |
| C372 | Verif.Props.MissionDemo.C372_boost | propext, Classical.choice, Quot.sound |
| C372 | Verif.Props.MissionDemo.C372_lost_limit | propext, Classical.choice, Quot.sound |
| C373 | Verif.Props.ModelAcc.C373_majority | propext, Classical.choice, Quot.sound |
| C373 | Verif.Props.ModelAcc.C373_intact | propext, Classical.choice, Quot.sound |
| C374 | Verif.Props.ModelAcc.C374_parameters | propext, Quot.sound |
| C374 | Verif.Props.ModelAcc.C374_injection | propext, Classical.choice, Quot.sound |
| C374 | Verif.Props.ModelAcc.C374_no_errors | propext, Classical.choice, Quot.sound |
| C374 | Verif.Props.ModelAcc.C374_prediction | propext, Classical.choice, Quot.sound |
| C374 | Verif.Props.ModelAcc.C374_levels | propext, Classical.choice, Quot.sound |
| C375 | Verif.Props.ModelAcc.C375_table_violated | propext, Classical.choice, Quot.sound |
| C376 | Verif.Props.ModelAcc.C376_vote | propext, Classical.choice, Quot.sound |
| C376 | Verif.Props.ModelAcc.C376_computation | propext, Classical.choice, Quot.sound |
| C376 | Verif.Props.ModelAcc.C376_acceptance | propext, Classical.choice, Quot.sound |
| C376 | Verif.Props.ModelAcc.C376_zero_limit | propext, Classical.choice, Quot.sound |
| C376 | Verif.Props.ModelAcc.C376_no_errors | propext, Classical.choice, Quot.sound |
| C376 | Verif.Props.ModelAcc.C376_single_limit | propext, Classical.choice, Quot.sound |
| C377 | Verif.Props.FwVerif.C377_verdict | propext, Classical.choice, Quot.sound |
| C377 | Verif.Props.FwVerif.C377_intact | propext, Classical.choice, Quot.sound |
| C378 | Verif.Props.FwVerif.C378_counted_twice_limit | propext, Classical.choice, Quot.sound |
| C378 | Verif.Props.FwVerif.C378_consistent | propext, Classical.choice, Quot.sound |
| C378 | Verif.Props.FwVerif.C378_verify_limit | propext, Classical.choice, Quot.sound |
| C378 | Verif.Props.FwVerif.C378_bias_statistics | propext, Classical.choice, Quot.sound |
| C379 | Verif.Props.VoteTest.C379_single | propext, Quot.sound |
| C379 | Verif.Props.VoteTest.C379_clusters | propext, Classical.choice, Quot.sound |
| C379 | Verif.Props.VoteTest.C379_bytes | propext, Classical.choice, Quot.sound |
| C380 | Verif.Props.VoteTest.C380_assertions | propext, Classical.choice, Quot.sound |
| C380 | Verif.Props.VoteTest.C380_extreme | propext, Classical.choice, Quot.sound |
| C380 | Verif.Props.VoteTest.C380_nan_limit | propext, Quot.sound |
| C381 | Verif.Props.VoteTest.C381_wide_violated | propext, Classical.choice, Quot.sound |
| C381 | Verif.Props.VoteTest.C381_program_violated | propext, Classical.choice, Quot.sound |
| C382 | Verif.Props.VoteTest.C382_statistics | propext, Classical.choice, Quot.sound |
| C383 | Verif.Props.VoterDemos.C383_outvoted | propext, Classical.choice, Quot.sound |
| C383 | Verif.Props.VoterDemos.C383_two_violated | propext, Classical.choice, Quot.sound |
| C383 | Verif.Props.VoterDemos.C383_random | propext, Classical.choice, Quot.sound |
| C384 | Verif.Props.VoterDemos.C384_trial | propext, Classical.choice, Quot.sound |
| C385 | Verif.Props.VoterDemos.C385_stored | propext, Classical.choice, Quot.sound |
| C385 | Verif.Props.VoterDemos.C385_exposed_violated | propext, Classical.choice, Quot.sound |
| C385 | Verif.Props.VoterDemos.C385_masked | propext, Classical.choice, Quot.sound |
| C386 | Verif.Props.NetVal.C386_target | propext, Classical.choice, Quot.sound |
| C386 | Verif.Props.NetVal.C386_dataset | propext, Classical.choice, Quot.sound |
| C386 | Verif.Props.NetVal.C386_empty_limit | propext, Classical.choice, Quot.sound |
| C387 | Verif.Props.NetVal.C387_accuracy | propext, Classical.choice, Quot.sound |
| C387 | Verif.Props.NetVal.C387_range | propext, Classical.choice, Quot.sound |
| C387 | Verif.Props.NetVal.C387_effectiveness | propext, Classical.choice, Quot.sound |
| C387 | Verif.Props.NetVal.C387_result | propext, Classical.choice, Quot.sound |
| C388 | Verif.Props.NetVal.C388_average | propext, Classical.choice, Quot.sound |
| C388 | Verif.Props.NetVal.C388_range | propext, Classical.choice, Quot.sound |
| C388 | Verif.Props.NetVal.C388_few_limit | propext, Classical.choice, Quot.sound |
| C388 | Verif.Props.NetVal.C388_schedule | propext, Classical.choice, Quot.sound |
| C388 | Verif.Props.NetVal.C388_chain | propext, Classical.choice, Quot.sound |
| C389 | Verif.Props.NetVal.C389_seed_violated | propext, Classical.choice, Quot.sound |
| C389 | Verif.Props.NetVal.C389_geo | propext, Classical.choice, Quot.sound |
| C389 | Verif.Props.NetVal.C389_run_violated | propext, Classical.choice, Quot.sound |
| C390 | Verif.Props.RsDemos.C390_apply | propext, Classical.choice, Quot.sound |
| C390 | Verif.Props.RsDemos.C390_counts | propext, Classical.choice, Quot.sound |
| C390 | Verif.Props.RsDemos.C390_digits | propext, Quot.sound |
| C391 | Verif.Props.RsDemos.C391_demo_violated | propext, Classical.choice, Quot.sound |
| C391 | Verif.Props.RsDemos.C391_debug_violated | propext |
| C391 | Verif.Props.RsDemos.C391_trial | propext, Classical.choice, Quot.sound |
| C391 | Verif.Props.RsDemos.C391_successes | propext, Classical.choice, Quot.sound |
| C392 | Verif.Props.ExampleDetails.C392_initial | propext, Classical.choice, Quot.sound |
| C392 | Verif.Props.SimpleNN.C392_max_violated | propext, Classical.choice, Quot.sound |
| C392 | Verif.Props.SimpleNN.C392_predict_violated | propext, Classical.choice, Quot.sound |
| C393 | Verif.Props.SimpleNN.C393_upsets | propext, Classical.choice, Quot.sound |
| C393 | Verif.Props.SimpleNN.C393_zero | propext, Classical.choice, Quot.sound |
| C393 | Verif.Props.SimpleNN.C393_value | propext, Classical.choice, Quot.sound |
