{
 "claims": [
  {
   "property": "C01",
   "status": "proved",
   "theorems": [
    "Verif.Props.C01_two_agreeing_copies_win",
    "Verif.Props.C01_integers",
    "Verif.Props.C01_weighted"
   ],
   "note": "Proved for every input/history of the model."
  },
  {
   "property": "C02",
   "status": "proved",
   "theorems": [
    "Verif.Props.C02_bitLevelVote_is_majority",
    "Verif.Props.C02_disjoint_upsets_are_masked"
   ],
   "note": "Proved for every input/history of the model."
  },
  {
   "property": "C03",
   "status": "proved",
   "theorems": [
    "Verif.Props.C03_etmr_strategies_agree",
    "Verif.Props.C03_all_strategies_agree",
    "Verif.Props.C03_all_strategies_agree_any_eq"
   ],
   "note": "Proved for every input/history of the model."
  },
  {
   "property": "C04",
   "status": "partial",
   "theorems": [
    "Verif.Props.C04_no_fault",
    "Verif.Props.C04_classification_32_partial",
    "Verif.Props.C04_classification_32_distinct",
    "Verif.Props.C04_class32_total_unique",
    "Verif.Props.C04_adjacent_never_reported",
    "Verif.Props.C04_adjacent_violated",
    "Verif.Props.C04_detect64_violated",
    "Verif.Props.C04_confidence_same_pattern"
   ],
   "note": "The classification is characterised exactly for 32-bit words, and the parts about SINGLE_BIT, UNKNOWN and BYTE_ERROR hold. The ADJACENT_BITS part is false (the branch is dead code): see the _violated theorem."
  },
  {
   "property": "C05",
   "status": "proved",
   "theorems": [
    "Verif.Props.C05_weighted_bits",
    "Verif.Props.C05_majority_weight_decides"
   ],
   "note": "Proved for every input/history of the model."
  },
  {
   "property": "C06",
   "status": "proved",
   "theorems": [
    "Verif.Props.C06_single_copy_corruption_masked",
    "Verif.Props.C06_core_tmr_masks_and_repairs",
    "Verif.Props.C06_core_tmr_scrubbed_forever"
   ],
   "note": "Proved for every input/history of the model."
  },
  {
   "property": "C07",
   "status": "proved",
   "theorems": [
    "Verif.Props.C07_statistics_consistent",
    "Verif.Props.C07_get_effect"
   ],
   "note": "Proved for every input/history of the model."
  },
  {
   "property": "C08",
   "status": "proved",
   "theorems": [
    "Verif.Props.C08_raw_access_bounds"
   ],
   "note": "Proved for every input/history of the model."
  },
  {
   "property": "C09",
   "status": "proved",
   "theorems": [
    "Verif.Props.C09_crc_detects_bursts",
    "Verif.Props.C09_crc_detects_four_bytes",
    "Verif.Props.C09_crc_injective_on_small_values",
    "Verif.Props.C09_implementations_agree"
   ],
   "note": "Proved for every input/history of the model."
  },
  {
   "property": "C10",
   "status": "proved",
   "theorems": [
    "Verif.Props.C10_one_replica_masked",
    "Verif.Props.C10_repair_restores",
    "Verif.Props.C10_verify_iff",
    "Verif.Props.C10_scrubbing_forever"
   ],
   "note": "Proved for every input/history of the model."
  },
  {
   "property": "C11",
   "status": "proved",
   "theorems": [
    "Verif.Props.C11_two_values_corrupted_small",
    "Verif.Props.C11_two_values_burst"
   ],
   "note": "Proved for every input/history of the model."
  },
  {
   "property": "C12",
   "status": "proved",
   "theorems": [
    "Verif.Props.C12_get_accounts",
    "Verif.Props.C12_corrected_iff",
    "Verif.Props.C12_statistics_consistent",
    "Verif.Props.C12_copy"
   ],
   "note": "Proved for every input/history of the model."
  },
  {
   "property": "C13",
   "status": "partial",
   "theorems": [
    "Verif.Props.C13_one_replica_masked",
    "Verif.Props.C13_repair",
    "Verif.Props.C13_repair_reports",
    "Verif.Props.C13_two_values_corrupted",
    "Verif.Props.C13_status_meaning",
    "Verif.Props.C13_success_value_violated"
   ],
   "note": "Single-replica masking, repair and the meaning of the status codes hold. 'SUCCESS only with a checksum-justified value' is false: see C13_success_value_violated."
  },
  {
   "property": "C14",
   "status": "partial",
   "theorems": [
    "Verif.Props.C14_verify_checks_checksums_partial",
    "Verif.Props.C14_violated"
   ],
   "note": "Full statement is false: verify() only looks at checksums, so replicas with different values and matching checksums verify (C14_violated). Proved: SUCCESS iff all checksums match."
  },
  {
   "property": "C15",
   "status": "partial",
   "theorems": [
    "Verif.Props.C15_float_vote_diverges_violated",
    "Verif.Props.C15_float_vote_terminates_partial"
   ],
   "note": "Full statement is false: some replica triples recurse forever (C15_float_vote_diverges_violated). Proved: outside exactly that situation the vote returns after at most two nested calls, with its result characterised."
  },
  {
   "property": "C16",
   "status": "proved",
   "theorems": [
    "Verif.Props.C16_health_bounds",
    "Verif.Props.C16_regenerate_uses_healthiest",
    "Verif.Props.C16_error_counters_monotone"
   ],
   "note": "Proved for every input/history of the model."
  },
  {
   "property": "C17",
   "status": "proved",
   "theorems": [
    "Verif.Props.C17_valid_copies_win",
    "Verif.Props.C17_weighted_vote"
   ],
   "note": "Proved for every input/history of the model."
  },
  {
   "property": "C18",
   "status": "partial",
   "theorems": [
    "Verif.Props.C18_int_roundtrip",
    "Verif.Props.C18_float_roundtrip_violated",
    "Verif.Props.C18_float_roundtrip_partial",
    "Verif.Props.C18_corrupt_approximate_copy_partial",
    "Verif.Props.C18_masked_when_representable_partial",
    "Verif.Props.C18_corrupt_exact_copy_violated",
    "Verif.Props.C18_verify_detects",
    "Verif.Props.C18_repair_keeps_value",
    "Verif.Props.C18_reduced_precision",
    "Verif.Props.C18_range_limited_signed",
    "Verif.Props.C18_range_limited_unsigned_violated",
    "Verif.Props.C18_indexed_read"
   ],
   "note": "Exact for integers; for float the round trip and masking fail when the value is not representable in the approximate copies (two _violated theorems with witnesses); the parts that hold are proved."
  },
  {
   "property": "C19",
   "status": "proved",
   "theorems": [
    "Verif.Props.C19_defined_iff",
    "Verif.Props.C19_most_common",
    "Verif.Props.C19_majority_masks",
    "Verif.Props.C19_deterministic"
   ],
   "note": "Proved for every input/history of the model."
  },
  {
   "property": "C20",
   "status": "proved",
   "theorems": [
    "Verif.Props.C20_store",
    "Verif.Props.C20_latest",
    "Verif.Props.C20_spacing"
   ],
   "note": "Proved for every input/history of the model."
  },
  {
   "property": "C21",
   "status": "proved",
   "theorems": [
    "Verif.Props.C21_rollback_to_valid",
    "Verif.Props.C21_rollback_to_version"
   ],
   "note": "Proved for every input/history of the model."
  },
  {
   "property": "C22",
   "status": "partial",
   "theorems": [
    "Verif.Props.Gf.C22_constructible",
    "Verif.Props.Gf.C22_gf256_construct_violated",
    "Verif.Props.Gf.C22_polynomial_arithmetic",
    "Verif.Props.Gf.C22_representatives_unique",
    "Verif.Props.Gf.C22_zero_division_throws",
    "Verif.Props.Gf.C22_field_laws",
    "Verif.Props.Gf.C22_pow_partial",
    "Verif.Props.Gf.C22_pow_violated",
    "Verif.Props.Gf.C22_out_of_range_violated"
   ],
   "note": "Full field laws and agreement with polynomial arithmetic for GF16 and GF1024. False for GF256 (the constructor is undefined) and for pow with large exponents; out-of-range operands are undefined."
  },
  {
   "property": "C23",
   "status": "partial",
   "theorems": [
    "Verif.Props.Rs.C23_clean_word_partial",
    "Verif.Props.Rs.C23_dirty_word_violated",
    "Verif.Props.Rs.C23_single_error_violated",
    "Verif.Props.Rs.C23_generator_mismatch_violated"
   ],
   "note": "Full statement is false: every word with an error is undefined behaviour (C23_dirty_word_violated, C23_single_error_violated), and the generator and the checker use different roots. Proved: error-free words are returned unchanged."
  },
  {
   "property": "C24",
   "status": "partial",
   "theorems": [
    "Verif.Props.Rs.C24_roundtrip_exact_partial",
    "Verif.Props.Rs.C24_roundtrip_violated",
    "Verif.Props.Rs.C24_tail_lost_violated"
   ],
   "note": "Full statement is false; the exact effect of the round trip on every bit is proved for all byte strings."
  },
  {
   "property": "C25",
   "status": "partial",
   "theorems": [
    "Verif.Props.Rs.C25_symbol8_violated",
    "Verif.Props.Rs.C25_symbol_conversion",
    "Verif.Props.Rs.C25_symbol4_constructible",
    "Verif.Props.Rs.C25_encode_systematic_partial",
    "Verif.Props.Rs.C25_encode_systematic_all_partial",
    "Verif.Props.Rs.C25_short_buffer",
    "Verif.Props.Rs.C25_roundtrip_zero_partial",
    "Verif.Props.Rs.C25_roundtrip_violated",
    "Verif.Props.Rs.C25_encode_large_byte_violated"
   ],
   "note": "The default 8-bit codec cannot be constructed; for 4-bit symbols the encoding is systematic on bytes below 16 and undefined on others; the clean round trip is undefined for every nonzero value shorter than the ECC part."
  },
  {
   "property": "C26",
   "status": "partial",
   "theorems": [
    "Verif.Props.Multibit.C26_hamming_single_bit",
    "Verif.Props.Multibit.C26_secded_single_bit_partial",
    "Verif.Props.Multibit.C26_secded_violated"
   ],
   "note": "HAMMING: full statement. SECDED: repaired exactly for bit positions i with an even number of ones in i+1 (C26_secded_single_bit_partial); false for the others (C26_secded_violated)."
  },
  {
   "property": "C27",
   "status": "partial",
   "theorems": [
    "Verif.Props.Multibit.C27_double_detected",
    "Verif.Props.Multibit.C27_secded_double_exact_partial",
    "Verif.Props.Multibit.C27_secded_violated",
    "Verif.Props.Multibit.C27_double_never_restored"
   ],
   "note": "Detection holds for every double upset. 'Not replaced by a different wrong value' is false for SECDED (C27_secded_violated); the exact set of miscorrected pairs is proved."
  },
  {
   "property": "C28",
   "status": "proved",
   "theorems": [
    "Verif.Props.Multibit.C28_layout",
    "Verif.Props.Multibit.C28_roundtrip",
    "Verif.Props.Multibit.C28_separation",
    "Verif.Props.Multibit.C28_burst"
   ],
   "note": "Proved for every input/history of the model."
  },
  {
   "property": "C29",
   "status": "proved",
   "theorems": [
    "Verif.Props.FixedC.C29_vector_refines_bounded_sequence",
    "Verif.Props.FixedC.C29_checked_calls_always_defined"
   ],
   "note": "Proved for every input/history of the model."
  },
  {
   "property": "C30",
   "status": "proved",
   "theorems": [
    "Verif.Props.FixedC.C30_map_refines_finite_map",
    "Verif.Props.FixedC.C30_spec_card"
   ],
   "note": "Proved for every input/history of the model."
  },
  {
   "property": "C31",
   "status": "partial",
   "theorems": [
    "Verif.Props.StaticAlloc.C31_blocks_disjoint_partial",
    "Verif.Props.StaticAlloc.C31_max_size_partial",
    "Verif.Props.StaticAlloc.C31_huge_request_violated",
    "Verif.Props.StaticAlloc.C31_empty_request_violated",
    "Verif.Props.StaticAlloc.C31_converted_copy_violated"
   ],
   "note": "Proved for every history of non-empty requests up to PTRDIFF_MAX bytes; false for wrapping byte counts, empty requests on a full pool and converted copies (three _violated theorems)."
  },
  {
   "property": "C32",
   "status": "partial",
   "theorems": [
    "Verif.Props.Fixed.C32_add_sub_exact",
    "Verif.Props.Fixed.C32_add_out_of_range",
    "Verif.Props.Fixed.C32_mul_rounds_down",
    "Verif.Props.Fixed.C32_div_truncates_partial",
    "Verif.Props.Fixed.C32_negative_dividend_violated",
    "Verif.Props.Fixed.C32_comparison",
    "Verif.Props.Fixed.C32_conversions",
    "Verif.Props.Fixed.C32_no_sign_bit_violated"
   ],
   "note": "Addition, subtraction, multiplication, comparison and conversions proved for all raw values; division only for non-negative dividends (or C++20 shift rules), because the C++17 build makes negative dividends undefined; formats without sign bit are broken."
  },
  {
   "property": "C33",
   "status": "proved",
   "theorems": [
    "Verif.Props.MathOps.C33_min_max",
    "Verif.Props.MathOps.C33_select_clamp",
    "Verif.Props.MathOps.C33_abs_sign"
   ],
   "note": "Proved for every input/history of the model."
  },
  {
   "property": "C34",
   "status": "partial",
   "theorems": [
    "Verif.Props.MathOps.C34_flip_exact",
    "Verif.Props.MathOps.C34_flip_involutive",
    "Verif.Props.MathOps.C34_isBitSet",
    "Verif.Props.MathOps.C34_count_is_metric",
    "Verif.Props.MathOps.C34_count_long_double_violated"
   ],
   "note": "Full statement proved for 1/2/4/8-byte types; countBitDifferences is wrong for 16-byte long double."
  },
  {
   "property": "C35",
   "status": "partial",
   "theorems": [
    "Verif.Props.AlignedMem.C35_upset_effect",
    "Verif.Props.AlignedMem.C35_single_upset_masked_partial",
    "Verif.Props.AlignedMem.C35_adjacent_upset_violated",
    "Verif.Props.AlignedMem.C35_scrub_restores"
   ],
   "note": "Exact effect of every upset pattern proved; the claim for physically adjacent cells is false for every value (C35_adjacent_upset_violated)."
  },
  {
   "property": "C36",
   "status": "proved",
   "theorems": [
    "Verif.Props.C36_verify_crc",
    "Verif.Props.C36_backup_restore",
    "Verif.Props.C36_restore_extent",
    "Verif.Props.C36_compare_counts_differences",
    "Verif.Props.C36_compare_zero_iff_equal"
   ],
   "note": "Proved for every input/history of the model."
  },
  {
   "property": "C37",
   "status": "partial",
   "theorems": [
    "Verif.Props.Scrubber.C37_clean_small_partial",
    "Verif.Props.Scrubber.C37_clean_large_violated",
    "Verif.Props.Scrubber.C37_detects_last_bytes_partial",
    "Verif.Props.Scrubber.C37_missed_violated",
    "Verif.Props.Scrubber.C37_rebaselines",
    "Verif.Props.Scrubber.C37_corrected_violated",
    "Verif.Props.Scrubber.C37_block_count"
   ],
   "note": "Regions of at most 64 bytes: never a false alarm over unmodified memory; corruption of the last four bytes is characterised exactly. False parts: a clean region above 64 bytes alarms (C37_clean_large_violated), a shipped table with 252 initialisers misses corruptions (C37_missed_violated), and errors are counted as corrected although memory is untouched (C37_corrected_violated)."
  },
  {
   "property": "C38",
   "status": "partial",
   "theorems": [
    "Verif.Props.Unified.C38_current",
    "Verif.Props.Unified.C38_deallocate",
    "Verif.Props.Unified.C38_totals_and_peaks_partial",
    "Verif.Props.Unified.C38_reset_violated"
   ],
   "note": "Current counters, isAllocated, checkForLeaks and deallocate: all histories. Totals and peaks: histories without resetStats whose live bytes fit in size_t; resetStats provably breaks them (C38_reset_violated). The header as committed does not compile (type used before definition, CANARY_VALUE undefined, atomic member copied); the model is of the code as written."
  },
  {
   "property": "C39",
   "status": "partial",
   "theorems": [
    "Verif.Props.Unified.C39_verify_violated",
    "Verif.Props.Unified.C39_deallocate_protected_violated",
    "Verif.Props.Unified.C39_canary_release_violated",
    "Verif.Props.Unified.C39_unprotect_violated",
    "Verif.Props.Unified.C39_ecc_tmr_violated",
    "Verif.Props.Unified.C39_canary_overwrites_violated",
    "Verif.Props.Unified.C39_release_partial",
    "Verif.Props.Unified.C39_unprotect_result",
    "Verif.Props.Unified.C39_parity_area",
    "Verif.Props.Unified.C39_protected_count_partial"
   ],
   "note": "Holds only for levels NONE and CRC without protectMemory; verify and deallocate of protected blocks self-deadlock, CANARY blocks cannot be released, unprotect underflows the counters, ECC/TMR allocations write out of bounds (all proved)."
  },
  {
   "property": "C40",
   "status": "partial",
   "theorems": [
    "Verif.Props.Mapped.C40_disjoint_partial",
    "Verif.Props.Mapped.C40_default_partial",
    "Verif.Props.Mapped.C40_constructor_partial",
    "Verif.Props.Mapped.C40_zero_size_violated",
    "Verif.Props.Mapped.C40_duplicate_level_violated",
    "Verif.Props.Mapped.C40_reversed_zone_violated",
    "Verif.Props.Mapped.C40_release"
   ],
   "note": "Proved for every configuration with one proper zone per level (incl. the default) and all histories of non-empty requests. Zero-size requests, duplicate levels and reversed zones break it (violated theorems with witnesses)."
  },
  {
   "property": "C41",
   "status": "partial",
   "theorems": [
    "Verif.Props.Tracker.C41_concurrent_totals",
    "Verif.Props.Tracker.C41_concurrent_bounds",
    "Verif.Props.Tracker.C41_wait_free",
    "Verif.Props.Tracker.C41_reset_race_violated",
    "Verif.Props.Tracker.C41_alone",
    "Verif.Props.Tracker.C41_reset_alone",
    "Verif.Props.Tracker.C41_sequential",
    "Verif.Props.Tracker.C41_distribution",
    "Verif.Props.Tracker.C41_time_since"
   ],
   "note": "Every interleaving of recordError calls, and every single-threaded history with resets. A reset running concurrently with recordError can leave counters inconsistent (C41_reset_race_violated). Critical section of the history mutex is one step; atomics sequentially consistent."
  },
  {
   "property": "C42",
   "status": "partial",
   "theorems": [
    "Verif.Props.Status.C42_status_equality",
    "Verif.Props.Status.C42_success_iff",
    "Verif.Props.Status.C42_predefined",
    "Verif.Props.Status.C42_core_result",
    "Verif.Props.Status.C42_core_void",
    "Verif.Props.Status.C42_success_status_violated",
    "Verif.Props.ErrorHandling.C42_access",
    "Verif.Props.ErrorHandling.C42_except",
    "Verif.Props.ErrorHandling.C42_laws",
    "Verif.Props.ErrorHandling.C42_error_through",
    "Verif.Props.ErrorHandling.C42_void"
   ],
   "note": "All laws proved, also for throwing callables. A core::error::Result<T> built from SUCCESS reports an error with a success status (C42_success_status_violated). error_handling.hpp defines class ErrorHandler twice and does not compile as it stands; its classes are modelled one by one."
  },
  {
   "property": "C43",
   "status": "partial",
   "theorems": [
    "Verif.Props.Adaptive.C43_transition",
    "Verif.Props.Adaptive.C43_pattern_weights",
    "Verif.Props.Adaptive.C43_monotone",
    "Verif.Props.Adaptive.C43_settings_monotone",
    "Verif.Props.Adaptive.C43_settings_in_force",
    "Verif.Props.Adaptive.C43_notification",
    "Verif.Props.Adaptive.C43_listeners",
    "Verif.Props.Adaptive.C43_spacing",
    "Verif.Props.Adaptive.C43_extreme",
    "Verif.Props.Adaptive.C43_manual",
    "Verif.Props.Adaptive.C43_oscillation_violated",
    "Verif.Props.Adaptive.C43_extreme_not_sticky_violated",
    "Verif.Props.Adaptive.C43_spike_violated"
   ],
   "note": "Transition rule, spacing, monotonicity, settings and notification proved for all states/histories, rates exact rationals. The hysteresis does not prevent oscillation by two levels, EXTREME does not restart the clock, and the 'immediate' checks are throttled (violated theorems)."
  },
  {
   "property": "C44",
   "status": "partial",
   "theorems": [
    "Verif.Props.AdaptiveProt.C44_update",
    "Verif.Props.AdaptiveProt.C44_ignored",
    "Verif.Props.AdaptiveProt.C44_flux_bounds",
    "Verif.Props.AdaptiveProt.C44_monotone",
    "Verif.Props.AdaptiveProt.C44_convergence",
    "Verif.Props.AdaptiveProt.C44_increase",
    "Verif.Props.AdaptiveProt.C44_configs_monotone",
    "Verif.Props.AdaptiveProt.C44_notification",
    "Verif.Props.AdaptiveProt.C44_handles",
    "Verif.Props.AdaptiveProt.C44_wrap_violated",
    "Verif.Props.AdaptiveProt.C44_lost_violated",
    "Verif.Props.AdaptiveProt.C44_temporary_violated"
   ],
   "note": "Update rule, bounds, monotonicity, convergence, notification proved, flux an exact rational. Violated: 32-bit wrap of the error sum, reports within the same second are lost, the temporary increase is neither kept nor taken back."
  },
  {
   "property": "C45",
   "status": "proved",
   "theorems": [
    "Verif.Props.C45_confidence_in_range"
   ],
   "note": "Proved for every input/history of the model."
  },
  {
   "property": "C46",
   "status": "proved",
   "theorems": [
    "Verif.Props.C46_batch"
   ],
   "note": "Proved for every input/history of the model."
  },
  {
   "property": "C47",
   "status": "partial",
   "theorems": [
    "Verif.Props.C47_detect_fault_pattern_32",
    "Verif.Props.C47_detect64_violated"
   ],
   "note": "4-byte types: full statement proved. 8-byte types: undefined shift (C47_detect64_violated)."
  },
  {
   "property": "C48",
   "status": "proved",
   "theorems": [
    "Verif.Props.C48_registry"
   ],
   "note": "Proved for every input/history of the model."
  },
  {
   "property": "C49",
   "status": "partial",
   "theorems": [
    "Verif.Props.C49_forged_copy_masked_after_set_partial",
    "Verif.Props.C49_forged_copy_violated"
   ],
   "note": "True immediately after set(); false after a history, because repair() does not restore health (C49_forged_copy_violated)."
  },
  {
   "property": "C50",
   "status": "proved",
   "theorems": [
    "Verif.Props.C50_one_copy_masked"
   ],
   "note": "Proved for every input/history of the model."
  },
  {
   "property": "C51",
   "status": "partial",
   "theorems": [
    "Verif.Props.C51_repair_clears_lost_bits_partial",
    "Verif.Props.C51_repair_restores_protection_violated"
   ],
   "note": "Full statement is false: a 0->1 upset is learned as a stuck-at bit at its first occurrence and is never repaired (C51_repair_restores_protection_violated); the exact effect of repair (v ||| x) is proved."
  },
  {
   "property": "C52",
   "status": "proved",
   "theorems": [
    "Verif.Props.C52_health_bounds",
    "Verif.Props.C52_stuck_reports"
   ],
   "note": "Proved for every input/history of the model."
  },
  {
   "property": "C53",
   "status": "partial",
   "theorems": [
    "Verif.Props.C53_never_undefined",
    "Verif.Props.C53_one_copy_masked",
    "Verif.Props.C53_rollback",
    "Verif.Props.C53_set_creates_checkpoint_violated"
   ],
   "note": "Masking, absence of undefined behaviour and rollback hold; 'every set creates a checkpoint' is false within the first 30 s (C53_set_creates_checkpoint_violated)."
  },
  {
   "property": "C54",
   "status": "proved",
   "theorems": [
    "Verif.Props.AlignedMem.C54_scrubbing_reads",
    "Verif.Props.AlignedMem.C54_no_scrubbing_one_copy"
   ],
   "note": "Proved for every input/history of the model."
  },
  {
   "property": "C55",
   "status": "partial",
   "theorems": [
    "Verif.Props.AlignedMem.C55_never_wrong_partial",
    "Verif.Props.AlignedMem.C55_masked_unless_burst_partial",
    "Verif.Props.AlignedMem.C55_correctable_hit_reported_violated",
    "Verif.Props.AlignedMem.C55_transform_error_violated",
    "Verif.Props.AlignedMem.C55_transform_partial"
   ],
   "note": "get never returns a wrong value and scrub repairs; but a correctable burst is reported as error, and transform loses errors (two _violated theorems)."
  },
  {
   "property": "C56",
   "status": "partial",
   "theorems": [
    "Verif.Props.Multibit.C56_secded_check_byte",
    "Verif.Props.Multibit.C56_hamming_overall_byte",
    "Verif.Props.Multibit.C56_hamming_parity_byte_violated",
    "Verif.Props.Multibit.C56_rs_check_byte"
   ],
   "note": "SECDED and REED_SOLOMON: full statement. HAMMING: only the overall parity byte; altering one of the six parity bytes corrupts an intact value (C56_hamming_parity_byte_violated)."
  },
  {
   "property": "C57",
   "status": "partial",
   "theorems": [
    "Verif.Props.Multibit.C57_detects_everything",
    "Verif.Props.Multibit.C57_single_byte",
    "Verif.Props.Multibit.C57_double_byte",
    "Verif.Props.Multibit.C57_triple_byte_violated"
   ],
   "note": "Detection, one-byte and two-byte statements hold in full; from three corrupted bytes on, miscorrection is possible (C57_triple_byte_violated)."
  },
  {
   "property": "C58",
   "status": "partial",
   "theorems": [
    "Verif.Props.Multibit.C58_single_byte_partial",
    "Verif.Props.Multibit.C58_double_bit_violated"
   ],
   "note": "True for corruptions confined to one byte; false for two bits in different bytes (C58_double_bit_violated)."
  },
  {
   "property": "C59",
   "status": "proved",
   "theorems": [
    "Verif.Props.Scrubber.C59_registry"
   ],
   "note": "Proved for every input/history of the model."
  },
  {
   "property": "C60",
   "status": "partial",
   "theorems": [
    "Verif.Props.Mapped.C60_ideal_zone_partial",
    "Verif.Props.Mapped.C60_last_resort",
    "Verif.Props.Mapped.C60_ideal_zone_lost_violated",
    "Verif.Props.Mapped.C60_fallback_direction_violated"
   ],
   "note": "First-fit and last-resort parts proved; the ideal zone is lost for ever after one overflow and low-importance data falls back to the highly shielded zone (violated theorems)."
  },
  {
   "property": "C61",
   "status": "proved",
   "theorems": [
    "Verif.Props.Mapped.C61_usage",
    "Verif.Props.Mapped.C61_charge",
    "Verif.Props.Mapped.C61_score_range"
   ],
   "note": "Proved for every input/history of the model."
  },
  {
   "property": "C62",
   "status": "partial",
   "theorems": [
    "Verif.Props.Tracker.C62_rate_range_partial",
    "Verif.Props.Tracker.C62_threshold",
    "Verif.Props.Tracker.C62_unit_violated",
    "Verif.Props.Tracker.C62_reset_rate_violated",
    "Verif.Props.Tracker.C62_shared_statics_violated"
   ],
   "note": "Range proved for a single never-reset tracker, exact rationals. The unit is errors per clock tick, not per second; after reset, or with a second tracker, the difference wraps (violated theorems)."
  },
  {
   "property": "C63",
   "status": "partial",
   "theorems": [
    "Verif.Props.ErrorHandling.C63_reporting",
    "Verif.Props.ErrorHandling.C63_handle",
    "Verif.Props.ErrorHandling.C63_callbacks",
    "Verif.Props.ErrorHandling.C63_ids",
    "Verif.Props.ErrorHandling.C63_unregister_partial",
    "Verif.Props.ErrorHandling.C63_unregister_violated"
   ],
   "note": "The only false part: unregistering the same id twice reports success both times (C63_unregister_violated)."
  },
  {
   "property": "C64",
   "status": "proved",
   "theorems": [
    "Verif.Props.Multibit.C64_write_read",
    "Verif.Props.Multibit.C64_invalid",
    "Verif.Props.Multibit.C64_valid_iff_no_error",
    "Verif.Props.Multibit.C64_invalid_value"
   ],
   "note": "Proved for every input/history of the model."
  },
  {
   "property": "C65",
   "status": "partial",
   "theorems": [
    "Verif.Props.Unified.C65_usable_partial",
    "Verif.Props.Unified.C65_overflow_violated",
    "Verif.Props.Unified.C65_alignment_violated"
   ],
   "note": "Proved when size+overhead+alignment fits in size_t; overflow and the misaligned CANARY+ALIGNED pointer are proved violations."
  },
  {
   "property": "C66",
   "status": "partial",
   "theorems": [
    "Verif.Props.Unified.C66_ownership_partial",
    "Verif.Props.Unified.C66_no_leak_partial",
    "Verif.Props.Unified.C66_total_partial",
    "Verif.Props.Unified.C66_canary_leak_violated",
    "Verif.Props.Unified.C66_destructor_violated"
   ],
   "note": "Proved for levels NONE and CRC; CANARY objects leak and destructors of T never run (proved)."
  },
  {
   "property": "C67",
   "status": "partial",
   "theorems": [
    "Verif.Props.MTmrP.C67_majority_read",
    "Verif.Props.MTmrP.C67_single_copy_masked_partial",
    "Verif.Props.MTmrP.C67_regenerate_spreads_fault_violated",
    "Verif.Props.MTmrP.C67_read_then_regenerate"
   ],
   "note": "Read masking proved for every state and history. regenerateCopies() without a preceding read copies the corrupted copy 0 over the good ones (violated); after a weighted read the repair is proved correct."
  },
  {
   "property": "C68",
   "status": "partial",
   "theorems": [
    "Verif.Props.MTmrP.C68_health_range",
    "Verif.Props.MTmrP.C68_health_floor_partial",
    "Verif.Props.MTmrP.C68_health_floor_violated"
   ],
   "note": "Range (0,1] for all histories; the floor 0.1 holds without setRawCopy, which multiplies without a floor (violated)."
  },
  {
   "property": "C69",
   "status": "proved",
   "theorems": [
    "Verif.Props.MTmrP.C69_verify_iff",
    "Verif.Props.MTmrP.C69_fault_reported"
   ],
   "note": "Checksum abstract for the equivalence; CRC-32 with the table generated by the code for the burst statement."
  },
  {
   "property": "C70",
   "status": "partial",
   "theorems": [
    "Verif.Props.MTmrP.C70_selection_proportional",
    "Verif.Props.MTmrP.C70_read_is_a_copy",
    "Verif.Props.MTmrP.C70_valid_copy_ignored_violated"
   ],
   "note": "Selection intervals exact, random number a rational parameter. Checksums are not consulted by the vote (violated)."
  },
  {
   "property": "C71",
   "status": "partial",
   "theorems": [
    "Verif.Props.MTmrP.C71_plain_calls_progress",
    "Verif.Props.MTmrP.C71_clone_never_returns_violated"
   ],
   "note": "Lock-level model: one non-recursive std::mutex per object; clone() constructs via a call that locks it again and never returns (violated)."
  },
  {
   "property": "C72",
   "status": "partial",
   "theorems": [
    "Verif.Props.StratP.C72_none",
    "Verif.Props.StratP.C72_basic",
    "Verif.Props.StratP.C72_hybrid",
    "Verif.Props.StratP.C72_enhanced_partial",
    "Verif.Props.StratP.C72_enhanced_flags_violated",
    "Verif.Props.StratP.C72_enhanced_negative_violated",
    "Verif.Props.StratP.C72_nan_violated"
   ],
   "note": "Basic and Hybrid exact. EnhancedTMR leaves the flags uninitialised on agreement and converts negative floats to unsigned (UB); NaN results are reported as uncorrected errors (violated theorems)."
  },
  {
   "property": "C73",
   "status": "partial",
   "theorems": [
    "Verif.Props.StratP.C73_majority_partial",
    "Verif.Props.StratP.C73_disagreement",
    "Verif.Props.StratP.C73_zero_outvoted_violated",
    "Verif.Props.StratP.C73_zero_flagged_violated",
    "Verif.Props.StratP.C73_bitwise_majority",
    "Verif.Props.StratP.C73_vector_majority",
    "Verif.Props.StratP.C73_empty_ignored",
    "Verif.Props.StratP.C73_all_stuck_vectors"
   ],
   "note": "Majority proved for values that do not look stuck (all types); correct zeros are outvoted or flagged (violated)."
  },
  {
   "property": "C74",
   "status": "partial",
   "theorems": [
    "Verif.Props.StratP.C74_score_range",
    "Verif.Props.StratP.C74_agreement",
    "Verif.Props.StratP.C74_confidence_range",
    "Verif.Props.StratP.C74_no_majority",
    "Verif.Props.StratP.C74_trusted_majority",
    "Verif.Props.StratP.C74_one_bad_component_partial",
    "Verif.Props.StratP.C74_majority_outvoted_violated"
   ],
   "note": "Scores, confidence, agreement and a single bad component proved for all histories; after four faults of one run a fault in another run outvotes the majority (violated)."
  },
  {
   "property": "C75",
   "status": "proved",
   "theorems": [
    "Verif.Props.PolicyP.C75_level_monotone",
    "Verif.Props.PolicyP.C75_never_unprotected",
    "Verif.Props.PolicyP.C75_thresholds"
   ],
   "note": "Exact rationals instead of double."
  },
  {
   "property": "C76",
   "status": "proved",
   "theorems": [
    "Verif.Props.PolicyP.C76_interval_bounds",
    "Verif.Props.PolicyP.C76_interval_value",
    "Verif.Props.PolicyP.C76_interval_monotone"
   ],
   "note": "Dbl = rationals with infinities and NaN; signs of zeros are universally quantified parameters."
  },
  {
   "property": "C77",
   "status": "proved",
   "theorems": [
    "Verif.Props.PolicyP.C77_policy_safe",
    "Verif.Props.PolicyP.C77_set_get",
    "Verif.Props.PolicyP.C77_optimize"
   ],
   "note": "All histories, exact rationals."
  },
  {
   "property": "C78",
   "status": "partial",
   "theorems": [
    "Verif.Props.PolicyP.C78_last_decision",
    "Verif.Props.PolicyP.C78_environment_monotone",
    "Verif.Props.PolicyP.C78_strategy_matches_level_partial",
    "Verif.Props.PolicyP.C78_predefined",
    "Verif.Props.PolicyP.C78_uninitialised_violated",
    "Verif.Props.PolicyP.C78_phase_lowers_saa_violated"
   ],
   "note": "Before the first updateEnvironment the SAA flag is indeterminate (UB, violated) and entering a phase overrides the SAA level (violated)."
  },
  {
   "property": "C79",
   "status": "proved",
   "theorems": [
    "Verif.Props.MTmrP.C79_read_bookkeeping",
    "Verif.Props.MTmrP.C79_access_counters",
    "Verif.Props.MTmrP.C79_reset",
    "Verif.Props.MTmrP.C79_set",
    "Verif.Props.MTmrP.C79_raw_access",
    "Verif.Props.MTmrP.C79_regenerate"
   ],
   "note": "Counters are natural numbers (no wrap at 2^64)."
  },
  {
   "property": "C80",
   "status": "partial",
   "theorems": [
    "Verif.Props.FaultP.C80_flip",
    "Verif.Props.FaultP.C80_count_partial",
    "Verif.Props.FaultP.C80_flip_counts_one",
    "Verif.Props.FaultP.C80_count_large_violated",
    "Verif.Props.FaultP.C80_is_bit_set",
    "Verif.Props.FaultP.C80_bool_violated"
   ],
   "note": "Proved for all 1/2/4/8-byte types; 16-byte types are compared in their first byte only and bool flips are not reversible (violated)."
  },
  {
   "property": "C81",
   "status": "partial",
   "theorems": [
    "Verif.Props.FaultP.C81_in_range",
    "Verif.Props.FaultP.C81_single",
    "Verif.Props.FaultP.C81_stuck",
    "Verif.Props.FaultP.C81_block",
    "Verif.Props.FaultP.C81_row_column",
    "Verif.Props.FaultP.C81_adjacent_partial",
    "Verif.Props.FaultP.C81_adjacent_violated",
    "Verif.Props.FaultP.C81_reversible",
    "Verif.Props.FaultP.C81_clamped",
    "Verif.Props.FaultP.C81_burst_violated",
    "Verif.Props.FaultP.C81_small_types_violated"
   ],
   "note": "Positions, single, stuck, byte, word, row/column exact; adjacent bits wrap around at the end, bursts may cancel, and types under 8 bytes are over-read (violated)."
  },
  {
   "property": "C82",
   "status": "partial",
   "theorems": [
    "Verif.Props.FaultP.C82_fault_local",
    "Verif.Props.FaultP.C82_multi_bit_violated",
    "Verif.Props.FaultP.C82_empty_violated",
    "Verif.Props.FaultP.C82_random_flip",
    "Verif.Props.FaultP.C82_counts",
    "Verif.Props.FaultP.C82_perfect",
    "Verif.Props.FaultP.C82_flags_violated"
   ],
   "note": "Draws are parameters. Repeated bits cancel, empty regions are undefined, and 'corrected' is reported after uncorrected faults (violated)."
  },
  {
   "property": "C83",
   "status": "proved",
   "theorems": [
    "Verif.Props.FaultP.C83_inject",
    "Verif.Props.FaultP.C83_nothing",
    "Verif.Props.FaultP.C83_campaign"
   ],
   "note": "Number and place of flips are draws; region addresses are natural numbers."
  },
  {
   "property": "C84",
   "status": "partial",
   "theorems": [
    "Verif.Props.TechniquesP.C84_hamming_single",
    "Verif.Props.TechniquesP.C84_hamming_double_violated",
    "Verif.Props.TechniquesP.C84_tmr",
    "Verif.Props.TechniquesP.C84_tmr_same_place_violated",
    "Verif.Props.TechniquesP.C84_edac_partial",
    "Verif.Props.TechniquesP.C84_edac_double_violated",
    "Verif.Props.TechniquesP.C84_scrubbing",
    "Verif.Props.TechniquesP.C84_none_violated",
    "Verif.Props.TechniquesP.C84_empty_violated",
    "Verif.Props.TechniquesP.C84_empty_transient",
    "Verif.Props.TechniquesP.C84_edac_strikes"
   ],
   "note": "Draws are parameters. Two upsets in one codeword are always miscorrected, two copies struck at the same place survive the vote, NONE never applies the events, and an empty memory is undefined (violated)."
  },
  {
   "property": "C85",
   "status": "partial",
   "theorems": [
    "Verif.Props.PNetP.C85_construct",
    "Verif.Props.PNetP.C85_forward",
    "Verif.Props.PNetP.C85_forward_shape",
    "Verif.Props.PNetP.C85_set_weights_result",
    "Verif.Props.PNetP.C85_set_weights_stores",
    "Verif.Props.PNetP.C85_set_biases",
    "Verif.Props.PNetP.C85_ragged_violated"
   ],
   "note": "Float arithmetic, draws and initial weights are parameters. A ragged matrix is rejected after its good rows were written (violated)."
  },
  {
   "property": "C86",
   "status": "partial",
   "theorems": [
    "Verif.Props.PNetP.C86_strike_persists_violated",
    "Verif.Props.PNetP.C86_repair_does_nothing_violated",
    "Verif.Props.PNetP.C86_stats_blind_violated",
    "Verif.Props.PNetP.C86_levels_alike_violated",
    "Verif.Props.PNetP.C86_protected_is_struck_more_violated"
   ],
   "note": "The weight objects are default-constructed with scheme NONE: at every level strikes persist, repairs do nothing and nothing is reported (violated for all histories)."
  },
  {
   "property": "C87",
   "status": "partial",
   "theorems": [
    "Verif.Props.PNetP.C87_single_strike",
    "Verif.Props.PNetP.C87_stats_balance",
    "Verif.Props.PNetP.C87_double_strike_violated",
    "Verif.Props.PNetP.C87_vote_corrupts_violated",
    "Verif.Props.PNetP.C87_strike_one_bit",
    "Verif.Props.PNetP.C87_nan_counted_violated"
   ],
   "note": "One struck copy is harmless; two copies struck at the same bit replace the correct activation, and NaN activations are counted as errors (violated)."
  },
  {
   "property": "C88",
   "status": "partial",
   "theorems": [
    "Verif.Props.PNetP.C88_view_tracks_setters",
    "Verif.Props.PNetP.C88_edit_ignored_violated",
    "Verif.Props.PNetP.C88_train_learns_nothing_violated",
    "Verif.Props.PNetP.C88_loss",
    "Verif.Props.PNetP.C88_loss_division_violated",
    "Verif.Props.PNetP.C88_copy"
   ],
   "note": "View tracks the setters; writes through the mutable view and training have no effect on any output, and an empty input layer divides by zero (violated)."
  },
  {
   "property": "C89",
   "status": "partial",
   "theorems": [
    "Verif.Props.BTmrP.C89_basic_survives",
    "Verif.Props.BTmrP.C89_basic_vote",
    "Verif.Props.BTmrP.C89_basic_silent_violated",
    "Verif.Props.BTmrP.C89_quad_plurality",
    "Verif.Props.BTmrP.C89_quad_unique_winner",
    "Verif.Props.BTmrP.C89_quad_survives",
    "Verif.Props.BTmrP.C89_quad_repair",
    "Verif.Props.BTmrP.C89_quad_tie_violated",
    "Verif.Props.BTmrP.C89_quad_error_count_violated"
   ],
   "note": "Survival, plurality and repair proved for all histories; the 2-2 tie depends on hash order, three-way disagreement is erased by repair, and the error counter never exceeds one (violated)."
  },
  {
   "property": "C90",
   "status": "partial",
   "theorems": [
    "Verif.Props.BTmrP.C90_clean",
    "Verif.Props.BTmrP.C90_single_fault",
    "Verif.Props.BTmrP.C90_flags_partial",
    "Verif.Props.BTmrP.C90_no_majority",
    "Verif.Props.BTmrP.C90_unreported_violated",
    "Verif.Props.BTmrP.C90_high_levels_violated",
    "Verif.Props.BTmrP.C90_factors",
    "Verif.Props.BTmrP.C90_level_monotone",
    "Verif.Props.BTmrP.C90_history",
    "Verif.Props.BTmrP.C90_unreachable_levels_violated",
    "Verif.Props.BTmrP.C90_tolerance_violated"
   ],
   "note": "Masking at BASIC/ENHANCED, factor bounds, monotonicity and history-independence proved; unreported disagreements, levels 3-5 returning a single faulty execution, unreachable HYBRID level and tolerance > 100 are proved violations. Doubles are exact rationals."
  },
  {
   "property": "C91",
   "status": "partial",
   "theorems": [
    "Verif.Props.PhysP.C91_temperature",
    "Verif.Props.PhysP.C91_threshold_direction_violated",
    "Verif.Props.PhysP.C91_load_factor",
    "Verif.Props.PhysP.C91_compressive_violated",
    "Verif.Props.PhysP.C91_synergy"
   ],
   "note": "Real arithmetic. The threshold rises with temperature, contrary to its documentation, and compressive stress is not normalised (violated)."
  },
  {
   "property": "C92",
   "status": "partial",
   "theorems": [
    "Verif.Props.PhysP.C92_conservation",
    "Verif.Props.PhysP.C92_proportional",
    "Verif.Props.PhysP.C92_environment_ignored_violated",
    "Verif.Props.PhysP.C92_severity",
    "Verif.Props.PhysP.C92_zero_flux_violated",
    "Verif.Props.PhysP.C92_level",
    "Verif.Props.PhysP.C92_few_protected_violated"
   ],
   "note": "Severity cancels out, zero flux makes all shares equal, and at most three layers can get more than BASIC_TMR (violated)."
  },
  {
   "property": "C93",
   "status": "partial",
   "theorems": [
    "Verif.Props.PhysP.C93_update",
    "Verif.Props.PhysP.C93_nothing_updated_violated",
    "Verif.Props.PhysP.C93_rate",
    "Verif.Props.PhysP.C93_history",
    "Verif.Props.PhysP.C93_range_partial",
    "Verif.Props.PhysP.C93_unbounded_violated",
    "Verif.Props.PhysP.C93_factor",
    "Verif.Props.PhysP.C93_defined_partial",
    "Verif.Props.PhysP.C93_undefined_violated"
   ],
   "note": "Update/rate/freshness proved for all histories; MICROSECOND is returned when nothing was updated, its state has no bound, and zero tolerance or extreme flux is undefined (violated)."
  },
  {
   "property": "C94",
   "status": "partial",
   "theorems": [
    "Verif.Props.PhysP.C94_level",
    "Verif.Props.PhysP.C94_worst_case",
    "Verif.Props.PhysP.C94_single_fault",
    "Verif.Props.PhysP.C94_health_forgotten_violated",
    "Verif.Props.PhysP.C94_phase_ignored_violated",
    "Verif.Props.PhysP.C94_phase_reported",
    "Verif.Props.PhysP.C94_checkpoint",
    "Verif.Props.PhysP.C94_delay"
   ],
   "note": "Single-fault masking, level, monotone checkpoint interval for all reachable states; phases and criticality have no effect, health is forgotten (violated)."
  },
  {
   "property": "C95",
   "status": "partial",
   "theorems": [
    "Verif.Props.PhysP.C95_forward_partial",
    "Verif.Props.PhysP.C95_empty_input_violated",
    "Verif.Props.PhysP.C95_shape_violated",
    "Verif.Props.PhysP.C95_last_write"
   ],
   "note": "Result for fitting shapes at every level; an empty input divides by zero, superfluous weights are accepted and NaN becomes 0 (violated)."
  },
  {
   "property": "C96",
   "status": "proved",
   "theorems": [
    "Verif.Props.ConvP.C96_output_size",
    "Verif.Props.ConvP.C96_oversized_kernel_limit",
    "Verif.Props.ConvP.C96_forward_any",
    "Verif.Props.ConvP.C96_forward",
    "Verif.Props.ConvP.C96_windows_inside"
   ],
   "note": "Element arithmetic is a parameter (exact semirings for the sum form). A kernel larger than the padded input makes the output extents wrap (C96_oversized_kernel_limit)."
  },
  {
   "property": "C97",
   "status": "proved",
   "theorems": [
    "Verif.Props.ConvP.C97_parameter",
    "Verif.Props.ConvP.C97_forward",
    "Verif.Props.ConvP.C97_defined",
    "Verif.Props.ConvP.C97_two_copies_limit",
    "Verif.Props.ConvP.C97_no_majority_limit",
    "Verif.Props.ConvP.C97_bounds"
   ],
   "note": "Two struck copies are beyond what triple redundancy promises; what happens then is stated by the _limit theorems."
  },
  {
   "property": "C98",
   "status": "proved",
   "theorems": [
    "Verif.Props.ScrubTP.C98_no_crash",
    "Verif.Props.ScrubTP.C98_stop",
    "Verif.Props.ScrubTP.C98_stop_returns",
    "Verif.Props.ScrubTP.C98_keeps_scrubbing",
    "Verif.Props.ScrubTP.C98_two_starts_limit",
    "Verif.Props.ScrubTP.C98_restart_limit",
    "Verif.Props.ScrubTP.C98_two_stops_limit"
   ],
   "note": "Atomic steps are single accesses of running_ and scrub_thread_; the callback is assumed to return and not to call the scrubber. Concurrent control from several threads is outside the claim: the _limit theorems show it can terminate the program."
  },
  {
   "property": "C99",
   "status": "partial",
   "theorems": [
    "Verif.Props.ScrubTP.C99_enabled",
    "Verif.Props.ScrubTP.C99_disable_then_destroy",
    "Verif.Props.ScrubTP.C99_destroy_violated",
    "Verif.Props.ScrubTP.C99_read_during_repair",
    "Verif.Props.ScrubTP.C99_repair_snapshots",
    "Verif.Props.ScrubTP.C99_lost_update_violated",
    "Verif.Props.ScrubTP.C99_race_values",
    "Verif.Props.ScrubTP.C99_sequential"
   ],
   "note": "Reads during a repair and sequential use are right; destroying a model with scrubbing enabled can call a pure virtual function in every such history, and an update overlapped by a pass can be lost (violated). Data races get their most favourable meaning."
  },
  {
   "property": "C100",
   "status": "partial",
   "theorems": [
    "Verif.Props.PowerP.C100_budget",
    "Verif.Props.PowerP.C100_shares",
    "Verif.Props.PowerP.C100_degenerate_violated"
   ],
   "note": "double is exact rational arithmetic (non-finite values as a distinct result), std::sort any function with its contract. A component with equal minimum and maximum level makes the sum NaN and pins everyone at the emergency level (violated)."
  },
  {
   "property": "C101",
   "status": "partial",
   "theorems": [
    "Verif.Props.PowerP.C101_priority",
    "Verif.Props.PowerP.C101_exhausted_partial",
    "Verif.Props.PowerP.C101_step_limit_violated",
    "Verif.Props.PowerP.C101_more_power_limit"
   ],
   "note": "Priority proved; one hundred steps are shared by all components, so power can be left over with components at their minimum (violated). More power may mean less protection for one component (limit)."
  },
  {
   "property": "C102",
   "status": "partial",
   "theorems": [
    "Verif.Props.PowerP.C102_emergency",
    "Verif.Props.PowerP.C102_over_budget_violated",
    "Verif.Props.PowerP.C102_negative_power_violated"
   ],
   "note": "Levels as documented; the budget is not kept when all components are critical, and reported power can be negative (violated)."
  },
  {
   "property": "C103",
   "status": "proved",
   "theorems": [
    "Verif.Props.PowerP.C103_registry",
    "Verif.Props.PowerP.C103_history_independent"
   ],
   "note": "Arbitrary histories, of valid components or not."
  },
  {
   "property": "C104",
   "status": "partial",
   "theorems": [
    "Verif.Props.PowerP.C104_effectiveness",
    "Verif.Props.PowerP.C104_never_excellent_violated",
    "Verif.Props.PowerP.C104_negative_violated",
    "Verif.Props.PowerP.C104_error_rate",
    "Verif.Props.PowerP.C104_documented_reduction_violated"
   ],
   "note": "Mean and bounds proved while the minimum fits; never 1 with two components that matter, negative in an emergency, and the documented reduction of 70 % at 0.5 is more than 90 % (violated). The exponential is the real one."
  },
  {
   "property": "C105",
   "status": "proved",
   "theorems": [
    "Verif.Props.DiversityP.C105_consensus",
    "Verif.Props.DiversityP.C105_right_wins",
    "Verif.Props.DiversityP.C105_fallback",
    "Verif.Props.DiversityP.C105_empty_name_limit",
    "Verif.Props.DiversityP.C105_order_irrelevant"
   ],
   "note": "Results are any linearly ordered type, implementations arbitrary functions that return or throw; scores exact rationals. An implementation with the empty name is no fallback (limit)."
  },
  {
   "property": "C106",
   "status": "partial",
   "theorems": [
    "Verif.Props.DiversityP.C106_range",
    "Verif.Props.DiversityP.C106_updates",
    "Verif.Props.DiversityP.C106_follows",
    "Verif.Props.DiversityP.C106_outvoted_limit",
    "Verif.Props.DiversityP.C106_shrink_violated",
    "Verif.Props.DiversityP.C106_grow",
    "Verif.Props.DiversityP.C106_size_zero_violated"
   ],
   "note": "Shrinking the history forgets the most recent outcomes, and a history of size 0 is undefined behaviour (violated)."
  },
  {
   "property": "C107",
   "status": "partial",
   "theorems": [
    "Verif.Props.ErrorLookupP.C107_detection",
    "Verif.Props.ErrorLookupP.C107_correction",
    "Verif.Props.ErrorLookupP.C107_suggestion_known",
    "Verif.Props.ErrorLookupP.C107_input_ignored_violated",
    "Verif.Props.ErrorLookupP.C107_similar_violated",
    "Verif.Props.ErrorLookupP.C107_low_threshold_limit"
   ],
   "note": "Lookup and thresholds proved; the input of a correction is ignored and similarity is never used (violated)."
  },
  {
   "property": "C108",
   "status": "partial",
   "theorems": [
    "Verif.Props.LoggerP.C108_console",
    "Verif.Props.LoggerP.C108_file_sublist",
    "Verif.Props.LoggerP.C108_file",
    "Verif.Props.LoggerP.C108_repath_violated",
    "Verif.Props.LoggerP.C108_silent_limit"
   ],
   "note": "Files are append-only lists of lines. init with another path while a file is open is ignored (violated)."
  },
  {
   "property": "C109",
   "status": "partial",
   "theorems": [
    "Verif.Props.HwAccelP.C109_masking",
    "Verif.Props.HwAccelP.C109_failure",
    "Verif.Props.HwAccelP.C109_no_majority_violated",
    "Verif.Props.HwAccelP.C109_never_executes_violated"
   ],
   "note": "Masking and failure proved for every accelerator; three different results are averaged and reported as success, and the class as written never has an accelerator (violated)."
  },
  {
   "property": "C110",
   "status": "partial",
   "theorems": [
    "Verif.Props.HwAccelP.C110_accelerator",
    "Verif.Props.HwAccelP.C110_system",
    "Verif.Props.HwAccelP.C110_voting_helps",
    "Verif.Props.HwAccelP.C110_phantom_tmr_violated"
   ],
   "note": "Real exponential. Mentioning hardware TMR switches software voting off with no hardware present (violated)."
  },
  {
   "property": "C111",
   "status": "partial",
   "theorems": [
    "Verif.ErrorPredictor.C111_range",
    "Verif.ErrorPredictor.C111_prediction",
    "Verif.ErrorPredictor.C111_gradient",
    "Verif.ErrorPredictor.C111_direction",
    "Verif.ErrorPredictor.C111_negative_level_limit",
    "Verif.ErrorPredictor.C111_fresh_violated"
   ],
   "note": "Real weights or NaN, no rounding or overflow. Gradient and direction of a step proved for all networks; a fresh predictor can rank no radiation above the highest level, as only five of its twenty weights are set (violated); negative levels make the network ignore the level for good (limit)."
  },
  {
   "property": "C112",
   "status": "partial",
   "theorems": [
    "Verif.ErrorPredictor.C112_bands",
    "Verif.ErrorPredictor.C112_monotone",
    "Verif.ErrorPredictor.C112_low_band_violated",
    "Verif.ErrorPredictor.C112_negative_violated"
   ],
   "note": "Exact rationals. Bands and monotonicity from 1e-8 up; below, results exceed 1, are negative, and drop at 1e-8 (violated)."
  },
  {
   "property": "C113",
   "status": "partial",
   "theorems": [
    "Verif.ResidualNet.C113_results",
    "Verif.ResidualNet.C113_registry",
    "Verif.ResidualNet.C113_projection",
    "Verif.ResidualNet.C113_copy",
    "Verif.ResidualNet.C113_no_effect_violated"
   ],
   "note": "Keys are decimal byte strings, parsing as std::stoull. Registry proved; skip connections have no effect on any output (violated)."
  },
  {
   "property": "C114",
   "status": "partial",
   "theorems": [
    "Verif.ResidualNet.C114_roundtrip",
    "Verif.ResidualNet.C114_history",
    "Verif.ResidualNet.C114_network_violated",
    "Verif.ResidualNet.C114_projection_violated",
    "Verif.ResidualNet.C114_truncated_violated",
    "Verif.ResidualNet.C114_failed_load_violated",
    "Verif.ResidualNet.C114_short_violated"
   ],
   "note": "Byte-level model of the file and of short reads. Connections, weights and flags come back in any order; projections and the network's weights do not, truncated files are accepted, failed loads lose the connections, files under 8 bytes are undefined behaviour (violated)."
  },
  {
   "property": "C115",
   "status": "partial",
   "theorems": [
    "Verif.ResidualNet.C115_loss",
    "Verif.ResidualNet.C115_train_violated",
    "Verif.ResidualNet.C115_accuracy_violated"
   ],
   "note": "Exact rationals. Loss proved; training changes nothing and the accuracy can be negative or 1 without labels (violated)."
  },
  {
   "property": "C116",
   "status": "partial",
   "theorems": [
    "Verif.RadEnvironment.C116_range",
    "Verif.RadEnvironment.C116_shielding",
    "Verif.RadEnvironment.C116_materials",
    "Verif.RadEnvironment.C116_activity",
    "Verif.RadEnvironment.C116_heatmap",
    "Verif.RadEnvironment.C116_default_material_violated"
   ],
   "note": "Real numbers and real exponential. Range, monotonicity, materials and heat map proved; the default material is read uninitialised (violated)."
  },
  {
   "property": "C117",
   "status": "partial",
   "theorems": [
    "Verif.RadEnvironment.C117_order",
    "Verif.RadEnvironment.C117_sources",
    "Verif.RadEnvironment.C117_solar_probe_violated",
    "Verif.RadEnvironment.C117_geo_belt_violated"
   ],
   "note": "Order proved; the solar probe never gets its increase and the geostationary orbit leaves out the outer belt (violated)."
  },
  {
   "property": "C118",
   "status": "partial",
   "theorems": [
    "Verif.RadEnvironment.C118_distance",
    "Verif.RadEnvironment.C118_metric",
    "Verif.RadEnvironment.C118_bounds",
    "Verif.RadEnvironment.C118_vertical",
    "Verif.RadEnvironment.C118_altitude_violated",
    "Verif.RadEnvironment.C118_orbit",
    "Verif.RadEnvironment.C118_period",
    "Verif.RadEnvironment.C118_longitude_limit",
    "Verif.RadEnvironment.C118_before_epoch_limit"
   ],
   "note": "Distance proved equal to the hypotenuse of great-circle arc and altitude difference, and a metric on all positions (triangle inequality included); Kepler period. Above 3637 km the distance can be less than the straight line (violated)."
  },
  {
   "property": "C119",
   "status": "partial",
   "theorems": [
    "Verif.RadEnvironment.C119_flare",
    "Verif.RadEnvironment.C119_factor_violated",
    "Verif.RadEnvironment.C119_permanent_violated",
    "Verif.RadEnvironment.C119_negative_limit"
   ],
   "note": "Activity proved; the returned factor is not the flux increase and the flare never ends (violated)."
  },
  {
   "property": "C120",
   "status": "partial",
   "theorems": [
    "Verif.ArchTester.C120_range",
    "Verif.ArchTester.C120_accuracy",
    "Verif.ArchTester.C120_protection",
    "Verif.ArchTester.C120_data_violated",
    "Verif.ArchTester.C120_empty_violated",
    "Verif.ArchTester.C120_wrap_limit"
   ],
   "note": "Real numbers, the engine any function of its seed. Ranges, accuracy formula and protection order proved; the data and epochs are ignored and architectures without weights are undefined behaviour (violated)."
  },
  {
   "property": "C121",
   "status": "proved",
   "theorems": [
    "Verif.ArchTester.C121_best",
    "Verif.ArchTester.C121_default"
   ],
   "note": "max_element with the code's comparison, which is not a strict weak ordering, modelled as the loop libstdc++ runs."
  },
  {
   "property": "C122",
   "status": "partial",
   "theorems": [
    "Verif.ArchTester.C122_seeds",
    "Verif.ArchTester.C122_monte_carlo",
    "Verif.ArchTester.C122_range",
    "Verif.ArchTester.C122_offset_violated",
    "Verif.ArchTester.C122_zero_trials_violated"
   ],
   "note": "Means, deviations, ranges and distinct seeds proved; the seed offset has no effect and zero trials record an empty architecture (violated)."
  },
  {
   "property": "C123",
   "status": "partial",
   "theorems": [
    "Verif.ArchTester.C123_recorded",
    "Verif.ArchTester.C123_width_violated",
    "Verif.ArchTester.C123_dropout_violated"
   ],
   "note": "Only the lower end of the range is tested (violated)."
  },
  {
   "property": "C124",
   "status": "partial",
   "theorems": [
    "Verif.ArchTester.C124_appended",
    "Verif.ArchTester.C124_start",
    "Verif.ArchTester.C124_duplicates_violated",
    "Verif.ArchTester.C124_digits",
    "Verif.ArchTester.C124_columns",
    "Verif.ArchTester.C124_precision_violated"
   ],
   "note": "File as list of lines with numbers to six digits. Nothing lost, header, relative error proved; every save repeats all earlier results and digits are lost (violated)."
  },
  {
   "property": "C125",
   "status": "partial",
   "theorems": [
    "Verif.AutoSearch.C125_fixed",
    "Verif.AutoSearch.C125_size",
    "Verif.AutoSearch.C125_free",
    "Verif.AutoSearch.C125_random_reaches",
    "Verif.AutoSearch.C125_missing_violated"
   ],
   "note": "Exact membership, size and random reachability proved; without a set depth two equal hidden widths are never in the grid (violated)."
  },
  {
   "property": "C126",
   "status": "partial",
   "theorems": [
    "Verif.AutoSearch.C126_equality",
    "Verif.AutoSearch.C126_order",
    "Verif.AutoSearch.C126_tolerance_violated"
   ],
   "note": "Exact for dropouts equal or at least 1e-6 apart; within that tolerance the order is not transitive (violated)."
  },
  {
   "property": "C127",
   "status": "partial",
   "theorems": [
    "Verif.AutoSearch.C127_grid",
    "Verif.AutoSearch.C127_new",
    "Verif.AutoSearch.C127_labels_violated",
    "Verif.AutoSearch.C127_empty_violated",
    "Verif.AutoSearch.C127_no_trials_violated"
   ],
   "note": "Best of the whole grid and look-up proved; no labels, no options or zero Monte Carlo trials are undefined behaviour (violated)."
  },
  {
   "property": "C128",
   "status": "partial",
   "theorems": [
    "Verif.AutoSearch.C128_random",
    "Verif.AutoSearch.C128_hang_violated",
    "Verif.AutoSearch.C128_after_grid_violated",
    "Verif.AutoSearch.C128_zero_violated"
   ],
   "note": "Whenever it returns it is right; once everything drawable has been tested, for example by a grid search, it never returns (violated)."
  },
  {
   "property": "C129",
   "status": "partial",
   "theorems": [
    "Verif.AutoSearch.C129_tournament",
    "Verif.AutoSearch.C129_generation",
    "Verif.AutoSearch.C129_evolution",
    "Verif.AutoSearch.C129_crossover",
    "Verif.AutoSearch.C129_rate",
    "Verif.AutoSearch.C129_mutation",
    "Verif.AutoSearch.C129_empty_violated"
   ],
   "note": "Totality, elitism, closure of crossover and mutation, optimality among tested proved by induction over generations; empty population or no generations are undefined behaviour (violated)."
  },
  {
   "property": "C130",
   "status": "partial",
   "theorems": [
    "Verif.RadTraining.C130_rejected",
    "Verif.RadTraining.C130_samples",
    "Verif.RadTraining.C130_presented",
    "Verif.RadTraining.C130_total",
    "Verif.RadTraining.C130_config_violated",
    "Verif.RadTraining.C130_negative_batch_violated",
    "Verif.RadTraining.C130_empty_violated",
    "Verif.RadTraining.C130_unlearned_violated",
    "Verif.RadTraining.C130_damage_violated"
   ],
   "note": "Rejection, presentation order and totality proved for every network; library networks never learn, probability or batch size 0 is undefined behaviour, negative batch sizes train on nothing, flips are never undone (violated)."
  },
  {
   "property": "C131",
   "status": "partial",
   "theorems": [
    "Verif.RadTraining.C131_flips",
    "Verif.RadTraining.C131_rates",
    "Verif.RadTraining.C131_off",
    "Verif.RadTraining.C131_certain",
    "Verif.RadTraining.C131_environment_violated"
   ],
   "note": "Shape, single flips, exact rates and counting proved for every stream; the environment factors are not ordered by harshness (violated)."
  },
  {
   "property": "C132",
   "status": "partial",
   "theorems": [
    "Verif.RadTraining.C132_restored",
    "Verif.RadTraining.C132_range",
    "Verif.RadTraining.C132_map",
    "Verif.RadTraining.C132_sampled_violated",
    "Verif.RadTraining.C132_half_violated",
    "Verif.RadTraining.C132_total",
    "Verif.RadTraining.C132_reuse_violated",
    "Verif.RadTraining.C132_empty_layer_violated"
   ],
   "note": "Restoration, range, coverage and totality proved; unmeasured weights are rated 0, library networks rate only 0 or 1/2, a map of another network or an empty layer is undefined behaviour (violated)."
  },
  {
   "property": "C133",
   "status": "partial",
   "theorems": [
    "Verif.RadTraining.C133_accounting",
    "Verif.RadTraining.C133_bounded",
    "Verif.RadTraining.C133_flips",
    "Verif.RadTraining.C133_blind_violated",
    "Verif.RadTraining.C133_nan_violated",
    "Verif.RadTraining.C133_average_violated",
    "Verif.RadTraining.C133_repeat_violated"
   ],
   "note": "Flips and bounds proved; library networks always report 0, the divisor is not the number of injections, earlier averages are divided again, no samples give NaN (violated)."
  },
  {
   "property": "C134",
   "status": "partial",
   "theorems": [
    "Verif.RadTraining.C134_contents",
    "Verif.RadTraining.C134_label_violated",
    "Verif.RadTraining.C134_bare_name_violated",
    "Verif.RadTraining.C134_full_violated"
   ],
   "note": "Contents proved line by line; the column of a weight is missing, a bare file name is refused, a full device is reported as success (violated)."
  },
  {
   "property": "C135",
   "status": "partial",
   "theorems": [
    "Verif.SpaceMission.C135_property",
    "Verif.SpaceMission.C135_predefined",
    "Verif.SpaceMission.C135_names",
    "Verif.SpaceMission.C135_constructor_violated"
   ],
   "note": "Factory and properties proved; the public constructor gives every type flux 0 and the name of ground level (violated)."
  },
  {
   "property": "C136",
   "status": "partial",
   "theorems": [
    "Verif.SpaceMission.C136_during",
    "Verif.SpaceMission.C136_after",
    "Verif.SpaceMission.C136_before",
    "Verif.SpaceMission.C136_complete",
    "Verif.SpaceMission.C136_negative_violated"
   ],
   "note": "Proved for durations that are not negative and whose sums fit 64 bits; negative durations are accepted and hide phases (violated)."
  },
  {
   "property": "C137",
   "status": "partial",
   "theorems": [
    "Verif.SpaceMission.C137_worst",
    "Verif.SpaceMission.C137_none",
    "Verif.SpaceMission.C137_exposure",
    "Verif.SpaceMission.C137_add",
    "Verif.SpaceMission.C137_bound",
    "Verif.SpaceMission.C137_shield_violated"
   ],
   "note": "Proved for every mission; shielding and distance from the Sun of the phases are ignored (violated)."
  },
  {
   "property": "C138",
   "status": "partial",
   "theorems": [
    "Verif.SpaceMission.C138_usable",
    "Verif.SpaceMission.C138_length",
    "Verif.SpaceMission.C138_named",
    "Verif.SpaceMission.C138_unconfigured_violated",
    "Verif.SpaceMission.C138_shared_violated",
    "Verif.SpaceMission.C138_separate"
   ],
   "note": "Usability proved for every target; seven targets get the phases of low Earth orbit, and the lunar and Mars missions share one environment between two legs (violated)."
  },
  {
   "property": "C139",
   "status": "partial",
   "theorems": [
    "Verif.Autoencoder.C139_encode",
    "Verif.Autoencoder.C139_reject",
    "Verif.Autoencoder.C139_pre",
    "Verif.Autoencoder.C139_constant_violated"
   ],
   "note": "Sizes, ranges, rejection and standardization proved for every reachable autoencoder over any network that keeps its layers; all constant inputs are encoded alike (violated)."
  },
  {
   "property": "C140",
   "status": "partial",
   "theorems": [
    "Verif.Autoencoder.C140_sample",
    "Verif.Autoencoder.C140_reproducible",
    "Verif.Autoencoder.C140_reparameterized",
    "Verif.Autoencoder.C140_short_limit",
    "Verif.Autoencoder.C140_techniques_violated",
    "Verif.Autoencoder.C140_seed_violated"
   ],
   "note": "Sampling formula and reproducibility proved; importance and adversarial sampling are plain sampling, seeds equal modulo 2^32 coincide (violated)."
  },
  {
   "property": "C141",
   "status": "partial",
   "theorems": [
    "Verif.Autoencoder.C141_mirrored",
    "Verif.Autoencoder.C141_decode",
    "Verif.Autoencoder.C141_reject",
    "Verif.Autoencoder.C141_forward",
    "Verif.Autoencoder.C141_generate",
    "Verif.Autoencoder.C141_reproducible",
    "Verif.Autoencoder.C141_inverse",
    "Verif.Autoencoder.C141_range_violated"
   ],
   "note": "Sizes, rejection, reproducibility and inversion proved; a sigmoid output layer keeps every reconstruction in 0..e-1, so no negative or larger input is reconstructed (violated)."
  },
  {
   "property": "C142",
   "status": "partial",
   "theorems": [
    "Verif.Autoencoder.C142_linear",
    "Verif.Autoencoder.C142_learned",
    "Verif.Autoencoder.C142_reject",
    "Verif.Autoencoder.C142_end_violated"
   ],
   "note": "Linear interpolation proved with both ends; with the learned interpolator the weight 1 does not give the second vector (violated)."
  },
  {
   "property": "C143",
   "status": "partial",
   "theorems": [
    "Verif.Autoencoder.C143_divergence",
    "Verif.Autoencoder.C143_reconstruction",
    "Verif.Autoencoder.C143_gradients",
    "Verif.Autoencoder.C143_total",
    "Verif.Autoencoder.C143_small_input_violated",
    "Verif.Autoencoder.C143_interpolation_violated"
   ],
   "note": "Divergence, reconstruction and gradients proved; the interpolation loss compares an output with latent vectors: undefined behaviour for more latent dimensions than inputs, never 0 for negative midpoints (violated)."
  },
  {
   "property": "C144",
   "status": "partial",
   "theorems": [
    "Verif.Autoencoder.C144_split",
    "Verif.Autoencoder.C144_share_violated",
    "Verif.Autoencoder.C144_single_violated",
    "Verif.Autoencoder.C144_batches",
    "Verif.Autoencoder.C144_zero_violated",
    "Verif.Autoencoder.C144_negative_limit"
   ],
   "note": "Split for shares in 0..1 and batches for positive sizes proved; shares out of range throw or are undefined, a single datum is never trained on, batch size 0 never ends (violated)."
  },
  {
   "property": "C145",
   "status": "partial",
   "theorems": [
    "Verif.Autoencoder.C145_metrics",
    "Verif.Autoencoder.C145_returns",
    "Verif.Autoencoder.C145_returns_split",
    "Verif.Autoencoder.C145_no_validation_violated"
   ],
   "note": "Metrics, early stopping and termination proved; with the share 0 no validation loss is a number and training gives up after the patience (violated)."
  },
  {
   "property": "C146",
   "status": "partial",
   "theorems": [
    "Verif.Autoencoder.C146_learning_violated",
    "Verif.Autoencoder.C146_legacy_violated",
    "Verif.Autoencoder.C146_loss",
    "Verif.Autoencoder.C146_average_violated",
    "Verif.Autoencoder.C146_zero_violated"
   ],
   "note": "No training changes any network; the loss of train() is divided by one batch too many when the batch size divides the data (violated)."
  },
  {
   "property": "C147",
   "status": "partial",
   "theorems": [
    "Verif.Autoencoder.C147_majority",
    "Verif.Autoencoder.C147_unchanged",
    "Verif.Autoencoder.C147_near",
    "Verif.Autoencoder.C147_counts_violated",
    "Verif.Autoencoder.C147_noise_violated",
    "Verif.Autoencoder.C147_pair_violated"
   ],
   "note": "Majority, distance bound and unchanged values up to level 0.5 proved; above it protection itself adds noise and counts it as corrections, and the two closest copies are not always chosen (violated)."
  },
  {
   "property": "C148",
   "status": "partial",
   "theorems": [
    "Verif.Autoencoder.C148_reset",
    "Verif.Autoencoder.C148_totals",
    "Verif.Autoencoder.C148_strike",
    "Verif.Autoencoder.C148_copy",
    "Verif.Autoencoder.C148_metrics_violated"
   ],
   "note": "Totals, reset and behaviour of copies proved; metrics are not copied (violated)."
  },
  {
   "property": "C149",
   "status": "partial",
   "theorems": [
    "Verif.Autoencoder.C149_save",
    "Verif.Autoencoder.C149_missing",
    "Verif.Autoencoder.C149_load_violated",
    "Verif.Autoencoder.C149_cut_violated",
    "Verif.Autoencoder.C149_damaged_violated",
    "Verif.Autoencoder.C149_model_violated"
   ],
   "note": "Contents of saved files and refusal of missing ones proved; loading a saved file is undefined, a file cut short before the configuration is accepted, a damaged one changes the object, loadModel accepts no file (violated)."
  },
  {
   "property": "C150",
   "status": "partial",
   "theorems": [
    "Verif.RadSimulator.C150_shares",
    "Verif.RadSimulator.C150_monotone",
    "Verif.RadSimulator.C150_orbit",
    "Verif.RadSimulator.C150_altitude_violated",
    "Verif.RadSimulator.C150_missions",
    "Verif.RadSimulator.C150_jupiter_violated",
    "Verif.RadSimulator.C150_name_violated"
   ],
   "note": "Shares, monotonicity and missions proved; above 36000 km the rate drops and is constant, Jupiter has a lower rate than low Earth orbit, the place is guessed from substrings of the name (violated)."
  },
  {
   "property": "C151",
   "status": "partial",
   "theorems": [
    "Verif.RadSimulator.C151_events",
    "Verif.RadSimulator.C151_contained",
    "Verif.RadSimulator.C151_empty_violated",
    "Verif.RadSimulator.C151_instant_violated",
    "Verif.RadSimulator.C151_stuck_violated",
    "Verif.RadSimulator.C151_harmless_violated"
   ],
   "note": "Events and containment proved for non-empty regions, positive time and rate; empty regions write outside, time 0 is undefined, latch-ups are not sticky and events need not change anything (violated)."
  },
  {
   "property": "C152",
   "status": "proved",
   "theorems": [
    "Verif.RadSimulator.C152_kinds"
   ],
   "note": "Proved: the interval of each kind has the length of its share."
  },
  {
   "property": "C153",
   "status": "partial",
   "theorems": [
    "Verif.MissionSim.C153_sound",
    "Verif.MissionSim.C153_unknown_violated"
   ],
   "note": "Soundness of every standard profile proved; misspelled names silently become low Earth orbit (violated)."
  },
  {
   "property": "C154",
   "status": "partial",
   "theorems": [
    "Verif.MissionSim.C154_select",
    "Verif.MissionSim.C154_total",
    "Verif.MissionSim.C154_surplus_violated",
    "Verif.MissionSim.C154_announced"
   ],
   "note": "Selection intervals, completeness and announcements proved; surplus probabilities read outside the environments (violated)."
  },
  {
   "property": "C155",
   "status": "partial",
   "theorems": [
    "Verif.MissionSim.C155_time",
    "Verif.MissionSim.C155_attributed",
    "Verif.MissionSim.C155_stay",
    "Verif.MissionSim.C155_due",
    "Verif.MissionSim.C155_returns",
    "Verif.MissionSim.C155_standard",
    "Verif.MissionSim.C155_zero_violated",
    "Verif.MissionSim.C155_empty_violated"
   ],
   "note": "Number of steps, attribution, stay, due changes and termination proved; step 0 is undefined or never ends, an empty profile is undefined (violated)."
  },
  {
   "property": "C156",
   "status": "proved",
   "theorems": [
    "Verif.MissionSim.C156_books",
    "Verif.MissionSim.C156_chances",
    "Verif.MissionSim.C156_run",
    "Verif.MissionSim.C156_names"
   ],
   "note": "Invariant over all histories."
  },
  {
   "property": "C157",
   "status": "partial",
   "theorems": [
    "Verif.MissionSim.C157_range",
    "Verif.MissionSim.C157_share",
    "Verif.MissionSim.C157_quiet_violated",
    "Verif.MissionSim.C157_missed_violated"
   ],
   "note": "Range and share proved; a mission without detected errors has uptime 0, undetected errors do not count (violated)."
  },
  {
   "property": "C158",
   "status": "partial",
   "theorems": [
    "Verif.MissionSim.C158_level",
    "Verif.MissionSim.C158_fixed",
    "Verif.MissionSim.C158_low_violated",
    "Verif.MissionSim.C158_high_violated"
   ],
   "note": "Order of levels and fixed protection proved; low threshold and energy figures have no effect, the high level is never reached on a standard mission (violated)."
  },
  {
   "property": "C159",
   "status": "partial",
   "theorems": [
    "Verif.MissionSim.C159_scrubbing",
    "Verif.MissionSim.C159_memory",
    "Verif.MissionSim.C159_protection_violated",
    "Verif.MissionSim.C159_corrected_violated"
   ],
   "note": "Bounds on scrubbing cycles and exact damage proved; nothing is ever corrected: the final memory does not depend on the protection (violated)."
  },
  {
   "property": "C160",
   "status": "partial",
   "theorems": [
    "Verif.QuantumField.C160_construct",
    "Verif.QuantumField.C160_set_get",
    "Verif.QuantumField.C160_outside",
    "Verif.QuantumField.C160_zero_violated",
    "Verif.QuantumField.C160_large_violated"
   ],
   "note": "Construction, addressing and refusals proved; a dimension of 0 is a division by 0, above 2^31 points different positions share a value (violated)."
  },
  {
   "property": "C161",
   "status": "proved",
   "theorems": [
    "Verif.QuantumField.C161_coherent",
    "Verif.QuantumField.C161_gaussian",
    "Verif.QuantumField.C161_create",
    "Verif.QuantumField.C161_deviation_limit"
   ],
   "note": "Both initial states and createParticleField proved; a deviation that is not positive is undefined (limit)."
  },
  {
   "property": "C162",
   "status": "partial",
   "theorems": [
    "Verif.QuantumField.C162_formula",
    "Verif.QuantumField.C162_energy",
    "Verif.QuantumField.C162_uniform",
    "Verif.QuantumField.C162_flat",
    "Verif.QuantumField.C162_default_violated"
   ],
   "note": "Formula, sign, zero and uniform case proved; four of the eight types have no mass by default and throw (violated)."
  },
  {
   "property": "C163",
   "status": "partial",
   "theorems": [
    "Verif.QuantumField.C163_evolve",
    "Verif.QuantumField.C163_energy",
    "Verif.QuantumField.C163_modulus",
    "Verif.QuantumField.C163_correlation_violated"
   ],
   "note": "Evolution and energy for any number of steps proved; the correlation function does not look at the field (violated)."
  },
  {
   "property": "C164",
   "status": "partial",
   "theorems": [
    "Verif.QuantumField.C164_kleinGordon",
    "Verif.QuantumField.C164_dissipation_violated",
    "Verif.QuantumField.C164_dirac_violated",
    "Verif.QuantumField.C164_propagator_violated"
   ],
   "note": "Klein-Gordon step and refusal proved; its dissipation lets amplitudes grow without bound, the Dirac step does nothing and the propagators are constantly 1 (violated)."
  },
  {
   "property": "C165",
   "status": "partial",
   "theorems": [
    "Verif.QuantumField.C165_refused",
    "Verif.QuantumField.C165_maxwell",
    "Verif.QuantumField.C165_lattice_violated",
    "Verif.QuantumField.C165_interact",
    "Verif.QuantumField.C165_fermions",
    "Verif.QuantumField.C165_steps_violated"
   ],
   "note": "Maxwell step and interaction of lists proved; different lattices are noticed only after changes, the number of steps is ignored (violated)."
  },
  {
   "property": "C166",
   "status": "proved",
   "theorems": [
    "Verif.QuantumPhysics.C166_range",
    "Verif.QuantumPhysics.C166_formula",
    "Verif.QuantumPhysics.C166_monotone",
    "Verif.QuantumPhysics.C166_type",
    "Verif.QuantumPhysics.C166_negative_limit"
   ],
   "note": "Range, formula, monotonicity and refusal proved; negative absolute temperatures give certainty (limit)."
  },
  {
   "property": "C167",
   "status": "partial",
   "theorems": [
    "Verif.QuantumPhysics.C167_formula",
    "Verif.QuantumPhysics.C167_monotone",
    "Verif.QuantumPhysics.C167_defect",
    "Verif.QuantumPhysics.C167_units_violated"
   ],
   "note": "Formula, sign, monotonicity and correction proved; the units do not fit, the default correction exceeds 50 MeV (violated)."
  },
  {
   "property": "C168",
   "status": "partial",
   "theorems": [
    "Verif.QuantumPhysics.C168_correct",
    "Verif.QuantumPhysics.C168_factors",
    "Verif.QuantumPhysics.C168_scale_violated"
   ],
   "note": "Scaling of exactly the processed types and bounds of the factors proved; the temperature scale multiplies defects although the quantum factors are 1 (violated)."
  },
  {
   "property": "C169",
   "status": "partial",
   "theorems": [
    "Verif.QuantumPhysics.C169_cascade",
    "Verif.QuantumPhysics.C169_nothing_violated"
   ],
   "note": "Counts, non-negativity and monotonicity proved; 15 defects of the default constructor are always reported for protons, even below the threshold (violated)."
  },
  {
   "property": "C170",
   "status": "partial",
   "theorems": [
    "Verif.QuantumPhysics.C170_displacement",
    "Verif.QuantumPhysics.C170_silicon_violated"
   ],
   "note": "Formula, sign and refusal proved; the value for silicon is more than 10 MeV instead of tens of eV (violated)."
  },
  {
   "property": "C171",
   "status": "proved",
   "theorems": [
    "Verif.QuantumPhysics.C171_decoherence",
    "Verif.QuantumPhysics.C171_transition"
   ],
   "note": "Both functions proved."
  },
  {
   "property": "C172",
   "status": "partial",
   "theorems": [
    "Verif.QuantumPhysics.C172_deposit",
    "Verif.QuantumPhysics.C172_energy_violated",
    "Verif.QuantumPhysics.C172_ion_violated",
    "Verif.QuantumPhysics.C172_lattice_violated"
   ],
   "note": "Bounds and refusals proved; energy is ignored, the heavy ion is lighter than an electron and the lattice constant is converted twice (violated)."
  },
  {
   "property": "C173",
   "status": "partial",
   "theorems": [
    "Verif.QuantumPhysics.C173_critical",
    "Verif.QuantumPhysics.C173_cold_violated"
   ],
   "note": "Bounds and monotonicity proved; tunnelling lowers the charge less at lower temperatures (violated)."
  },
  {
   "property": "C174",
   "status": "partial",
   "theorems": [
    "Verif.QuantumPhysics.C174_sensitivity",
    "Verif.QuantumPhysics.C174_jump_violated"
   ],
   "note": "Values, formula and monotonicity proved; a jump by a factor above 10^33 just below 100 nm (violated)."
  },
  {
   "property": "C175",
   "status": "partial",
   "theorems": [
    "Verif.QuantumPhysics.C175_probability",
    "Verif.QuantumPhysics.C175_monotone",
    "Verif.QuantumPhysics.C175_drop_violated"
   ],
   "note": "Range, formula, zero and monotonicity from a tenth of the critical charge proved; the probability drops at that point (violated)."
  },
  {
   "property": "C176",
   "status": "partial",
   "theorems": [
    "Verif.QuantumPhysics.C176_size",
    "Verif.QuantumPhysics.C176_monotone",
    "Verif.QuantumPhysics.C176_overflow_violated"
   ],
   "note": "Range, formula and monotonicity proved; very large charges are undefined behaviour (violated)."
  },
  {
   "property": "C177",
   "status": "partial",
   "theorems": [
    "Verif.QuantumPhysics.C177_trivial",
    "Verif.QuantumPhysics.C177_apply",
    "Verif.QuantumPhysics.C177_harmless",
    "Verif.QuantumPhysics.C177_instant_violated",
    "Verif.QuantumPhysics.C177_long_violated"
   ],
   "note": "Containment, upset runs, relation of result to bits changed and harmless cases proved; a duration of 0 still hits, long exposures of large memories are undefined (violated)."
  },
  {
   "property": "C178",
   "status": "partial",
   "theorems": [
    "Verif.Props.NasaP.C178_metrics",
    "Verif.Props.NasaP.C178_no_event_violated",
    "Verif.Props.NasaP.C178_quiet_trial_violated"
   ],
   "note": "All metrics proved for at least one event; without an event they are NaN, and one such trial fails the whole environment (violated)."
  },
  {
   "property": "C179",
   "status": "partial",
   "theorems": [
    "Verif.Props.NasaP.C179_assessment",
    "Verif.Props.NasaP.C179_no_errors_violated",
    "Verif.Props.NasaP.C179_report",
    "Verif.Props.NasaP.C179_validation"
   ],
   "note": "Criteria of assessment and validation and the composition of the report proved; an environment without any error fails (violated)."
  },
  {
   "property": "C180",
   "status": "partial",
   "theorems": [
    "Verif.Props.NasaP.C180_never_compliant_violated",
    "Verif.Props.NasaP.C180_untested_compliant_violated",
    "Verif.Props.NasaP.C180_verdict_partial"
   ],
   "note": "The verdict is the same for all trials: never compliant with an environment, compliant without one (violated); proved that it depends on nothing else."
  },
  {
   "property": "C181",
   "status": "partial",
   "theorems": [
    "Verif.Props.NasaP.C181_criteria",
    "Verif.Props.NasaP.C181_not_measured_violated"
   ],
   "note": "Criteria proved; effectiveness is a constant, never measured (violated)."
  },
  {
   "property": "C182",
   "status": "partial",
   "theorems": [
    "Verif.Props.NasaP.C182_no_threshold_violated",
    "Verif.Props.NasaP.C182_leo_contradiction_violated",
    "Verif.Props.NasaP.C182_attainable"
   ],
   "note": "Attainable for four of seven environments; not for SAA, Van Allen and LEO (violated)."
  },
  {
   "property": "C183",
   "status": "partial",
   "theorems": [
    "Verif.Props.NasaP.C183_shielding",
    "Verif.Props.NasaP.C183_modifications",
    "Verif.Props.NasaP.C183_suitable",
    "Verif.Props.NasaP.C183_infinite_shielding_violated"
   ],
   "note": "Shielding and modifications proved as functions of the measured values; the measured LET threshold is always 0, the shielding infinite (violated)."
  },
  {
   "property": "C184",
   "status": "proved",
   "theorems": [
    "Verif.Props.NasaP.C184_correlation",
    "Verif.Props.NasaP.C184_percent",
    "Verif.Props.NasaP.C184_negative_limit"
   ],
   "note": "Proved for non-negative values; negative values are a stated limit."
  },
  {
   "property": "C185",
   "status": "proved",
   "theorems": [
    "Verif.Props.PhysicsSimP.C185_solar",
    "Verif.Props.PhysicsSimP.C185_solar_extremes",
    "Verif.Props.PhysicsSimP.C185_solar_dip_limit",
    "Verif.Props.PhysicsSimP.C185_shielding",
    "Verif.Props.PhysicsSimP.C185_shielding_range",
    "Verif.Props.PhysicsSimP.C185_thick_limit"
   ],
   "note": "Bounds, formulas and monotonicity proved; stated limits: slight dip at weak activity, floor from 20 mm on."
  },
  {
   "property": "C186",
   "status": "proved",
   "theorems": [
    "Verif.Props.PhysicsSimP.C186_rates",
    "Verif.Props.PhysicsSimP.C186_history",
    "Verif.Props.PhysicsSimP.C186_shielding",
    "Verif.Props.PhysicsSimP.C186_extremes"
   ],
   "note": "Proved for all histories."
  },
  {
   "property": "C187",
   "status": "partial",
   "theorems": [
    "Verif.Props.PhysicsSimP.C187_events",
    "Verif.Props.PhysicsSimP.C187_empty_violated",
    "Verif.Props.PhysicsSimP.C187_exceeds_memory_violated"
   ],
   "note": "Order, number and sizes proved; an empty period is undefined and an event may exceed the memory (violated)."
  },
  {
   "property": "C188",
   "status": "partial",
   "theorems": [
    "Verif.Props.PhysicsSimP.C188_timeline",
    "Verif.Props.PhysicsSimP.C188_standard",
    "Verif.Props.PhysicsSimP.C188_changes_environment_violated",
    "Verif.Props.PhysicsSimP.C188_missing_duration_violated"
   ],
   "note": "Timeline proved for trajectories with positive durations; environment changed afterwards, missing durations undefined (violated)."
  },
  {
   "property": "C189",
   "status": "partial",
   "theorems": [
    "Verif.Props.PhysicsSimP.C189_dose",
    "Verif.Props.PhysicsSimP.C189_expected",
    "Verif.Props.PhysicsSimP.C189_ignores_activity_limit",
    "Verif.Props.PhysicsSimP.C189_changes_environment_violated"
   ],
   "note": "Covered time, segments and counts proved; environment changed afterwards (violated); activity ignored (limit)."
  },
  {
   "property": "C190",
   "status": "partial",
   "theorems": [
    "Verif.Props.PhysicsSimP.C190_same_attenuation_violated"
   ],
   "note": "False: one blended factor for all effects (violated)."
  },
  {
   "property": "C191",
   "status": "partial",
   "theorems": [
    "Verif.Props.PhysicsSimP.C191_tables",
    "Verif.Props.PhysicsSimP.C191_custom_limit",
    "Verif.Props.PhysicsSimP.C191_conditions_violated",
    "Verif.Props.PhysicsSimP.C191_conditions_partial"
   ],
   "note": "Levels, rates and sizes proved; seven places get the conditions of the Earth's surface (violated)."
  },
  {
   "property": "C192",
   "status": "partial",
   "theorems": [
    "Verif.Props.UpsetTmrP.C192_no_upset",
    "Verif.Props.UpsetTmrP.C192_single",
    "Verif.Props.UpsetTmrP.C192_adjacent",
    "Verif.Props.UpsetTmrP.C192_top_pair_limit",
    "Verif.Props.UpsetTmrP.C192_row",
    "Verif.Props.UpsetTmrP.C192_column",
    "Verif.Props.UpsetTmrP.C192_random",
    "Verif.Props.UpsetTmrP.C192_random_rare_violated",
    "Verif.Props.UpsetTmrP.C192_cancel_violated",
    "Verif.Props.UpsetTmrP.C192_double_violated"
   ],
   "note": "Patterns exact for up to four bytes (row and random for all sizes); random upsets at low rates never happen, flips may cancel, upper half of eight-byte values undefined (violated)."
  },
  {
   "property": "C193",
   "status": "partial",
   "theorems": [
    "Verif.Props.UpsetTmrP.C193_masked",
    "Verif.Props.UpsetTmrP.C193_conversion",
    "Verif.Props.UpsetTmrP.C193_conversion_violated",
    "Verif.Props.UpsetTmrP.C193_default_violated"
   ],
   "note": "getValue proved; the inherited conversion reads the unprotected base object (violated)."
  },
  {
   "property": "C194",
   "status": "partial",
   "theorems": [
    "Verif.Props.UpsetTmrP.C194_value",
    "Verif.Props.UpsetTmrP.C194_switching",
    "Verif.Props.UpsetTmrP.C194_on",
    "Verif.Props.UpsetTmrP.C194_off_partial",
    "Verif.Props.UpsetTmrP.C194_stale_violated",
    "Verif.Props.UpsetTmrP.C194_initial_violated",
    "Verif.Props.UpsetTmrP.C194_default_violated"
   ],
   "note": "Histories and switching proved; while off the weight relies on the base object, which goes stale while on (violated)."
  },
  {
   "property": "C195",
   "status": "partial",
   "theorems": [
    "Verif.Props.UpsetTmrP.C195_one_replica",
    "Verif.Props.UpsetTmrP.C195_detects",
    "Verif.Props.UpsetTmrP.C195_failure_hidden_violated"
   ],
   "note": "Masking, correction and detection proved; a failed correction makes the error invisible (violated)."
  },
  {
   "property": "C196",
   "status": "proved",
   "theorems": [
    "Verif.Props.UpsetTmrP.C196_rounds",
    "Verif.Props.UpsetTmrP.C196_no_majority",
    "Verif.Props.UpsetTmrP.C196_nan_limit"
   ],
   "note": "Proved for all sequences for values equal to themselves; NaN is a stated limit."
  },
  {
   "property": "C197",
   "status": "proved",
   "theorems": [
    "Verif.Props.UpsetTmrP.C197_simple",
    "Verif.Props.UpsetTmrP.C197_masked",
    "Verif.Props.UpsetTmrP.C197_nan_limit"
   ],
   "note": "Proved for types with plain equality; NaN is a stated limit."
  },
  {
   "property": "C198",
   "status": "proved",
   "theorems": [
    "Verif.MissionProfile.C198_names",
    "Verif.MissionProfile.C198_kind",
    "Verif.MissionProfile.C198_unknown_limit"
   ],
   "note": "Proved for all strings; names in another spelling silently give the low-orbit mission (limit)."
  },
  {
   "property": "C199",
   "status": "partial",
   "theorems": [
    "Verif.MissionProfile.C199_sane",
    "Verif.MissionProfile.C199_monotone",
    "Verif.MissionProfile.C199_anomaly",
    "Verif.MissionProfile.C199_dose_limit",
    "Verif.MissionProfile.C199_log_violated",
    "Verif.MissionProfile.C199_mars_violated"
   ],
   "note": "Ranges and monotony proved; log files shared and Mars surface with deep-space flux (violated)."
  },
  {
   "property": "C200",
   "status": "partial",
   "theorems": [
    "Verif.MissionProfile.C200_environment",
    "Verif.MissionProfile.C200_positive",
    "Verif.MissionProfile.C200_order_violated",
    "Verif.MissionProfile.C200_mars_violated"
   ],
   "note": "Environments and positive rates proved; rates contradict the profiles, Mars missions alike (violated)."
  },
  {
   "property": "C201",
   "status": "partial",
   "theorems": [
    "Verif.MissionProfile.C201_last",
    "Verif.MissionProfile.C201_quantised",
    "Verif.MissionProfile.C201_sticky_violated"
   ],
   "note": "Last configuration wins except for quantisation, which stays on (violated)."
  },
  {
   "property": "C202",
   "status": "partial",
   "theorems": [
    "Verif.MissionProfile.C202_formulas",
    "Verif.MissionProfile.C202_leaky",
    "Verif.MissionProfile.C202_ranges",
    "Verif.MissionProfile.C202_monotone",
    "Verif.MissionProfile.C202_softmax_violated",
    "Verif.MissionProfile.C202_nan"
   ],
   "note": "Formulas, ranges, monotony, NaN proved; softmax is the identity (violated)."
  },
  {
   "property": "C203",
   "status": "partial",
   "theorems": [
    "Verif.Hardening.C203_mean",
    "Verif.Hardening.C203_range",
    "Verif.Hardening.C203_scale",
    "Verif.Hardening.C203_monotone",
    "Verif.Hardening.C203_zero_violated"
   ],
   "note": "Mean, range, scale, monotony proved; weights all 0 give NaN and no protection (violated)."
  },
  {
   "property": "C204",
   "status": "proved",
   "theorems": [
    "Verif.Hardening.C204_ranking",
    "Verif.Hardening.C204_layers"
   ],
   "note": "Proved for all weights with a sum other than 0."
  },
  {
   "property": "C205",
   "status": "proved",
   "theorems": [
    "Verif.Hardening.C205_threshold",
    "Verif.Hardening.C205_order",
    "Verif.Hardening.C205_negative_limit"
   ],
   "note": "Proved for unique identifiers; negative thresholds are a stated limit."
  },
  {
   "property": "C206",
   "status": "partial",
   "theorems": [
    "Verif.Hardening.C206_budget",
    "Verif.Hardening.C206_entries",
    "Verif.Hardening.C206_first",
    "Verif.Hardening.C206_default_violated",
    "Verif.Hardening.C206_order_violated"
   ],
   "note": "Budget, entries, first component proved; the default budget protects at most six components and never fully, less critical components may be favoured (violated)."
  },
  {
   "property": "C207",
   "status": "partial",
   "theorems": [
    "Verif.Hardening.C207_budget",
    "Verif.Hardening.C207_levels",
    "Verif.Hardening.C207_enough",
    "Verif.Hardening.C207_default_violated",
    "Verif.Hardening.C207_usage_violated"
   ],
   "note": "Budget, levels, enough budget proved; default budget leaves the top layer unprotected, reported usage may be twice the budget (violated). Places exactly on a fifth are left out (rounding of 1 - 4/5)."
  },
  {
   "property": "C208",
   "status": "partial",
   "theorems": [
    "Verif.Hardening.C208_step",
    "Verif.Hardening.C208_figures",
    "Verif.Hardening.C208_converges",
    "Verif.Hardening.C208_budget_violated",
    "Verif.Hardening.C208_stuck_violated"
   ],
   "note": "Steps, convergence, figures proved; the budget is ignored, two levels are stuck (violated)."
  },
  {
   "property": "C209",
   "status": "partial",
   "theorems": [
    "Verif.Hardening.C209_range",
    "Verif.Hardening.C209_monotone",
    "Verif.Hardening.C209_extremes",
    "Verif.Hardening.C209_unlisted_violated",
    "Verif.Hardening.C209_analysis"
   ],
   "note": "Range, monotony, formulas proved; recovery and selective levels count as no protection (violated)."
  },
  {
   "property": "C210",
   "status": "proved",
   "theorems": [
    "Verif.Topology.C210_paths",
    "Verif.Topology.C210_once"
   ],
   "note": "Proved by refinement of the search to lists of names; the fuel of the model never ends a search. Names must be distinct and not empty."
  },
  {
   "property": "C211",
   "status": "proved",
   "theorems": [
    "Verif.Topology.C211_connections",
    "Verif.Topology.C211_shared_limit",
    "Verif.Topology.C211_propagation",
    "Verif.Topology.C211_outputs",
    "Verif.Topology.C211_size_limit"
   ],
   "note": "Proved; input size 0 and shared names are stated limits."
  },
  {
   "property": "C212",
   "status": "partial",
   "theorems": [
    "Verif.Topology.C212_range",
    "Verif.Topology.C212_formula",
    "Verif.Topology.C212_marked",
    "Verif.Topology.C212_quarter_violated",
    "Verif.Topology.C212_name_violated"
   ],
   "note": "Range, formula, marking proved; propagation alone may reach 1, names that contain each other share paths (violated)."
  },
  {
   "property": "C213",
   "status": "partial",
   "theorems": [
    "Verif.Topology.C213_importance",
    "Verif.Topology.C213_range",
    "Verif.Topology.C213_zero_violated"
   ],
   "note": "Proved for parameters other than 0 and at least one sample; a parameter 0 has importance NaN (violated)."
  },
  {
   "property": "C214",
   "status": "partial",
   "theorems": [
    "Verif.Topology.C214_importance",
    "Verif.Topology.C214_range",
    "Verif.Topology.C214_sparse_violated",
    "Verif.Topology.C214_sparsity_counts"
   ],
   "note": "Formula and range proved; sparser activations count less (violated)."
  },
  {
   "property": "C215",
   "status": "partial",
   "theorems": [
    "Verif.Topology.C215_range",
    "Verif.Topology.C215_formula",
    "Verif.Topology.C215_flux_violated",
    "Verif.Topology.C215_wrap_violated",
    "Verif.Topology.C215_impact_formula"
   ],
   "note": "Range and formulas proved; all fluxes from 9e-15 on give the same vulnerability, sizes wrap (violated)."
  },
  {
   "property": "C216",
   "status": "partial",
   "theorems": [
    "Verif.Topology.C216_level",
    "Verif.Topology.C216_monotone",
    "Verif.Topology.C216_every",
    "Verif.Topology.C216_flux_violated",
    "Verif.Topology.C216_default_violated"
   ],
   "note": "Levels and monotony proved; every space environment yields full TMR for every layer (violated)."
  },
  {
   "property": "C217",
   "status": "proved",
   "theorems": [
    "Verif.Topology.C217_adjusted",
    "Verif.Topology.C217_order"
   ],
   "note": "Proved."
  },
  {
   "property": "C218",
   "status": "proved",
   "theorems": [
    "Verif.LayerPolicy.C218_policy",
    "Verif.LayerPolicy.C218_layers"
   ],
   "note": "Proved by induction over histories."
  },
  {
   "property": "C219",
   "status": "partial",
   "theorems": [
    "Verif.LayerPolicy.C219_mission",
    "Verif.LayerPolicy.C219_repeat_violated"
   ],
   "note": "Level, dynamic adjustment, range proved; every repeated call raises the allocation again (violated)."
  },
  {
   "property": "C220",
   "status": "partial",
   "theorems": [
    "Verif.LayerPolicy.C220_shares",
    "Verif.LayerPolicy.C220_none",
    "Verif.LayerPolicy.C220_monotone",
    "Verif.LayerPolicy.C220_all_violated",
    "Verif.LayerPolicy.C220_variant",
    "Verif.LayerPolicy.C220_levels"
   ],
   "note": "Shares, monotony, variants proved; PROTECT_ALL leaves layers of criticality up to 0.2 without protection (violated)."
  },
  {
   "property": "C221",
   "status": "partial",
   "theorems": [
    "Verif.LayerPolicy.C221_decay",
    "Verif.LayerPolicy.C221_depth",
    "Verif.LayerPolicy.C221_total_violated",
    "Verif.LayerPolicy.C221_range"
   ],
   "note": "Decay, factors, range proved; the total afterwards is always 1, not the same as before (violated)."
  },
  {
   "property": "C222",
   "status": "partial",
   "theorems": [
    "Verif.LayerPolicy.C222_mission",
    "Verif.LayerPolicy.C222_budget_violated",
    "Verif.LayerPolicy.C222_depth",
    "Verif.LayerPolicy.C222_name_violated"
   ],
   "note": "Missions and levels proved, depth for names that do not contain each other; Jupiter exceeds the budget by a half, names that contain each other are confused (violated)."
  },
  {
   "property": "C223",
   "status": "partial",
   "theorems": [
    "Verif.FineTuning.C223_sensitivity",
    "Verif.FineTuning.C223_minimum_violated",
    "Verif.FineTuning.C223_empty_limit"
   ],
   "note": "Formula, range, maximum proved; 1000 samples are the maximum, not the minimum, and none are accepted (violated)."
  },
  {
   "property": "C224",
   "status": "partial",
   "theorems": [
    "Verif.FineTuning.C224_profile",
    "Verif.FineTuning.C224_equal_violated",
    "Verif.FineTuning.C224_empty_limit"
   ],
   "note": "Shares proved exactly for different sensitivities, as lower bounds for all; ties get HIGH together (violated)."
  },
  {
   "property": "C225",
   "status": "partial",
   "theorems": [
    "Verif.FineTuning.C225_layers",
    "Verif.FineTuning.C225_monotone",
    "Verif.FineTuning.C225_first_violated",
    "Verif.FineTuning.C225_empty_limit"
   ],
   "note": "Levels and monotony proved; convolutional layers may be protected better than the first and last (violated)."
  },
  {
   "property": "C226",
   "status": "partial",
   "theorems": [
    "Verif.FineTuning.C226_monotone",
    "Verif.FineTuning.C226_bytes",
    "Verif.FineTuning.C226_roundtrip",
    "Verif.FineTuning.C226_environment_violated",
    "Verif.FineTuning.C226_short_limit"
   ],
   "note": "Round trip for every codec that inverts its own encoding, bytes and monotony proved; the decoder selects by the current rate (violated)."
  },
  {
   "property": "C227",
   "status": "partial",
   "theorems": [
    "Verif.FineTuning.C227_learn",
    "Verif.FineTuning.C227_estimate",
    "Verif.FineTuning.C227_range",
    "Verif.FineTuning.C227_patterns_violated",
    "Verif.FineTuning.C227_environment_violated",
    "Verif.FineTuning.C227_nan_violated"
   ],
   "note": "Frequencies, range, estimate proved; patterns are never used, harsher environments lower the susceptibility, rate 1 gives NaN (violated)."
  },
  {
   "property": "C228",
   "status": "partial",
   "theorems": [
    "Verif.FineTuning.C228_layout",
    "Verif.FineTuning.C228_interleave_violated",
    "Verif.FineTuning.C228_lost_violated"
   ],
   "note": "Storage proved complete for every result of the sort; nothing is interleaved, weights without sensitivity are lost (violated)."
  },
  {
   "property": "C229",
   "status": "partial",
   "theorems": [
    "Verif.FineTuning.C229_result",
    "Verif.FineTuning.C229_optimize",
    "Verif.FineTuning.C229_history",
    "Verif.FineTuning.C229_failure_violated",
    "Verif.FineTuning.C229_validation_violated"
   ],
   "note": "Levels, result, history proved; failure after changes, validation that measures nothing (violated)."
  },
  {
   "property": "C230",
   "status": "proved",
   "theorems": [
    "Verif.QuantumIntegration.C230_when",
    "Verif.QuantumIntegration.C230_what"
   ],
   "note": "Proved: exact condition, exact factors and their ranges."
  },
  {
   "property": "C231",
   "status": "partial",
   "theorems": [
    "Verif.QuantumIntegration.C231_temperature",
    "Verif.QuantumIntegration.C231_mass",
    "Verif.QuantumIntegration.C231_constant_violated",
    "Verif.QuantumIntegration.C231_zero_violated"
   ],
   "note": "Range and monotony proved; the Klein-Gordon term is constant, the zero-point term cut off at every usual temperature (violated)."
  },
  {
   "property": "C232",
   "status": "partial",
   "theorems": [
    "Verif.QuantumIntegration.C232_range",
    "Verif.QuantumIntegration.C232_cap_violated",
    "Verif.QuantumIntegration.C232_header_violated"
   ],
   "note": "Range, monotony, neutral region proved; documented caps are exceeded, and the header version is unbounded (violated)."
  },
  {
   "property": "C233",
   "status": "partial",
   "theorems": [
    "Verif.CustomDefense.C233_config",
    "Verif.CustomDefense.C233_harsh_violated"
   ],
   "note": "Selection proved; the harshest environments get the mildest protection (violated)."
  },
  {
   "property": "C234",
   "status": "proved",
   "theorems": [
    "Verif.CustomDefense.C234_register"
   ],
   "note": "Proved for all histories."
  },
  {
   "property": "C235",
   "status": "partial",
   "theorems": [
    "Verif.CustomDefense.C235_custom",
    "Verif.CustomDefense.C235_same_violated",
    "Verif.CustomDefense.C235_environment",
    "Verif.CustomDefense.C235_late_limit"
   ],
   "note": "Custom strategies, fallback, environment proved for all histories; all other strategies are one (violated)."
  },
  {
   "property": "C236",
   "status": "partial",
   "theorems": [
    "Verif.CustomDefense.C236_wrap",
    "Verif.CustomDefense.C236_ignored_violated",
    "Verif.CustomDefense.C236_accelerator"
   ],
   "note": "Selection, switches, accelerator proved; five strategies are ignored for values (violated)."
  },
  {
   "property": "C237",
   "status": "partial",
   "theorems": [
    "Verif.CustomDefense.C237_nothing_violated",
    "Verif.CustomDefense.C237_factor",
    "Verif.CustomDefense.C237_lost_violated",
    "Verif.CustomDefense.C237_negative_violated"
   ],
   "note": "Factor proved; protects nothing, loses the configured factor, accepts negative ones (violated)."
  },
  {
   "property": "C238",
   "status": "partial",
   "theorems": [
    "Verif.CustomDefense.C238_simple",
    "Verif.CustomDefense.C238_short_violated",
    "Verif.CustomDefense.C238_hardened",
    "Verif.CustomDefense.C238_weights_violated"
   ],
   "note": "Exact output for every arithmetic, and agreement of hardened and plain network proved; short inputs undefined, hit weights not masked (violated)."
  },
  {
   "property": "C239",
   "status": "proved",
   "theorems": [
    "Verif.CrossSection.C239_measured",
    "Verif.CrossSection.C239_validate"
   ],
   "note": "Proved for all inputs."
  },
  {
   "property": "C240",
   "status": "partial",
   "theorems": [
    "Verif.CrossSection.C240_weibull",
    "Verif.CrossSection.C240_curve",
    "Verif.CrossSection.C240_comment_violated"
   ],
   "note": "Curve proved; not as the comment says (violated)."
  },
  {
   "property": "C241",
   "status": "partial",
   "theorems": [
    "Verif.CrossSection.C241_fit",
    "Verif.CrossSection.C241_shape_violated",
    "Verif.CrossSection.C241_peak_violated",
    "Verif.CrossSection.C241_cap_violated"
   ],
   "note": "Fit proved where right; shape, peaks and cap violated."
  },
  {
   "property": "C242",
   "status": "partial",
   "theorems": [
    "Verif.CrossSection.C242_rate",
    "Verif.CrossSection.C242_technology_violated",
    "Verif.CrossSection.C242_names"
   ],
   "note": "Rate proved; technology ignored in part (violated)."
  },
  {
   "property": "C243",
   "status": "partial",
   "theorems": [
    "Verif.ValidationTools.C243_judge",
    "Verif.ValidationTools.C243_levels",
    "Verif.ValidationTools.C243_default",
    "Verif.ValidationTools.C243_unknown_violated",
    "Verif.ValidationTools.C243_accuracy_violated",
    "Verif.ValidationTools.C243_names"
   ],
   "note": "Proved for all simulators and lists; unknown levels are tested as none, accuracy can be any negative number (violated)."
  },
  {
   "property": "C244",
   "status": "partial",
   "theorems": [
    "Verif.ValidationTools.C244_summary",
    "Verif.ValidationTools.C244_verdict",
    "Verif.ValidationTools.C244_empty_violated",
    "Verif.ValidationTools.C244_missions_violated",
    "Verif.ValidationTools.C244_difference"
   ],
   "note": "Proved for all results; empty results and a constant mission table (violated)."
  },
  {
   "property": "C245",
   "status": "partial",
   "theorems": [
    "Verif.ValidationTools.C245_options",
    "Verif.ValidationTools.C245_sites",
    "Verif.ValidationTools.C245_first_violated",
    "Verif.ValidationTools.C245_two_loops_violated",
    "Verif.ValidationTools.C245_unreadable"
   ],
   "note": "Proved for all argument lists of well-formed options; first environment counts, the two loops disagree (violated)."
  },
  {
   "property": "C246",
   "status": "partial",
   "theorems": [
    "Verif.ValidationTools.C246_single_byte",
    "Verif.ValidationTools.C246_count",
    "Verif.ValidationTools.C246_cross_section",
    "Verif.ValidationTools.C246_two_bytes_violated",
    "Verif.ValidationTools.C246_saturation_violated",
    "Verif.ValidationTools.C246_ratio_violated",
    "Verif.ValidationTools.C246_rate_violated"
   ],
   "note": "Every single-byte change found, counts exact; two-byte changes missed, saturation, ratio never near 1, wrap-around (violated)."
  },
  {
   "property": "C247",
   "status": "partial",
   "theorems": [
    "Verif.ValidationTools.C247_results",
    "Verif.ValidationTools.C247_average",
    "Verif.ValidationTools.C247_verdicts",
    "Verif.ValidationTools.C247_ranking",
    "Verif.ValidationTools.C247_trials_violated"
   ],
   "note": "Results, averages, verdict table and ranking proved for all trials and random numbers; trials not checked (violated)."
  },
  {
   "property": "C248",
   "status": "partial",
   "theorems": [
    "Verif.ValidationTools.C248_suitable",
    "Verif.ValidationTools.C248_improvements",
    "Verif.ValidationTools.C248_unset_violated",
    "Verif.ValidationTools.C248_missing_violated"
   ],
   "note": "Assessment proved for complete results; every run gives incomplete ones, reading them is undefined (violated)."
  },
  {
   "property": "C249",
   "status": "partial",
   "theorems": [
    "Verif.NeuralAdaptive.C249_effective",
    "Verif.NeuralAdaptive.C249_environment",
    "Verif.NeuralAdaptive.C249_mode_violated",
    "Verif.NeuralAdaptive.C249_thresholds"
   ],
   "note": "Proved for all settings; adaptive mode does not survive the next environment (violated)."
  },
  {
   "property": "C250",
   "status": "partial",
   "theorems": [
    "Verif.NeuralAdaptive.C250_none",
    "Verif.NeuralAdaptive.C250_hamming_violated"
   ],
   "note": "None proved; the moderate level corrects nothing (violated)."
  },
  {
   "property": "C251",
   "status": "partial",
   "theorems": [
    "Verif.NeuralAdaptive.C251_roundtrip",
    "Verif.NeuralAdaptive.C251_detect",
    "Verif.NeuralAdaptive.C251_odd_violated",
    "Verif.NeuralAdaptive.C251_sign_violated"
   ],
   "note": "Proved for values of even parity with a clear top bit; odd parity and the sign violated."
  },
  {
   "property": "C252",
   "status": "partial",
   "theorems": [
    "Verif.NeuralAdaptive.C252_shipped_violated",
    "Verif.NeuralAdaptive.C252_codec",
    "Verif.NeuralAdaptive.C252_corrected_violated"
   ],
   "note": "Relative to any codec that can be created; the shipped ones cannot, and the bare value is stored (violated)."
  },
  {
   "property": "C253",
   "status": "partial",
   "theorems": [
    "Verif.NeuralAdaptive.C253_differences",
    "Verif.NeuralAdaptive.C253_history",
    "Verif.NeuralAdaptive.C253_radiate",
    "Verif.NeuralAdaptive.C253_reset_violated",
    "Verif.NeuralAdaptive.C253_overhead_violated",
    "Verif.NeuralAdaptive.C253_ratio"
   ],
   "note": "Invariants proved for all histories; reset and overhead violated."
  },
  {
   "property": "C254",
   "status": "partial",
   "theorems": [
    "Verif.NeuralAdaptive.C254_identify",
    "Verif.NeuralAdaptive.C254_sorted",
    "Verif.NeuralAdaptive.C254_perfect_violated",
    "Verif.NeuralAdaptive.C254_restore_violated"
   ],
   "note": "Proved for networks in which weights can be put back; perfect networks and equal weights violated."
  },
  {
   "property": "C255",
   "status": "partial",
   "theorems": [
    "Verif.NeuralAdaptive.C255_optimize",
    "Verif.NeuralAdaptive.C255_budget_violated",
    "Verif.NeuralAdaptive.C255_sign_violated"
   ],
   "note": "Proved for positive budgets; above 1 and negative weights violated."
  },
  {
   "property": "C256",
   "status": "partial",
   "theorems": [
    "Verif.Props.BenchP.C256_counts",
    "Verif.Props.BenchP.C256_defined",
    "Verif.Props.BenchP.C256_time_violated"
   ],
   "note": "Counts and definedness proved for all simulators; the mean time shrinks with the iterations (violated)."
  },
  {
   "property": "C257",
   "status": "partial",
   "theorems": [
    "Verif.Props.BenchP.C257_detection_violated",
    "Verif.Props.BenchP.C257_fresh",
    "Verif.Props.BenchP.C257_enhanced_corrected"
   ],
   "note": "Violated for every simulator: only a plain copy of the data is exposed."
  },
  {
   "property": "C258",
   "status": "partial",
   "theorems": [
    "Verif.Props.BenchP.C258_approximate_violated",
    "Verif.Props.BenchP.C258_byte_rounding",
    "Verif.Props.BenchP.C258_rate_violated"
   ],
   "note": "Violated: rounding is counted as a detection, rates exceed 1."
  },
  {
   "property": "C259",
   "status": "partial",
   "theorems": [
    "Verif.Props.BenchP.C259_suite",
    "Verif.Props.BenchP.C259_defined",
    "Verif.Props.BenchP.C259_costs_violated",
    "Verif.Props.BenchP.C259_zero_violated",
    "Verif.Props.BenchP.C259_exposure_violated",
    "Verif.Props.BenchP.C259_patterned"
   ],
   "note": "Results, order, definedness and pattern proved; costs, no iterations and exposure violated."
  },
  {
   "property": "C260",
   "status": "partial",
   "theorems": [
    "Verif.Props.BenchP.C260_best",
    "Verif.Props.BenchP.C260_recommendation_violated",
    "Verif.Props.BenchP.C260_suite_metrics"
   ],
   "note": "Best proved for all tables; the recommendation picks the least correction (violated)."
  },
  {
   "property": "C261",
   "status": "partial",
   "theorems": [
    "Verif.Props.BenchP.C261_time_table",
    "Verif.Props.BenchP.C261_defined",
    "Verif.Props.BenchP.C261_short_violated",
    "Verif.Props.BenchP.C261_comparison"
   ],
   "note": "Proved for equal lengths and exactly the defined cases; shorter components read past the end (violated)."
  },
  {
   "property": "C262",
   "status": "partial",
   "theorems": [
    "Verif.Props.NasaRunnerP.C262_rows",
    "Verif.Props.NasaRunnerP.C262_let_violated",
    "Verif.Props.NasaRunnerP.C262_mtbf_violated",
    "Verif.Props.NasaRunnerP.C262_program",
    "Verif.Props.NasaRunnerP.C262_exit_violated"
   ],
   "note": "Rows and program proved; LET and MTBF verdicts and the exit status violated."
  },
  {
   "property": "C263",
   "status": "partial",
   "theorems": [
    "Verif.Props.LetSim.C263_flux",
    "Verif.Props.LetSim.C263_altitude_violated",
    "Verif.Props.LetSim.C263_mean",
    "Verif.Props.LetSim.C263_distributions"
   ],
   "note": "Laws, definedness and means proved; flux falls with altitude without end (violated)."
  },
  {
   "property": "C264",
   "status": "partial",
   "theorems": [
    "Verif.Props.LetSim.C264_empirical",
    "Verif.Props.LetSim.C264_jump_violated"
   ],
   "note": "Finite, positive, monotone proved; jump at 10 MeV (violated)."
  },
  {
   "property": "C265",
   "status": "partial",
   "theorems": [
    "Verif.Props.LetSim.C265_formula",
    "Verif.Props.LetSim.C265_slow_violated",
    "Verif.Props.LetSim.C265_photon_violated"
   ],
   "note": "Formula proved; negative for slow protons, photons treated as protons (violated)."
  },
  {
   "property": "C266",
   "status": "partial",
   "theorems": [
    "Verif.Props.LetSim.C266_probability",
    "Verif.Props.LetSim.C266_temperature_violated",
    "Verif.Props.LetSim.C266_types",
    "Verif.Props.LetSim.C266_protons_violated",
    "Verif.Props.LetSim.C266_magnitude"
   ],
   "note": "Bounds, monotonicity, types, magnitude proved; the sign of the temperature factor is wrong and protons never exceed 10 (violated)."
  },
  {
   "property": "C267",
   "status": "partial",
   "theorems": [
    "Verif.Props.LetSim.C267_simulate",
    "Verif.Props.LetSim.C267_reported",
    "Verif.Props.LetSim.C267_empty_violated",
    "Verif.Props.LetSim.C267_duration_violated",
    "Verif.Props.LetSim.C267_environment_violated",
    "Verif.Props.LetSim.C267_kinds"
   ],
   "note": "Simulation and soundness of events proved; empty memory, long durations and environment updates violated."
  },
  {
   "property": "C268",
   "status": "partial",
   "theorems": [
    "Verif.Props.PyDef.C268_integer",
    "Verif.Props.PyDef.C268_large_violated",
    "Verif.Props.PyDef.C268_float_violated",
    "Verif.Props.PyDef.C268_types",
    "Verif.Props.PyDef.C268_unprotected"
   ],
   "note": "Proved for 32-bit integers; larger integers are unprotected and floats lose precision (violated)."
  },
  {
   "property": "C269",
   "status": "partial",
   "theorems": [
    "Verif.Props.PyDef.C269_value",
    "Verif.Props.PyDef.C269_array",
    "Verif.Props.PyDef.C269_no_majority",
    "Verif.Props.PyDef.C269_multilayer_violated",
    "Verif.Props.PyDef.C269_multilayer_array",
    "Verif.Props.PyDef.C269_repair_violated",
    "Verif.Props.PyDef.C269_nan_violated",
    "Verif.Props.PyDef.C269_multilayer"
   ],
   "note": "Single damage proved for all strategies, sizes and values; multi-layered recovery, NaN and reports violated."
  },
  {
   "property": "C270",
   "status": "partial",
   "theorems": [
    "Verif.Props.PyDef.C270_repair",
    "Verif.Props.PyDef.C270_training_violated",
    "Verif.Props.PyDef.C270_forward_violated",
    "Verif.Props.PyDef.C270_execute",
    "Verif.Props.PyDef.C270_report_violated"
   ],
   "note": "Repair and results proved; training lost, forward pass unprotected, reports drawn (violated)."
  },
  {
   "property": "C271",
   "status": "partial",
   "theorems": [
    "Verif.Props.PyDef.C271_ranges",
    "Verif.Props.PyDef.C271_environment",
    "Verif.Props.PyDef.C271_harsh_violated",
    "Verif.Props.PyDef.C271_update"
   ],
   "note": "Ranges and choice proved; Mars and SAA protect less than the ground (violated)."
  },
  {
   "property": "C272",
   "status": "partial",
   "theorems": [
    "Verif.Props.TestRs.C272_decode",
    "Verif.Props.TestRs.C272_encode",
    "Verif.Props.TestRs.C272_roundtrip_violated",
    "Verif.Props.TestRs.C272_correction_violated",
    "Verif.Props.TestRs.C272_multiply_violated",
    "Verif.Props.TestRs.C272_doubling"
   ],
   "note": "What encode and decode do is proved for every word; round trip, correction and multiplication violated."
  },
  {
   "property": "C273",
   "status": "proved",
   "theorems": [
    "Verif.Props.PyRs.C273_field"
   ],
   "note": "Proved for all bytes and powers."
  },
  {
   "property": "C274",
   "status": "partial",
   "theorems": [
    "Verif.Props.PyRs.C274_roundtrip",
    "Verif.Props.PyRs.C274_detect",
    "Verif.Props.PyRs.C274_correction_violated"
   ],
   "note": "Round trip for every length and detection of up to eight damaged bytes proved; correction never happens (violated)."
  },
  {
   "property": "C275",
   "status": "proved",
   "theorems": [
    "Verif.Props.PyMethods.C275_code",
    "Verif.Props.PyMethods.C275_single",
    "Verif.Props.PyMethods.C275_double_limit"
   ],
   "note": "Proved for data of every length and for all floats; double errors characterised (limit)."
  },
  {
   "property": "C276",
   "status": "partial",
   "theorems": [
    "Verif.Props.PyMethods.C276_single_partial",
    "Verif.Props.PyMethods.C276_single_violated",
    "Verif.Props.PyMethods.C276_double_violated"
   ],
   "note": "Proved for values with an even code; single correction for odd codes and double detection violated."
  },
  {
   "property": "C277",
   "status": "proved",
   "theorems": [
    "Verif.Props.PyMethods.C277_tmr",
    "Verif.Props.PyMethods.C277_tmr_limit",
    "Verif.Props.PyMethods.C277_none"
   ],
   "note": "Proved for all values but NaN; NaN, sign of zero, spread damage stated as limit."
  },
  {
   "property": "C278",
   "status": "partial",
   "theorems": [
    "Verif.Props.PyMethods.C278_rs_violated",
    "Verif.Props.PyMethods.C278_hybrid",
    "Verif.Props.PyMethods.C278_first",
    "Verif.Props.PyMethods.C278_hybrid_violated",
    "Verif.Props.PyMethods.C278_overhead_violated",
    "Verif.Props.PyMethods.C278_choice"
   ],
   "note": "Selection rule and round trip proved for every list of methods; Reed\u2013Solomon correction, hybrids with header or double damage and overheads violated."
  },
  {
   "property": "C279",
   "status": "partial",
   "theorems": [
    "Verif.Props.RsTests.C279_field",
    "Verif.Props.RsTests.C279_order_violated"
   ],
   "note": "Proved for all bytes and lengths; the order of coefficients does not fit (violated)."
  },
  {
   "property": "C280",
   "status": "partial",
   "theorems": [
    "Verif.Props.RsTests.C280_roundtrip",
    "Verif.Props.RsTests.C280_unchanged",
    "Verif.Props.RsTests.C280_correction_violated",
    "Verif.Props.RsTests.C280_check_bytes"
   ],
   "note": "Round trip proved; nothing is ever corrected (violated)."
  },
  {
   "property": "C281",
   "status": "partial",
   "theorems": [
    "Verif.Props.RsTests.C281_minimal_violated",
    "Verif.Props.RsTests.C281_stub_violated"
   ],
   "note": "Both violated for all inputs."
  },
  {
   "property": "C282",
   "status": "partial",
   "theorems": [
    "Verif.Props.Materials.C282_factor",
    "Verif.Props.Materials.C282_database",
    "Verif.Props.Materials.C282_order",
    "Verif.Props.Materials.C282_names_violated"
   ],
   "note": "Bounds, monotonicity, order and look-up proved; names that are not keys, negative thickness violated."
  },
  {
   "property": "C283",
   "status": "proved",
   "theorems": [
    "Verif.Props.Materials.C283_environment"
   ],
   "note": "Proved for all environments."
  },
  {
   "property": "C284",
   "status": "partial",
   "theorems": [
    "Verif.Props.Facade.C284_history",
    "Verif.Props.Facade.C284_room",
    "Verif.Props.Facade.C284_initialize",
    "Verif.Props.Facade.C284_default_level_violated",
    "Verif.Props.Facade.C284_shutdown_violated",
    "Verif.Props.Facade.C284_overflow_violated",
    "Verif.Props.Facade.C284_messages"
   ],
   "note": "History, room and reporting proved; default level, shutdown and overflowing sizes violated."
  },
  {
   "property": "C285",
   "status": "proved",
   "theorems": [
    "Verif.Props.MonteCarlo.C285_channel",
    "Verif.Props.MonteCarlo.C285_counter"
   ],
   "note": "Proved for all lengths and draws."
  },
  {
   "property": "C286",
   "status": "partial",
   "theorems": [
    "Verif.Props.MonteCarlo.C286_counts",
    "Verif.Props.MonteCarlo.C286_interval",
    "Verif.Props.MonteCarlo.C286_interval_limit",
    "Verif.Props.MonteCarlo.C286_row",
    "Verif.Props.MonteCarlo.C286_threshold",
    "Verif.Props.MonteCarlo.C286_correction_violated"
   ],
   "note": "Counts, intervals, threshold proved for all trials; corrected bits are always 0 for up to eight damaged bytes (violated)."
  },
  {
   "property": "C287",
   "status": "proved",
   "theorems": [
    "Verif.Props.Visualizer.C287_rate",
    "Verif.Props.Visualizer.C287_monotone",
    "Verif.Props.Visualizer.C287_table"
   ],
   "note": "Proved for all environments."
  },
  {
   "property": "C288",
   "status": "partial",
   "theorems": [
    "Verif.Props.Visualizer.C288_report",
    "Verif.Props.Visualizer.C288_level_violated",
    "Verif.Props.Visualizer.C288_corrections_violated",
    "Verif.Props.Visualizer.C288_errors_violated",
    "Verif.Props.Visualizer.C288_names"
   ],
   "note": "Counts, rows and shares proved for all draws; corrections of undamaged runs, unreported damage and the level are violated."
  },
  {
   "property": "C289",
   "status": "proved",
   "theorems": [
    "Verif.Props.Industry.C289_impact",
    "Verif.Props.Industry.C289_accuracy",
    "Verif.Props.Industry.C289_monotone",
    "Verif.Props.Industry.C289_reference"
   ],
   "note": "Proved for all environments of the suite, mechanisms, durations and draws."
  },
  {
   "property": "C290",
   "status": "partial",
   "theorems": [
    "Verif.Props.Industry.C290_verdict",
    "Verif.Props.Industry.C290_summary",
    "Verif.Props.Industry.C290_rating",
    "Verif.Props.Industry.C290_measured_violated",
    "Verif.Props.Industry.C290_exposure_violated",
    "Verif.Props.Industry.C290_unused_limit",
    "Verif.Props.Industry.C290_percentage"
   ],
   "note": "Verdict, summary and rating proved; the efficiency measured is a constant (always EXCELLENT) and no or negative exposure are violated."
  },
  {
   "property": "C291",
   "status": "proved",
   "theorems": [
    "Verif.Props.MissionValidation.C291_factor",
    "Verif.Props.MissionValidation.C291_vulnerability",
    "Verif.Props.MissionValidation.C291_score_monotone",
    "Verif.Props.MissionValidation.C291_level",
    "Verif.Props.MissionValidation.C291_predominant",
    "Verif.Props.MissionValidation.C291_resource",
    "Verif.Props.MissionValidation.C291_full_limit"
   ],
   "note": "Proved for all networks and environments."
  },
  {
   "property": "C292",
   "status": "partial",
   "theorems": [
    "Verif.Props.MissionValidation.C292_rate",
    "Verif.Props.MissionValidation.C292_rate_monotone",
    "Verif.Props.MissionValidation.C292_verdict",
    "Verif.Props.MissionValidation.C292_phases",
    "Verif.Props.MissionValidation.C292_worst",
    "Verif.Props.MissionValidation.C292_clean_violated",
    "Verif.Props.MissionValidation.C292_negative_violated",
    "Verif.Props.MissionValidation.C292_run",
    "Verif.Props.MissionValidation.C292_tables",
    "Verif.Props.MissionValidation.C292_assessment"
   ],
   "note": "Rate, verdict, choice of phases and run proved; phases without errors fail, and protection may have negative efficiency (violated)."
  },
  {
   "property": "C293",
   "status": "proved",
   "theorems": [
    "Verif.Props.EnhancementComparison.C293_ranges",
    "Verif.Props.EnhancementComparison.C293_monotone",
    "Verif.Props.EnhancementComparison.C293_master_switch",
    "Verif.Props.EnhancementComparison.C293_enhanced",
    "Verif.Props.EnhancementComparison.C293_always_better",
    "Verif.Props.EnhancementComparison.C293_passes",
    "Verif.Props.EnhancementComparison.C293_unused_settings_limit",
    "Verif.Props.EnhancementComparison.C293_accuracy_range_limit"
   ],
   "note": "Proved for all environments and configurations: the comparison cannot come out otherwise, and the temperature and power settings are unused (limit)."
  },
  {
   "property": "C294",
   "status": "proved",
   "theorems": [
    "Verif.Props.EnhancementComparison.C294_averages",
    "Verif.Props.EnhancementComparison.C294_improvements",
    "Verif.Props.EnhancementComparison.C294_resource_power",
    "Verif.Props.EnhancementComparison.C294_always_positive",
    "Verif.Props.EnhancementComparison.C294_suitability",
    "Verif.Props.EnhancementComparison.C294_printed",
    "Verif.Props.EnhancementComparison.C294_second_program",
    "Verif.Props.EnhancementComparison.C294_second_averages",
    "Verif.Props.EnhancementComparison.C294_programs_agree"
   ],
   "note": "Proved for all lists; in the built-in environments no test passes for either framework."
  },
  {
   "property": "C295",
   "status": "partial",
   "theorems": [
    "Verif.Props.StressTest.C295_count_events",
    "Verif.Props.StressTest.C295_events_add_up",
    "Verif.Props.StressTest.C295_errors_add_up",
    "Verif.Props.StressTest.C295_report_spacing",
    "Verif.Props.StressTest.C295_report",
    "Verif.Props.StressTest.C295_corrected_counts_all",
    "Verif.Props.StressTest.C295_uncorrectable_partial",
    "Verif.Props.StressTest.C295_uncorrectable_violated",
    "Verif.Props.StressTest.C295_interval",
    "Verif.Props.StressTest.C295_ends",
    "Verif.Props.StressTest.C295_one_second_limit",
    "Verif.Props.StressTest.C295_simulated_time_limit"
   ],
   "note": "Totals, reports, spacing and end proved; the uncorrectable counter wraps when more values are repaired than the scrub reported errors (violated)."
  },
  {
   "property": "C296",
   "status": "partial",
   "theorems": [
    "Verif.Props.StressTest.C296_recovery_partial",
    "Verif.Props.StressTest.C296_recovery_violated",
    "Verif.Props.StressTest.C296_verdict",
    "Verif.Props.StressTest.C296_shares",
    "Verif.Props.StressTest.C296_integrity",
    "Verif.Props.StressTest.C296_csv",
    "Verif.Props.StressTest.C296_csv_violated",
    "Verif.Props.StressTest.C296_duration"
   ],
   "note": "Verdict limits, shares, integrity and file proved; with more wrong values than detected errors the verdict is EXCELLENT, and short tests end in undefined behaviour (violated)."
  },
  {
   "property": "C297",
   "status": "partial",
   "theorems": [
    "Verif.Props.StressTest.C297_adaptive_violated",
    "Verif.Props.StressTest.C297_adaptive_passes",
    "Verif.Props.StressTest.C297_environment_violated",
    "Verif.Props.StressTest.C297_repair_all",
    "Verif.Props.StressTest.C297_recovery",
    "Verif.Props.StressTest.C297_recovery_violated"
   ],
   "note": "The adaptive check fails for every run faster than a second, the environment check always fails, and the recovery rate ignores consistently wrong values (violated); repairs proved."
  },
  {
   "property": "C298",
   "status": "partial",
   "theorems": [
    "Verif.Props.RadStress.C298_vote",
    "Verif.Props.RadStress.C298_forward",
    "Verif.Props.RadStress.C298_repair_violated",
    "Verif.Props.RadStress.C298_flips"
   ],
   "note": "Vote and single-strike passes proved; the voted value is never written back, so damage accumulates over passes (violated)."
  },
  {
   "property": "C299",
   "status": "partial",
   "theorems": [
    "Verif.Props.RadStress.C299_vote_counter",
    "Verif.Props.RadStress.C299_totals",
    "Verif.Props.RadStress.C299_clean_violated"
   ],
   "note": "Counters characterised exactly; a clean pass counts 212 corrected errors, and strikes that change nothing are counted (violated)."
  },
  {
   "property": "C300",
   "status": "partial",
   "theorems": [
    "Verif.Props.RadStress.C300_saturated",
    "Verif.Props.RadStress.C300_test",
    "Verif.Props.RadStress.C300_reference_violated",
    "Verif.Props.RadStress.C300_inputs_violated"
   ],
   "note": "Rows, references and saturation at intensity 100 proved; references of later tests come from the damaged network, longer inputs are undefined behaviour (violated)."
  },
  {
   "property": "C301",
   "status": "partial",
   "theorems": [
    "Verif.Props.EnhMC.C301_rate",
    "Verif.Props.EnhMC.C301_errorfree",
    "Verif.Props.EnhMC.C301_rs_violated",
    "Verif.Props.EnhMC.C301_results"
   ],
   "note": "Success rates, bounds and error-free trials proved; rs4 and rs8 are the same code and correct no damaged byte (violated)."
  },
  {
   "property": "C302",
   "status": "partial",
   "theorems": [
    "Verif.Props.EnhMC.C302_rows",
    "Verif.Props.EnhMC.C302_order_violated",
    "Verif.Props.EnhMC.C302_columns_violated",
    "Verif.Props.EnhMC.C302_columns"
   ],
   "note": "Each row once proved; the order is worst first, and with default arguments the success columns are always N/A (violated)."
  },
  {
   "property": "C303",
   "status": "partial",
   "theorems": [
    "Verif.Props.EnhMC.C303_recommendation",
    "Verif.Props.EnhMC.C303_drift_violated",
    "Verif.Props.EnhMC.C303_empty_violated"
   ],
   "note": "Membership and the bound 0.05 per other method proved; the recommendation drifts, depends on the order and raises without rates (violated)."
  },
  {
   "property": "C304",
   "status": "partial",
   "theorems": [
    "Verif.Props.MissionSim.C304_majority",
    "Verif.Props.MissionSim.C304_vote_violated",
    "Verif.Props.MissionSim.C304_hull",
    "Verif.Props.MissionSim.C304_weighted",
    "Verif.Props.MissionSim.C304_selective",
    "Verif.Props.MissionSim.C304_selective_violated"
   ],
   "note": "Majority within 0.1 and the range proved; averaging at low levels, a first network that is slightly off, and checkpoints overrule the majority, and the selective vote ignores only outliers below 0.6 (violated)."
  },
  {
   "property": "C305",
   "status": "partial",
   "theorems": [
    "Verif.Props.MissionSim.C305_reliabilities",
    "Verif.Props.MissionSim.C305_floor",
    "Verif.Props.MissionSim.C305_decrease_violated"
   ],
   "note": "Positivity, upper bound and floor up to level 1e-6 proved for all histories; above it the floor fails and being outvoted raises a reliability (violated)."
  },
  {
   "property": "C306",
   "status": "partial",
   "theorems": [
    "Verif.Props.MissionSim.C306_answer",
    "Verif.Props.MissionSim.C306_selection_limit",
    "Verif.Props.MissionSim.C306_distribution_violated",
    "Verif.Props.MissionSim.C306_range",
    "Verif.Props.MissionSim.C306_similar"
   ],
   "note": "Answer and range proved for all histories; the result is not a distribution (violated)."
  },
  {
   "property": "C307",
   "status": "partial",
   "theorems": [
    "Verif.Props.MissionSim.C307_data",
    "Verif.Props.MissionSim.C307_days",
    "Verif.Props.MissionSim.C307_environments",
    "Verif.Props.MissionSim.C307_level",
    "Verif.Props.MissionSim.C307_violated"
   ],
   "note": "Data, days and environments proved; one mission has no data, and the flip probability exceeds 1 (violated)."
  },
  {
   "property": "C308",
   "status": "partial",
   "theorems": [
    "Verif.Props.MissionSim.C308_estimates",
    "Verif.Props.MissionSim.C308_worst",
    "Verif.Props.MissionSim.C308_verdicts_violated",
    "Verif.Props.MissionSim.C308_inputs_violated",
    "Verif.Props.MissionSim.C308_vulnerability",
    "Verif.Props.MissionSim.C308_ratings"
   ],
   "note": "Worst day, averages and ranges proved; verdicts are always LOW and POOR, and the test inputs are identical (violated)."
  },
  {
   "property": "C309",
   "status": "partial",
   "theorems": [
    "Verif.Props.SimpleMC.C309_correct_two",
    "Verif.Props.SimpleMC.C309_correct_fails",
    "Verif.Props.SimpleMC.C309_check_plain",
    "Verif.Props.SimpleMC.C309_check_plain_useless_violated",
    "Verif.Props.SimpleMC.C309_check_plain_single_violated",
    "Verif.Props.SimpleMC.C309_check_sum_single",
    "Verif.Props.SimpleMC.C309_check_sum_cancels_limit"
   ],
   "note": "Correction proved; the plain check passes every damage to one copy and reports only what cannot be corrected (violated); the checksum misses damage below 1e-5 or damage that cancels (limit)."
  },
  {
   "property": "C310",
   "status": "partial",
   "theorems": [
    "Verif.Props.SimpleMC.C310_values_survive",
    "Verif.Props.SimpleMC.C310_flips_counted",
    "Verif.Props.SimpleMC.C310_plain_flips",
    "Verif.Props.SimpleMC.C310_minimal_blind_violated",
    "Verif.Props.SimpleMC.C310_enhanced_counts",
    "Verif.Props.SimpleMC.C310_counts_ordered",
    "Verif.Props.SimpleMC.C310_own_draws"
   ],
   "note": "Values, counts and ordering proved for all exposures; with the plain class nothing is ever detected (violated)."
  },
  {
   "property": "C311",
   "status": "partial",
   "theorems": [
    "Verif.Props.SimpleMC.C311_trial_accuracy",
    "Verif.Props.SimpleMC.C311_rows_constant",
    "Verif.Props.SimpleMC.C311_other_baseline_violated",
    "Verif.Props.SimpleMC.C311_row_averages",
    "Verif.Props.SimpleMC.C311_correction_rate_range",
    "Verif.Props.SimpleMC.C311_minimal_rate_violated",
    "Verif.Props.SimpleMC.C311_sustainable_largest",
    "Verif.Props.SimpleMC.C311_sustainable_gap_violated",
    "Verif.Props.SimpleMC.C311_sustainable_all_or_nothing",
    "Verif.Props.SimpleMC.C311_label_range"
   ],
   "note": "Constancy over the rates, averages, ranges and largest sustainable rate proved; the baseline is another network, the correction rate of the plain class is 100 % with nothing corrected, and lower rates may fail (violated)."
  },
  {
   "property": "C312",
   "status": "proved",
   "theorems": [
    "Verif.Props.TmrDemo.C312_value_two",
    "Verif.Props.TmrDemo.C312_correct_single",
    "Verif.Props.TmrDemo.C312_correct_false",
    "Verif.Props.TmrDemo.C312_intact_single",
    "Verif.Props.TmrDemo.C312_nan_never_intact_limit",
    "Verif.Props.TmrDemo.C312_all_differ_first_limit"
   ],
   "note": "Proved; a protected NaN is never intact, and of three different copies the first is read (limit)."
  },
  {
   "property": "C313",
   "status": "partial",
   "theorems": [
    "Verif.Props.TmrDemo.C313_flip_one_bit",
    "Verif.Props.TmrDemo.C313_flip_changes",
    "Verif.Props.TmrDemo.C313_flip_out_of_range",
    "Verif.Props.TmrDemo.C313_lower_bits_are_upper_violated",
    "Verif.Props.TmrDemo.C313_flip_differs",
    "Verif.Props.TmrDemo.C313_zero_sign_limit",
    "Verif.Props.TmrDemo.C313_float_rounds_limit"
   ],
   "note": "One bit, involution and difference proved; positions count from the most significant digit, so the demonstration's lower bits are the upper ones (violated); sign of zero and rounding (limit)."
  },
  {
   "property": "C314",
   "status": "proved",
   "theorems": [
    "Verif.Props.TmrDemo.C314_test_verdict",
    "Verif.Props.TmrDemo.C314_counters_partition",
    "Verif.Props.TmrDemo.C314_never_fails",
    "Verif.Props.TmrDemo.C314_scripts_disagree_limit"
   ],
   "note": "Counters and verdicts proved for all runs; the scripts disagree on invisible flips (limit)."
  },
  {
   "property": "C315",
   "status": "partial",
   "theorems": [
    "Verif.Props.NeuralMission.C315_sampled_exactly",
    "Verif.Props.NeuralMission.C315_sampled_order",
    "Verif.Props.NeuralMission.C315_sampled_count",
    "Verif.Props.NeuralMission.C315_three_announced_violated",
    "Verif.Props.NeuralMission.C315_phase_near_sample",
    "Verif.Props.NeuralMission.C315_surface_skipped_violated"
   ],
   "note": "Sampling proved for all missions; more phases than announced are simulated, and the surface operations are not (violated)."
  },
  {
   "property": "C316",
   "status": "partial",
   "theorems": [
    "Verif.Props.NeuralMission.C316_forward_outputs",
    "Verif.Props.NeuralMission.C316_error_detected",
    "Verif.Props.NeuralMission.C316_sample_extremes",
    "Verif.Props.NeuralMission.C316_sign_only_violated"
   ],
   "note": "Outputs and, for positive sums, detection proved; other inputs are misjudged (violated)."
  },
  {
   "property": "C317",
   "status": "partial",
   "theorems": [
    "Verif.Props.NeuralMission.C317_tally",
    "Verif.Props.NeuralMission.C317_rates",
    "Verif.Props.NeuralMission.C317_last_of_name",
    "Verif.Props.NeuralMission.C317_same_name_violated",
    "Verif.Props.NeuralMission.C317_most_vulnerable",
    "Verif.Props.NeuralMission.C317_profile"
   ],
   "note": "Counts, rates, maximum and profiles proved; phases of the same name overwrite each other (violated)."
  },
  {
   "property": "C318",
   "status": "partial",
   "theorems": [
    "Verif.Props.SpaceVal.C318_apply_pattern",
    "Verif.Props.SpaceVal.C318_injected",
    "Verif.Props.SpaceVal.C318_effective",
    "Verif.Props.SpaceVal.C318_two_errors_differ",
    "Verif.Props.SpaceVal.C318_untouched",
    "Verif.Props.SpaceVal.C318_copies_violated"
   ],
   "note": "Masks, ineffective faults and differing errors proved for all; in low Earth orbit faults change nothing, coincide or leave a copy intact (violated)."
  },
  {
   "property": "C319",
   "status": "proved",
   "theorems": [
    "Verif.Props.SpaceVal.C319_detected_iff",
    "Verif.Props.SpaceVal.C319_actual_iff",
    "Verif.Props.SpaceVal.C319_corrected",
    "Verif.Props.SpaceVal.C319_all_corrupted",
    "Verif.Props.SpaceVal.C319_repair_same_status",
    "Verif.Props.SpaceVal.C319_trial_counts"
   ],
   "note": "Detection, correction, failure and counts proved for all values and checksums."
  },
  {
   "property": "C320",
   "status": "partial",
   "theorems": [
    "Verif.Props.SpaceVal.C320_books",
    "Verif.Props.SpaceVal.C320_repair_never_violated",
    "Verif.Props.SpaceVal.C320_report_exact",
    "Verif.Props.SpaceVal.C320_detection_rate",
    "Verif.Props.SpaceVal.C320_rates",
    "Verif.Props.SpaceVal.C320_int32",
    "Verif.Props.SpaceVal.C320_float32",
    "Verif.Props.SpaceVal.C320_printed_success_violated",
    "Verif.Props.SpaceVal.C320_performance_violated",
    "Verif.Props.SpaceVal.C320_categories_violated"
   ],
   "note": "Balance proved for all; exactness for data the checksum tells apart, in particular all 32-bit integers; repair is never counted, printed percentages are 0 or 100, slower is reported as faster (violated)."
  },
  {
   "property": "C321",
   "status": "partial",
   "theorems": [
    "Verif.Props.SysFault.C321_indices",
    "Verif.Props.SysFault.C321_injection_effect",
    "Verif.Props.SysFault.C321_diverges_violated"
   ],
   "note": "Addressing and effect of an injection proved for all; a coverage above 100 % never returns (violated)."
  },
  {
   "property": "C322",
   "status": "partial",
   "theorems": [
    "Verif.Props.SysFault.C322_masked",
    "Verif.Props.SysFault.C322_unprotected",
    "Verif.Props.SysFault.C322_accumulation_violated"
   ],
   "note": "Masking proved for all fresh networks with non-zero parameters; over several tests the faults accumulate (violated)."
  },
  {
   "property": "C323",
   "status": "partial",
   "theorems": [
    "Verif.Props.SysFault.C323_reported",
    "Verif.Props.SysFault.C323_corrected_count",
    "Verif.Props.SysFault.C323_rate_violated",
    "Verif.Props.SysFault.C323_rate_unprotected",
    "Verif.Props.SysFault.C323_affected_le",
    "Verif.Props.SysFault.C323_detected_violated"
   ],
   "note": "Injected, detected, affected and corrected counts proved; the correction rate exceeds 100 % for every number of inputs above one, and faults without effect count as detected (violated)."
  },
  {
   "property": "C324",
   "status": "proved",
   "theorems": [
    "Verif.Props.RealisticSpace.C324_dose_between",
    "Verif.Props.RealisticSpace.C324_dose_node",
    "Verif.Props.RealisticSpace.C324_dose_linear",
    "Verif.Props.RealisticSpace.C324_dose_outside",
    "Verif.Props.RealisticSpace.C324_dose_antitone",
    "Verif.Props.RealisticSpace.C324_dose_map",
    "Verif.Props.RealisticSpace.C324_dose_empty_limit",
    "Verif.Props.RealisticSpace.C324_dose_program"
   ],
   "note": "Proved for all tables (doubles as reals); without points the constructor reads past the end (limit)."
  },
  {
   "property": "C325",
   "status": "partial",
   "theorems": [
    "Verif.Props.RealisticSpace.C325_factor_value",
    "Verif.Props.RealisticSpace.C325_factor_antitone",
    "Verif.Props.RealisticSpace.C325_seu_reference",
    "Verif.Props.RealisticSpace.C325_seu_space",
    "Verif.Props.RealisticSpace.C325_seu_antitone",
    "Verif.Props.RealisticSpace.C325_validation_violated"
   ],
   "note": "Formula, sign and monotonicity proved; the flux validation is special-cased to its own expected value and passes for every radius, and beside the point the formula misses it by more than the tolerance (violated)."
  },
  {
   "property": "C326",
   "status": "partial",
   "theorems": [
    "Verif.Props.RealisticSpace.C326_errors_bit",
    "Verif.Props.RealisticSpace.C326_errors_value",
    "Verif.Props.RealisticSpace.C326_errors_none",
    "Verif.Props.RealisticSpace.C326_errors_monotone",
    "Verif.Props.RealisticSpace.C326_errors_extremes",
    "Verif.Props.RealisticSpace.C326_errors_granularity_violated"
   ],
   "note": "Proved for all; every probability up to 1e-7 acts as 1e-7 (violated)."
  },
  {
   "property": "C327",
   "status": "proved",
   "theorems": [
    "Verif.Props.RealisticSpace.C327_corrupt_index",
    "Verif.Props.RealisticSpace.C327_read_intact",
    "Verif.Props.RealisticSpace.C327_read_common_limit",
    "Verif.Props.RealisticSpace.C327_trial_iff",
    "Verif.Props.RealisticSpace.C327_float_comparable",
    "Verif.Props.RealisticSpace.C327_successes_antitone",
    "Verif.Props.RealisticSpace.C327_rates_ordered",
    "Verif.Props.RealisticSpace.C327_read_pair"
   ],
   "note": "Proved for all values of up to four bytes; equal damage of two copies wins if no copy is intact (limit)."
  },
  {
   "property": "C328",
   "status": "partial",
   "theorems": [
    "Verif.Props.RealisticSpace.C328_radius_eq",
    "Verif.Props.RealisticSpace.C328_latitude_violated",
    "Verif.Props.RealisticSpace.C328_hemisphere_violated",
    "Verif.Props.RealisticSpace.C328_latitude_le",
    "Verif.Props.RealisticSpace.C328_radius_between",
    "Verif.Props.RealisticSpace.C328_kepler_residual",
    "Verif.Props.RealisticSpace.C328_kepler_program",
    "Verif.Props.RealisticSpace.C328_axis_bounds",
    "Verif.Props.RealisticSpace.C328_orbit_range",
    "Verif.Props.RealisticSpace.C328_never_polar_violated",
    "Verif.Props.RealisticSpace.C328_true_anomaly"
   ],
   "note": "Radius, Kepler accuracy and ranges proved; the position is turned by the true anomaly twice, so the latitude is wrong, and the orbit never reaches the polar regions of the conclusion (violated)."
  },
  {
   "property": "C329",
   "status": "partial",
   "theorems": [
    "Verif.Props.RealisticSpace.C329_comparison_violated",
    "Verif.Props.RealisticSpace.C329_upset_exists",
    "Verif.Props.RealisticSpace.C329_program_violated"
   ],
   "note": "Refuted: with the fixed seeds both rates are exactly 100 % at every position outside the Earth."
  },
  {
   "property": "C330",
   "status": "partial",
   "theorems": [
    "Verif.Props.RealisticSpace.C330_cell_contains",
    "Verif.Props.RealisticSpace.C330_cell_dropped_limit",
    "Verif.Props.RealisticSpace.C330_symbol_legend",
    "Verif.Props.RealisticSpace.C330_outline_violated",
    "Verif.Props.RealisticSpace.C330_regions_partition",
    "Verif.Props.RealisticSpace.C330_region_line",
    "Verif.Props.RealisticSpace.C330_polar_empty",
    "Verif.Props.RealisticSpace.C330_table_dose_violated"
   ],
   "note": "Cells, symbols, partition and averages proved; the whole interior of the anomaly is marked as boundary and the doses are for another altitude than the points (violated)."
  },
  {
   "property": "C331",
   "status": "proved",
   "theorems": [
    "Verif.Props.LeoMission.C331_flux"
   ],
   "note": "Proved for all (doubles as reals)."
  },
  {
   "property": "C332",
   "status": "partial",
   "theorems": [
    "Verif.Props.LeoMission.C332_peak",
    "Verif.Props.LeoMission.C332_saa_violated"
   ],
   "note": "Completion, peak and mean energy proved; the anomaly is applied twice, so every fluence is double (violated)."
  },
  {
   "property": "C333",
   "status": "partial",
   "theorems": [
    "Verif.Props.LeoMission.C333_range",
    "Verif.Props.LeoMission.C333_electron",
    "Verif.Props.LeoMission.C333_literature_violated"
   ],
   "note": "Range proved for all energies; the literature values for protons and heavy ions can never be used (violated)."
  },
  {
   "property": "C334",
   "status": "proved",
   "theorems": [
    "Verif.Props.LeoMission.C334_dpa"
   ],
   "note": "Proved for all."
  },
  {
   "property": "C335",
   "status": "partial",
   "theorems": [
    "Verif.Props.LeoMission.C335_check_violated"
   ],
   "note": "Refuted: with the default or better shielding no sequence of random numbers gives more than a tenth of the least expected damage."
  },
  {
   "property": "C336",
   "status": "partial",
   "theorems": [
    "Verif.Props.ExampleDetails.C336_forced",
    "Verif.Props.LeoMission.C336_above",
    "Verif.Props.LeoMission.C336_proton_violated",
    "Verif.Props.LeoMission.C336_electron_violated",
    "Verif.Props.LeoMission.C336_heavy"
   ],
   "note": "Counts above the threshold proved; protons below it count 12 defects and just above it none, electrons below it a number quadratic in the flux (violated)."
  },
  {
   "property": "C337",
   "status": "partial",
   "theorems": [
    "Verif.Props.LeoMission.C337_totals",
    "Verif.Props.LeoMission.C337_energy",
    "Verif.Props.LeoMission.C337_enhancement_violated"
   ],
   "note": "Sums and bounds proved from 150 K on; the enhancement per type is that of the last step only (violated)."
  },
  {
   "property": "C338",
   "status": "proved",
   "theorems": [
    "Verif.Props.Extreme.C338_basic",
    "Verif.Props.Extreme.C338_health",
    "Verif.Props.Extreme.C338_approximate",
    "Verif.Props.Extreme.C338_no_majority"
   ],
   "note": "Proved for all."
  },
  {
   "property": "C339",
   "status": "proved",
   "theorems": [
    "Verif.Props.Extreme.C339_reward",
    "Verif.Props.Extreme.C339_unchanged",
    "Verif.Props.Extreme.C339_range"
   ],
   "note": "Proved for all reads and histories (scores as exact rationals)."
  },
  {
   "property": "C340",
   "status": "partial",
   "theorems": [
    "Verif.Props.Extreme.C340_limit_value",
    "Verif.Props.Extreme.C340_store",
    "Verif.Props.Extreme.C340_negative_violated",
    "Verif.Props.Extreme.C340_masked",
    "Verif.Props.Extreme.C340_exposed_violated"
   ],
   "note": "Values that are not negative are read back; for negative ones storing is undefined; only multiples of 8 up to half the maximum survive every fault in one copy (violated for all others, the 42 of the test among them)."
  },
  {
   "property": "C341",
   "status": "partial",
   "theorems": [
    "Verif.Props.Extreme.C341_single",
    "Verif.Props.Extreme.C341_multi",
    "Verif.Props.Extreme.C341_multi_violated",
    "Verif.Props.Extreme.C341_stuck",
    "Verif.Props.Extreme.C341_severe",
    "Verif.Props.Extreme.C341_severe_limit"
   ],
   "note": "Single flips, stuck bits and severe corruption proved; upsets are cut at the byte (violated)."
  },
  {
   "property": "C342",
   "status": "proved",
   "theorems": [
    "Verif.Props.Extreme.C342_probabilities",
    "Verif.Props.Extreme.C342_order",
    "Verif.Props.Extreme.C342_draw",
    "Verif.Props.Extreme.C342_mean"
   ],
   "note": "Proved for all (probabilities as reals)."
  },
  {
   "property": "C343",
   "status": "partial",
   "theorems": [
    "Verif.Props.Extreme.C343_accounting",
    "Verif.Props.Extreme.C343_rates",
    "Verif.Props.Extreme.C343_skipped_violated"
   ],
   "note": "Accounting and ranges proved; events without effect lower the correction rate (violated)."
  },
  {
   "property": "C344",
   "status": "partial",
   "theorems": [
    "Verif.Props.Extreme.C344_repair_violated",
    "Verif.Props.Extreme.C344_reference_violated",
    "Verif.Props.Extreme.C344_undefined_violated"
   ],
   "note": "Refuted for every run: a repair never restores a value, and the reference is overwritten by the wrong value; with approximate copies the test can be undefined."
  },
  {
   "property": "C345",
   "status": "partial",
   "theorems": [
    "Verif.Props.Extreme.C345_one_copy",
    "Verif.Props.Extreme.C345_two_copies_violated"
   ],
   "note": "Survival of faults confined to one copy proved for every list; faults in two copies lose the value (violated), exactly when is stated."
  },
  {
   "property": "C346",
   "status": "proved",
   "theorems": [
    "Verif.Props.Extreme.C346_best",
    "Verif.Props.Extreme.C346_tie_limit"
   ],
   "note": "Proved for all; ties go to the health-weighted voter (limit)."
  },
  {
   "property": "C347",
   "status": "partial",
   "theorems": [
    "Verif.Props.FrameworkVal.C347_checks",
    "Verif.Props.FrameworkVal.C347_repair_violated"
   ],
   "note": "The first four checks proved for all values; the fifth expects a repair to restore a value lost in two copies and can never hold, so the program always fails (violated)."
  },
  {
   "property": "C348",
   "status": "partial",
   "theorems": [
    "Verif.Props.FrameworkVal.C348_levels_violated"
   ],
   "note": "Refuted: the basic level is chosen for all six, four verdicts are unfavourable."
  },
  {
   "property": "C349",
   "status": "partial",
   "theorems": [
    "Verif.Props.FrameworkVal.C349_operation",
    "Verif.Props.FrameworkVal.C349_verdict",
    "Verif.Props.FrameworkVal.C349_unreported_violated"
   ],
   "note": "Values, counts and verdict proved for all draws; errors outside the first execution are not reported (violated)."
  },
  {
   "property": "C350",
   "status": "partial",
   "theorems": [
    "Verif.Props.MissionCrit.C350_exec",
    "Verif.Props.MissionCrit.C350_tables",
    "Verif.Props.MissionCrit.C350_harmless_violated"
   ],
   "note": "Proved for all; detected and uncorrected errors are harmless (violated)."
  },
  {
   "property": "C351",
   "status": "proved",
   "theorems": [
    "Verif.Props.MissionCrit.C351_length",
    "Verif.Props.MissionCrit.C351_entries",
    "Verif.Props.MissionCrit.C351_update",
    "Verif.Props.MissionCrit.C351_forward",
    "Verif.Props.MissionCrit.C351_layers",
    "Verif.Props.MissionCrit.C351_best",
    "Verif.Props.MissionCrit.C351_accuracy"
   ],
   "note": "Proved for all sizes (weights as reals)."
  },
  {
   "property": "C352",
   "status": "partial",
   "theorems": [
    "Verif.Props.MissionCrit.C352_samples",
    "Verif.Props.MissionCrit.C352_file_violated"
   ],
   "note": "Counts proved for every minute; the file overstates the samples processed by 1360 or more (violated)."
  },
  {
   "property": "C353",
   "status": "partial",
   "theorems": [
    "Verif.Props.MissionCrit.C353_schedule",
    "Verif.Props.MissionCrit.C353_start_violated",
    "Verif.Props.MissionCrit.C353_protection_partial",
    "Verif.Props.MissionCrit.C353_stuck_violated"
   ],
   "note": "Schedule proved; the mission logged as starting in low orbit starts elsewhere (violated); the environment of the protection is right unless a spike ends with the first minute of a slot, then it stays the probe's for two hours (violated)."
  },
  {
   "property": "C354",
   "status": "partial",
   "theorems": [
    "Verif.Props.MissionCrit.C354_spike_violated",
    "Verif.Props.MissionCrit.C354_overhead_violated"
   ],
   "note": "Refuted: one entry per minute of a spike; the level and its overhead never change."
  },
  {
   "property": "C355",
   "status": "partial",
   "theorems": [
    "Verif.Props.MissionCrit.C355_radiation_violated",
    "Verif.Props.MissionCrit.C355_same_violated",
    "Verif.Props.MissionCrit.C355_rate",
    "Verif.Props.MissionCrit.C355_rate_violated"
   ],
   "note": "Refuted for all histories: weights and accuracies do not depend on radiation at all; the error rate divides inference errors by training samples and exceeds 1."
  },
  {
   "property": "C356",
   "status": "proved",
   "theorems": [
    "Verif.Props.UnitTests.C356_voting",
    "Verif.Props.UnitTests.C356_callback"
   ],
   "note": "Proved for all values and sizes."
  },
  {
   "property": "C357",
   "status": "proved",
   "theorems": [
    "Verif.Props.UnitTests.C357_count",
    "Verif.Props.UnitTests.C357_single_flip"
   ],
   "note": "Proved for all buffers and draws."
  },
  {
   "property": "C358",
   "status": "partial",
   "theorems": [
    "Verif.Props.UnitTests.C358_resilience",
    "Verif.Props.UnitTests.C358_uncorrected_violated",
    "Verif.Props.UnitTests.C358_one_copy"
   ],
   "note": "What is counted is characterised for all runs; nothing is ever corrected and the last assertion holds whatever happened (violated)."
  },
  {
   "property": "C359",
   "status": "partial",
   "theorems": [
    "Verif.Props.UnitTests.C359_identity",
    "Verif.Props.UnitTests.C359_extent_violated",
    "Verif.Props.UnitTests.C359_edges",
    "Verif.Props.UnitTests.C359_test"
   ],
   "note": "Proved for all images; the output of the first test has one element where the comments say four (violated)."
  },
  {
   "property": "C360",
   "status": "proved",
   "theorems": [
    "Verif.Props.UnitTests.C360_resilience",
    "Verif.Props.UnitTests.C360_two_copies_limit"
   ],
   "note": "Proved for all; limit: two copies."
  },
  {
   "property": "C361",
   "status": "proved",
   "theorems": [
    "Verif.Props.MatPhys.C361_threshold"
   ],
   "note": "Proved over the reals."
  },
  {
   "property": "C362",
   "status": "partial",
   "theorems": [
    "Verif.Props.MatPhys.C362_load",
    "Verif.Props.MatPhys.C362_growth",
    "Verif.Props.MatPhys.C362_water_violated"
   ],
   "note": "Proved for positive yield strengths; water with yield strength 0 gets the largest factor without stress (violated)."
  },
  {
   "property": "C363",
   "status": "partial",
   "theorems": [
    "Verif.Props.MatPhys.C363_damage",
    "Verif.Props.MatPhys.C363_extreme",
    "Verif.Props.MatPhys.C363_temperature_violated"
   ],
   "note": "Monotonicity proved; cold lowers and heat raises the damage for every material, opposite to the comments (violated)."
  },
  {
   "property": "C364",
   "status": "proved",
   "theorems": [
    "Verif.Props.ExampleDetails.C364_accepted",
    "Verif.Props.ExampleDetails.C364_density",
    "Verif.Props.MatPhys.C364_best",
    "Verif.Props.MatPhys.C364_polyethylene",
    "Verif.Props.MatPhys.C364_optimal"
   ],
   "note": "Proved: the choice is Polyethylene for all missions."
  },
  {
   "property": "C365",
   "status": "proved",
   "theorems": [
    "Verif.Props.Ieee.C365_flip",
    "Verif.Props.Ieee.C365_two_bits"
   ],
   "note": "Proved for all sizes, values and positions; positions -7 to -1 are undefined behaviour."
  },
  {
   "property": "C366",
   "status": "proved",
   "theorems": [
    "Verif.Props.Ieee.C366_answer"
   ],
   "note": "Proved for all formats."
  },
  {
   "property": "C367",
   "status": "proved",
   "theorems": [
    "Verif.Props.Ieee.C367_finite",
    "Verif.Props.Ieee.C367_infinite_limit"
   ],
   "note": "Proved for all finite triples; limit: equal infinities fail the test."
  },
  {
   "property": "C368",
   "status": "proved",
   "theorems": [
    "Verif.Props.Ieee.C368_two_bits",
    "Verif.Props.Ieee.C368_unnoticed_limit"
   ],
   "note": "When the voter recovers the value is characterised exactly; limit: the tests pass whether or not it does."
  },
  {
   "property": "C369",
   "status": "partial",
   "theorems": [
    "Verif.Props.Ieee.C369_sort_violated",
    "Verif.Props.Ieee.C369_one_special",
    "Verif.Props.Ieee.C369_zero_violated",
    "Verif.Props.Ieee.C369_all_nan",
    "Verif.Props.Ieee.C369_summary"
   ],
   "note": "Proved for one value that is not finite and nonzero finite ones, and for NaNs; with one NaN and two different values the ordinary test sorts values that are not ordered (violated, the sixth test), and with a zero the voter does not return (violated)."
  },
  {
   "property": "C370",
   "status": "proved",
   "theorems": [
    "Verif.Props.ExampleDetails.C370_registered",
    "Verif.Props.ExampleDetails.C370_length",
    "Verif.Props.MissionDemo.C370_untouched_limit"
   ],
   "note": "Proved as a limit: the voters cannot be reached by the simulated radiation, so the example never shows an error."
  },
  {
   "property": "C371",
   "status": "proved",
   "theorems": [
    "Verif.Props.MissionDemo.C371_adaptation",
    "Verif.Props.MissionDemo.C371_level_limit"
   ],
   "note": "Proved for all sequences; limit: the level announced is MEDIUM in all missions."
  },
  {
   "property": "C372",
   "status": "proved",
   "theorems": [
    "Verif.Props.MissionDemo.C372_boost",
    "Verif.Props.MissionDemo.C372_lost_limit"
   ],
   "note": "Proved for all environments; limit: the first change of environment ends the boost."
  },
  {
   "property": "C373",
   "status": "proved",
   "theorems": [
    "Verif.Props.ModelAcc.C373_majority",
    "Verif.Props.ModelAcc.C373_intact"
   ],
   "note": "Proved for any odd number of runs and any threshold."
  },
  {
   "property": "C374",
   "status": "proved",
   "theorems": [
    "Verif.Props.ModelAcc.C374_parameters",
    "Verif.Props.ModelAcc.C374_injection",
    "Verif.Props.ModelAcc.C374_no_errors",
    "Verif.Props.ModelAcc.C374_prediction",
    "Verif.Props.ModelAcc.C374_levels"
   ],
   "note": "Proved for all networks and draws."
  },
  {
   "property": "C375",
   "status": "partial",
   "theorems": [
    "Verif.Props.ModelAcc.C375_table_violated"
   ],
   "note": "The table is computed from the position in the table, not from the accuracies; its exact entries are proved."
  },
  {
   "property": "C376",
   "status": "proved",
   "theorems": [
    "Verif.Props.ModelAcc.C376_vote",
    "Verif.Props.ModelAcc.C376_computation",
    "Verif.Props.ModelAcc.C376_acceptance",
    "Verif.Props.ModelAcc.C376_zero_limit",
    "Verif.Props.ModelAcc.C376_no_errors",
    "Verif.Props.ModelAcc.C376_single_limit"
   ],
   "note": "Proved for all inputs and draws; limit: for the input zero nothing is accepted."
  },
  {
   "property": "C377",
   "status": "proved",
   "theorems": [
    "Verif.Props.FwVerif.C377_verdict",
    "Verif.Props.FwVerif.C377_intact"
   ],
   "note": "Proved as an equivalence."
  },
  {
   "property": "C378",
   "status": "proved",
   "theorems": [
    "Verif.Props.FwVerif.C378_counted_twice_limit",
    "Verif.Props.FwVerif.C378_consistent",
    "Verif.Props.FwVerif.C378_verify_limit",
    "Verif.Props.FwVerif.C378_bias_statistics"
   ],
   "note": "Proved; limits: 68 errors are shown for 34 injections, and verify cannot see the corrupted bias."
  },
  {
   "property": "C379",
   "status": "proved",
   "theorems": [
    "Verif.Props.VoteTest.C379_single",
    "Verif.Props.VoteTest.C379_clusters",
    "Verif.Props.VoteTest.C379_bytes"
   ],
   "note": "Proved for all widths; adjacent errors up to the width."
  },
  {
   "property": "C380",
   "status": "proved",
   "theorems": [
    "Verif.Props.VoteTest.C380_assertions",
    "Verif.Props.VoteTest.C380_extreme",
    "Verif.Props.VoteTest.C380_nan_limit"
   ],
   "note": "Proved; limit: for NaN the first assertion fails."
  },
  {
   "property": "C381",
   "status": "partial",
   "theorems": [
    "Verif.Props.VoteTest.C381_wide_violated",
    "Verif.Props.VoteTest.C381_program_violated"
   ],
   "note": "The opposite is proved: for every 64-bit value classifying the word error or the burst is an undefined shift, so the program of the file is undefined."
  },
  {
   "property": "C382",
   "status": "proved",
   "theorems": [
    "Verif.Props.VoteTest.C382_statistics"
   ],
   "note": "Proved for every number of trials."
  },
  {
   "property": "C383",
   "status": "partial",
   "theorems": [
    "Verif.Props.VoterDemos.C383_outvoted",
    "Verif.Props.VoterDemos.C383_two_violated",
    "Verif.Props.VoterDemos.C383_random"
   ],
   "note": "Proved for one corrupted copy and for the random test; the two-copy claim is false: two copies overwritten with the same value always win, whatever the health scores, and the repair spreads them."
  },
  {
   "property": "C384",
   "status": "proved",
   "theorems": [
    "Verif.Props.VoterDemos.C384_trial"
   ],
   "note": "Proved for values up to the range limit that are no multiple of eight, with hits that differ from the value and the reduced value."
  },
  {
   "property": "C385",
   "status": "partial",
   "theorems": [
    "Verif.Props.VoterDemos.C385_stored",
    "Verif.Props.VoterDemos.C385_exposed_violated",
    "Verif.Props.VoterDemos.C385_masked"
   ],
   "note": "The masking is false: a corrupted exact copy is read (and repaired into all copies) unless the two approximations are equal; a value a little above 1000 is read as 1000."
  },
  {
   "property": "C386",
   "status": "proved",
   "theorems": [
    "Verif.Props.NetVal.C386_target",
    "Verif.Props.NetVal.C386_dataset",
    "Verif.Props.NetVal.C386_empty_limit"
   ],
   "note": "Proved for all sizes; limit: without outputs the program writes outside the vector."
  },
  {
   "property": "C387",
   "status": "proved",
   "theorems": [
    "Verif.Props.NetVal.C387_accuracy",
    "Verif.Props.NetVal.C387_range",
    "Verif.Props.NetVal.C387_effectiveness",
    "Verif.Props.NetVal.C387_result"
   ],
   "note": "Proved with an independent meaning of agreement."
  },
  {
   "property": "C388",
   "status": "proved",
   "theorems": [
    "Verif.Props.NetVal.C388_average",
    "Verif.Props.NetVal.C388_range",
    "Verif.Props.NetVal.C388_few_limit",
    "Verif.Props.NetVal.C388_schedule",
    "Verif.Props.NetVal.C388_chain"
   ],
   "note": "Proved; limit: only the first five samples see radiation, so the accuracies can differ by at most 500/n points while the other predictions are unchanged."
  },
  {
   "property": "C389",
   "status": "partial",
   "theorems": [
    "Verif.Props.NetVal.C389_seed_violated",
    "Verif.Props.NetVal.C389_geo",
    "Verif.Props.NetVal.C389_run_violated"
   ],
   "note": "Only the geostationary mission is defined: for all others the seed casts a negative latitude to uint64_t, undefined behaviour, so the program is undefined from the first mission on."
  },
  {
   "property": "C390",
   "status": "proved",
   "theorems": [
    "Verif.Props.RsDemos.C390_apply",
    "Verif.Props.RsDemos.C390_counts",
    "Verif.Props.RsDemos.C390_digits"
   ],
   "note": "Proved for all lists of bytes, streams of draws and 32-bit words."
  },
  {
   "property": "C391",
   "status": "partial",
   "theorems": [
    "Verif.Props.RsDemos.C391_demo_violated",
    "Verif.Props.RsDemos.C391_debug_violated",
    "Verif.Props.RsDemos.C391_trial",
    "Verif.Props.RsDemos.C391_successes"
   ],
   "note": "The successes are the number of successful trials for any codec whose trials are defined; for the codec of the demonstrations the opposite is proved: the constructor of its field writes outside an empty table, so every one of the four programs is undefined at its first object."
  },
  {
   "property": "C392",
   "status": "partial",
   "theorems": [
    "Verif.Props.ExampleDetails.C392_initial",
    "Verif.Props.SimpleNN.C392_max_violated",
    "Verif.Props.SimpleNN.C392_predict_violated"
   ],
   "note": "The opposite is proved: the selected raw value is passed to the constructor from int and scaled again, so the result is never the maximum unless that is 0, and undefined from a raw value of 128 on; the prediction of the program itself is undefined."
  },
  {
   "property": "C393",
   "status": "proved",
   "theorems": [
    "Verif.Props.SimpleNN.C393_upsets",
    "Verif.Props.SimpleNN.C393_zero",
    "Verif.Props.SimpleNN.C393_value"
   ],
   "note": "Proved for all values, also where the prediction is undefined; the prediction is 0 whenever no hidden sum is positive."
  }
 ]
}