# Axioms per theorem

Output of `#print axioms` for every theorem of `MANIFEST.json` (Lean 4.33.0).

| theorem | axioms |
|---|---|
| `Dlt.Props.C01_bc1_lossless` | propext, Classical.choice, Quot.sound |
| `Dlt.Props.C05_bc1_layout` | propext, Classical.choice, Quot.sound |
| `Dlt.Props.C05_bc1_layout_host` | propext, Classical.choice, Quot.sound |
| `Dlt.Props.C08_decorrelation_bijective` | propext, Classical.choice, Quot.sound |
| `Dlt.Props.C09_ycocg_meaning` | propext, Classical.choice, Quot.sound |
| `Dlt.Props.C11_bc1_cpu_independent` | propext, Classical.choice, Quot.sound |
| `Dlt.Props.C14_batch_slice` | propext, Quot.sound |
| `Dlt.Props.C14_batch_split` | propext, Quot.sound |
| `Dlt.Props.C14_batch_ptr` | propext, Quot.sound |
| `Dlt.Props.C14_batch_ptr_split` | propext, Quot.sound |
| `Dlt.Props.C14_batch_in_place` | propext, Quot.sound |
| `Dlt.Props.C49_bc1_not_portable` | propext, Quot.sound |
| `Dlt.Props.C49_bc1_portable_partial` | propext, Classical.choice, Quot.sound |
| `Dlt.Props.C49_bc2_not_portable` | propext, Quot.sound |
| `Dlt.Props.C49_bc2_portable_partial` | propext, Classical.choice, Quot.sound |
| `Dlt.Props.C49_bc3_not_portable` | propext, Quot.sound |
| `Dlt.Props.C49_bc3_portable_partial` | propext, Classical.choice, Quot.sound |
| `Dlt.Props.C49_bc1_exact` | propext, Classical.choice, Quot.sound |
| `Dlt.Props.C49_bc2_exact` | propext, Classical.choice, Quot.sound |
| `Dlt.Props.C49_bc3_exact` | propext, Classical.choice, Quot.sound |
| `Dlt.Props.C02_bc2_lossless` | propext, Classical.choice, Quot.sound |
| `Dlt.Props.C06_bc2_layout` | propext, Classical.choice, Quot.sound |
| `Dlt.Props.C06_bc2_layout_host` | propext, Classical.choice, Quot.sound |
| `Dlt.Props.C12_bc2_cpu_independent` | propext, Classical.choice, Quot.sound |
| `Dlt.Props.C03_bc3_lossless` | propext, Classical.choice, Quot.sound |
| `Dlt.Props.C07_bc3_layout` | propext, Classical.choice, Quot.sound |
| `Dlt.Props.C07_bc3_layout_host` | propext, Classical.choice, Quot.sound |
| `Dlt.Props.C13_bc3_cpu_independent` | propext, Classical.choice, Quot.sound |
| `Dlt.Props.C04_bc1_bijective` | propext, Classical.choice, Quot.sound |
| `Dlt.Props.C04_bc1_injective` | propext, Classical.choice, Quot.sound |
| `Dlt.Props.C04_bc2_bijective` | propext, Classical.choice, Quot.sound |
| `Dlt.Props.C04_bc2_injective` | propext, Classical.choice, Quot.sound |
| `Dlt.Props.C04_bc3_bijective` | propext, Classical.choice, Quot.sound |
| `Dlt.Props.C04_bc3_injective` | propext, Classical.choice, Quot.sound |
| `Dlt.Props.C10_bc1_memory` | propext, Classical.choice, Quot.sound |
| `Dlt.Props.C10_bc2_memory` | propext, Classical.choice, Quot.sound |
| `Dlt.Props.C10_bc3_memory` | propext, Classical.choice, Quot.sound |
| `Dlt.Props.C10_loads` | propext, Quot.sound |
| `Dlt.Props.C10_stores` | propext, Quot.sound |
| `Dlt.Props.C10_loops` | propext, Quot.sound |
| `Dlt.Props.C26_dds_roundtrip` | propext, Classical.choice, Quot.sound |
| `Dlt.Props.C26_dds_api_roundtrip` | propext, Classical.choice, Quot.sound |
| `Dlt.Props.C26_dds_roundtrip_exact` | propext, Classical.choice, Quot.sound |
| `Dlt.Props.C26_overflow_checks_matter` | propext, Classical.choice, Quot.sound |
| `Dlt.Props.C27_larger_buffer_panics` | propext, Classical.choice, Quot.sound |
| `Dlt.Props.C27_larger_buffer_untransform_panics` | propext, Classical.choice, Quot.sound |
| `Dlt.Props.C27_larger_buffer_partial` | propext, Classical.choice, Quot.sound |
| `Dlt.Props.C27_larger_buffer_untransform_partial` | propext, Classical.choice, Quot.sound |
| `Dlt.Props.smallFile_runs` | propext, Classical.choice, Quot.sound |
| `Dlt.Props.C28_dds_rest_unchanged` | propext, Classical.choice, Quot.sound |
| `Dlt.Props.C28_dds_rest_exact` | propext, Classical.choice, Quot.sound |
| `Dlt.Props.C29_not_transformed_twice` | propext, Classical.choice, Quot.sound |
| `Dlt.Props.C30_never_succeeds` | propext, Classical.choice, Quot.sound |
| `Dlt.Props.C30_error_partial` | propext, Classical.choice, Quot.sound |
| `Dlt.Props.C30_panics` | propext, Classical.choice, Quot.sound |
| `Dlt.Props.C30_error_exact` | propext, Classical.choice, Quot.sound |
| `Dlt.Props.C31_transform_truncated_partial` | propext, Classical.choice, Quot.sound |
| `Dlt.Props.C31_untransform_truncated_partial` | propext, Classical.choice, Quot.sound |
| `Dlt.Props.C31_truncated_panics` | propext, Classical.choice, Quot.sound |
| `Dlt.Props.C31_transform_truncated_exact` | propext, Classical.choice, Quot.sound |
| `Dlt.Props.C31_untransform_truncated_exact` | propext, Classical.choice, Quot.sound |
| `Dlt.Props.C32_size_reported` | propext, Classical.choice, Quot.sound |
| `Dlt.Props.C32_size_partial` | propext, Classical.choice, Quot.sound |
| `Dlt.Props.C32_exact` | propext, Classical.choice, Quot.sound |
| `Dlt.Props.C32_size_wraps` | propext, Classical.choice, Quot.sound |
| `Dlt.Props.C33_parse` | propext, Classical.choice, Quot.sound |
| `Dlt.Props.C33_exports` | propext, Classical.choice, Quot.sound |
| `Dlt.Props.C33_detection` | propext, Classical.choice, Quot.sound |
| `Dlt.Props.C34_only_bc1_bc2` | propext, Classical.choice, Quot.sound |
| `Dlt.Props.C34_errors` | propext, Classical.choice, Quot.sound |
| `Dlt.Props.C34_refused_exact` | propext, Classical.choice, Quot.sound |
| `Dlt.Props.C54_extraction` | propext, Classical.choice, Quot.sound |
| `Dlt.Props.C54_extraction_exact` | propext, Classical.choice, Quot.sound |
| `Dlt.Props.C35_transform_selection` | propext, Quot.sound |
| `Dlt.Props.C35_untransform_selection` | propext, Quot.sound |
| `Dlt.Props.C36_dispatch_obeys_header` | propext, Classical.choice, Quot.sound |
| `Dlt.Props.C36_dispatch_roundtrip` | propext, Classical.choice, Quot.sound |
| `Dlt.Props.C36_bundle_bc1` | propext, Quot.sound |
| `Dlt.Props.C36_bundle_bc2` | propext, Quot.sound |
| `Dlt.Props.C42_variants` | propext |
| `Dlt.Props.C42_bc1_setters` | propext, Quot.sound |
| `Dlt.Props.C42_bc1_manual_transform` | propext, Classical.choice, Quot.sound |
| `Dlt.Props.C42_bc1_manual_reuse` | propext, Classical.choice, Quot.sound |
| `Dlt.Props.C42_bc1_auto_reuse` | propext, Classical.choice, Quot.sound |
| `Dlt.Props.C42_bc1_auto_modes` | propext, Quot.sound |
| `Dlt.Props.C42_bc2_setters` | propext, Quot.sound |
| `Dlt.Props.C42_bc2_manual_transform` | propext, Classical.choice, Quot.sound |
| `Dlt.Props.C42_bc2_manual_reuse` | propext, Classical.choice, Quot.sound |
| `Dlt.Props.C42_bc2_auto_reuse` | propext, Classical.choice, Quot.sound |
| `Dlt.Props.C42_bc2_auto_modes` | propext, Quot.sound |
| `Dlt.Props.C48_bc1_big_endian_lossless` | propext, Classical.choice, Quot.sound |
| `Dlt.Props.C48_bc2_big_endian_lossless` | propext, Classical.choice, Quot.sound |
| `Dlt.Props.C48_bc3_big_endian_lossless` | propext, Classical.choice, Quot.sound |
| `Dlt.Props.C15_split_layout` | propext, Classical.choice, Quot.sound |
| `Dlt.Props.C15_split_merge` | propext, Classical.choice, Quot.sound |
| `Dlt.Props.C16_bc1_transform_validation` | propext, Classical.choice, Quot.sound |
| `Dlt.Props.C16_bc2_transform_validation` | propext, Classical.choice, Quot.sound |
| `Dlt.Props.C16_bc3_transform_validation` | propext, Classical.choice, Quot.sound |
| `Dlt.Props.C16_bc1_untransform_validation` | propext, Classical.choice, Quot.sound |
| `Dlt.Props.C16_bc2_untransform_validation` | propext, Classical.choice, Quot.sound |
| `Dlt.Props.C16_bc3_untransform_validation` | propext, Classical.choice, Quot.sound |
| `Dlt.Props.C16_bc1_auto_validation` | propext, Classical.choice, Quot.sound |
| `Dlt.Props.C16_bc2_auto_validation` | propext, Classical.choice, Quot.sound |
| `Dlt.Props.C16_bc3_auto_validation` | propext, Classical.choice, Quot.sound |
| `Dlt.Props.C17_bc1_auto_reports_used` | propext, Classical.choice, Quot.sound |
| `Dlt.Props.C18_bc2_auto_reports_used` | propext, Classical.choice, Quot.sound |
| `Dlt.Props.C19_bc3_auto_reports_used` | propext, Classical.choice, Quot.sound |
| `Dlt.Props.C20_bc1_auto_optimal` | propext, Classical.choice, Quot.sound |
| `Dlt.Props.C20_bc2_auto_optimal` | propext, Classical.choice, Quot.sound |
| `Dlt.Props.C20_bc3_auto_optimal` | propext, Classical.choice, Quot.sound |
| `Dlt.Props.C20_bc3_total_wraps` | propext, Quot.sound |
| `Dlt.Props.C21_bc1_candidates` | propext |
| `Dlt.Props.C21_bc2_candidates` | propext |
| `Dlt.Props.C21_bc3_candidates` | propext |
| `Dlt.Props.C21_bc1_exhaustive_not_worse` | propext, Classical.choice, Quot.sound |
| `Dlt.Props.C21_bc2_exhaustive_not_worse` | propext, Classical.choice, Quot.sound |
| `Dlt.Props.C21_bc3_exhaustive_not_worse` | propext, Classical.choice, Quot.sound |
| `Dlt.Props.C22_bc1_estimator_failures` | propext, Classical.choice, Quot.sound |
| `Dlt.Props.C22_bc2_estimator_failures` | propext, Classical.choice, Quot.sound |
| `Dlt.Props.C22_bc3_estimator_failures` | propext, Classical.choice, Quot.sound |
| `Dlt.Props.C55_debug_empty_panics` | propext, Quot.sound |
| `Dlt.Props.C55_debug_nonempty_partial` | propext, Classical.choice, Quot.sound |
| `Dlt.Props.C55_debug_exact` | propext, Classical.choice, Quot.sound |
| `Dlt.Props.C55_auto_same_partial` | propext, Classical.choice, Quot.sound |
| `Dlt.Props.C55_auto_empty_panics` | propext, Quot.sound |
| `Dlt.Props.C55_bc3_auto_same_partial` | propext, Classical.choice, Quot.sound |
| `Dlt.Props.C55_bc3_auto_empty_panics` | propext, Quot.sound |
| `Dlt.Props.C55_auto_exact` | propext, Classical.choice, Quot.sound |
| `Dlt.Props.C55_bc3_auto_exact` | propext, Classical.choice, Quot.sound |
| `Dlt.Props.C23_bc1_header_roundtrip` | propext, Classical.choice, Quot.sound |
| `Dlt.Props.C23_bc2_header_roundtrip` | propext, Classical.choice, Quot.sound |
| `Dlt.Props.C23_bc3_bc7_header_roundtrip` | propext, Classical.choice, Quot.sound |
| `Dlt.Props.C23_bc4_bc5_header_roundtrip` | propext, Classical.choice, Quot.sound |
| `Dlt.Props.C23_pixels_header_roundtrip` | propext, Classical.choice, Quot.sound |
| `Dlt.Props.C24_header_layout` | propext, Quot.sound |
| `Dlt.Props.C24_headers_distinct` | propext, Classical.choice, Quot.sound |
| `Dlt.Props.C25_bc1_bc2_decode` | propext, Classical.choice, Quot.sound |
| `Dlt.Props.C25_bc3_bc7_decode` | propext, Classical.choice, Quot.sound |
| `Dlt.Props.C25_checked_decode` | propext, Classical.choice, Quot.sound |
| `Dlt.Props.C47_expand_reduce` | propext, Classical.choice, Quot.sound |
| `Dlt.Props.C47_expand_value` | propext, Classical.choice, Quot.sound |
| `Dlt.Props.C47_reduce_value` | propext, Classical.choice, Quot.sound |
| `Dlt.Props.C53_insert_bits` | propext, Classical.choice, Quot.sound |
| `Dlt.Props.C53_extract_value` | propext, Classical.choice, Quot.sound |
| `Dlt.Props.C53_extract_insert` | propext, Classical.choice, Quot.sound |
| `Dlt.Props.C53_insert_extract` | propext, Classical.choice, Quot.sound |
| `Dlt.Props.C53_bad_range` | propext, Quot.sound |
| `Dlt.Props.C53_example` | propext, Quot.sound |
| `Dlt.Props.C56_bc1_decode` | propext, Classical.choice, Quot.sound |
| `Dlt.Props.C56_bc2_decode` | propext, Classical.choice, Quot.sound |
| `Dlt.Props.C56_bc3_decode` | propext, Classical.choice, Quot.sound |
| `Dlt.Props.C56_from_slice` | propext, Classical.choice, Quot.sound |
| `Dlt.Props.C56_pixels` | propext, Classical.choice, Quot.sound |
| `Dlt.Props.C43_bc1_pixels` | propext, Classical.choice, Quot.sound |
| `Dlt.Props.C43_bc1_normal_form` | propext, Classical.choice, Quot.sound |
| `Dlt.Props.C44_bc3_pixels` | propext, Classical.choice, Quot.sound |
| `Dlt.Props.C44_bc3_normal_form` | propext, Classical.choice, Quot.sound |
| `Dlt.Props.C44_bc2_pixels` | propext, Classical.choice, Quot.sound |
| `Dlt.Props.C44_bc2_normal_form` | propext, Classical.choice, Quot.sound |
| `Dlt.Props.C45_bc1_all_modes_partial` | propext, Classical.choice, Quot.sound |
| `Dlt.Props.C45_bc1_none_differs` | propext, Quot.sound |
| `Dlt.Props.C45_bc1_none_exact` | propext, Classical.choice, Quot.sound |
| `Dlt.Props.C45_bc1_in_place_corrupts` | propext, Quot.sound |
| `Dlt.Props.C45_bc2_all_modes` | propext, Classical.choice, Quot.sound |
| `Dlt.Props.C45_bc3_all_modes` | propext, Classical.choice, Quot.sound |
| `Dlt.Props.C45_bc3_in_place_exact` | propext, Classical.choice, Quot.sound |
| `Dlt.Props.C45_bc3_in_place_differs` | propext, Quot.sound |
| `Dlt.Props.C46_bc1_idempotent` | propext, Classical.choice, Quot.sound |
| `Dlt.Props.C46_bc2_idempotent` | propext, Classical.choice, Quot.sound |
| `Dlt.Props.C46_bc3_idempotent` | propext, Classical.choice, Quot.sound |
| `Dlt.Props.C57_bc1_split` | propext, Classical.choice, Quot.sound |
| `Dlt.Props.C57_bc1_split_same` | propext, Classical.choice, Quot.sound |
| `Dlt.Props.C57_bc2_split` | propext, Classical.choice, Quot.sound |
| `Dlt.Props.C57_bc3_split` | propext, Classical.choice, Quot.sound |
| `Dlt.Props.C50_normalize_transform` | propext, Classical.choice, Quot.sound |
| `Dlt.Props.C50_auto_normalize` | propext, Classical.choice, Quot.sound |
| `Dlt.Props.C58_auto_normalize_optimal_partial` | propext, Classical.choice, Quot.sound |
| `Dlt.Props.C58_not_optimal` | propext, Quot.sound |
| `Dlt.Props.C58_auto_normalize_shown` | propext, Classical.choice, Quot.sound |
| `Dlt.Props.C58_nothing_to_normalize` | propext, Classical.choice, Quot.sound |
| `Dlt.Props.C37_file_with_handler` | propext, Quot.sound |
| `Dlt.Props.C37_slice_to_file_with_handler` | propext, Quot.sound |
| `Dlt.Props.C37_file_to_slice_with_handler` | propext, Quot.sound |
| `Dlt.Props.C37_file_with_multiple_handlers` | propext, Classical.choice, Quot.sound |
| `Dlt.Props.C37_slice_to_file_with_multiple_handlers` | propext, Quot.sound |
| `Dlt.Props.C37_file_to_slice_with_multiple_handlers` | propext, Classical.choice, Quot.sound |
| `Dlt.Props.C37_frame` | propext, Classical.choice, Quot.sound |
| `Dlt.Props.C37_detect_panics` | propext, Classical.choice, Quot.sound |
| `Dlt.Props.C37_dds_file_roundtrip` | propext, Classical.choice, Quot.sound |
| `Dlt.Props.C37_same_path_destroys` | propext, Quot.sound |
| `Dlt.Props.C38_nothing_left_partial` | propext, Classical.choice, Quot.sound |
| `Dlt.Props.C38_left_behind` | propext, Quot.sound |
| `Dlt.Props.C38_violated` | propext, Classical.choice, Quot.sound |
| `Dlt.Props.C38_exact` | propext, Quot.sound |
| `Dlt.Props.C38_always_left` | propext, Quot.sound |
| `Dlt.Props.C38_exact_multiple` | propext, Classical.choice, Quot.sound |
| `Dlt.Props.C59_dds_total` | propext, Classical.choice, Quot.sound |
| `Dlt.Props.C39_find_all_files` | propext, Quot.sound |
| `Dlt.Props.C39_schedule_independent_partial` | propext, Classical.choice, Quot.sound |
| `Dlt.Props.C39_sequential_partial` | propext, Classical.choice, Quot.sound |
| `Dlt.Props.C39_terminates` | propext, Classical.choice, Quot.sound |
| `Dlt.Props.C39_no_panic` | propext, Classical.choice, Quot.sound |
| `Dlt.Props.C39_nested_depends_on_order` | propext, Classical.choice, Quot.sound |
| `Dlt.Props.C39_one_file_partial` | propext, Classical.choice, Quot.sound |
| `Dlt.Props.C39_any_directory` | propext, Classical.choice, Quot.sound |
| `Dlt.Props.C60_batch_roundtrip` | propext, Classical.choice, Quot.sound |
| `Dlt.Props.C40_holds_last_set` | propext, Classical.choice, Quot.sound |
| `Dlt.Props.C40_independent` | propext, Classical.choice, Quot.sound |
| `Dlt.Props.C40_null_ignored` | propext |
| `Dlt.Props.C40_transform_uses_last_set` | propext, Classical.choice, Quot.sound |
| `Dlt.Props.C40_disjoint` | propext, Classical.choice, Quot.sound |
| `Dlt.Props.C41_manual_nulls` | propext, Quot.sound |
| `Dlt.Props.C41_manual_result` | propext, Classical.choice, Quot.sound |
| `Dlt.Props.C41_auto_nulls` | propext, Quot.sound |
| `Dlt.Props.C41_auto_result` | propext, Classical.choice, Quot.sound |
| `Dlt.Props.C41_estimator` | none |
| `Dlt.Props.C41_codes_distinct` | propext, Classical.choice, Quot.sound |
| `Dlt.Props.C41_core_codes_distinct` | propext |
| `Dlt.Props.C41_core_nulls` | propext, Quot.sound |
| `Dlt.Props.C41_core_result` | propext, Classical.choice, Quot.sound |
| `Dlt.Props.C41_core_auto_result` | propext, Classical.choice, Quot.sound |
| `Dlt.Props.C61_manual_roundtrip` | propext, Classical.choice, Quot.sound |
| `Dlt.Props.C61_auto_roundtrip` | propext, Classical.choice, Quot.sound |
| `Dlt.Props.C61_core_roundtrip` | propext, Classical.choice, Quot.sound |
| `Dlt.Props.C62_ltu_c_is_ltu` | none |
| `Dlt.Props.C62_ltu_never_fails` | propext, Classical.choice, Quot.sound |
| `Dlt.Props.C62_ltu_c_succeeds` | propext, Classical.choice, Quot.sound |
| `Dlt.Props.C51_returned_size_was_estimated` | propext, Classical.choice, Quot.sound |
| `Dlt.Props.C51_source` | propext, Classical.choice, Quot.sound |
| `Dlt.Props.C51_transparent` | propext, Classical.choice, Quot.sound |
| `Dlt.Props.C51_known` | propext, Classical.choice, Quot.sound |
| `Dlt.Props.C51_no_second_estimate` | propext, Classical.choice, Quot.sound |
| `Dlt.Props.C51_mixed_witness` | propext, Classical.choice, Quot.sound |
| `Dlt.Props.C52_violated` | propext, Classical.choice, Quot.sound |
| `Dlt.Props.C52_lookup_partial` | propext, Classical.choice, Quot.sound |
| `Dlt.Props.C52_exact` | propext, Classical.choice, Quot.sound |
| `Dlt.Props.C52_bytes_partial` | propext, Classical.choice, Quot.sound |
| `Dlt.Props.C63_save_load` | propext, Classical.choice, Quot.sound |
| `Dlt.Props.C63_crash` | propext, Classical.choice, Quot.sound |
| `Dlt.Props.C63_reachable` | propext, Classical.choice, Quot.sound |
| `Dlt.Props.C63_loaded` | propext, Quot.sound |
| `Dlt.Props.C63_reported` | propext, Classical.choice, Quot.sound |
| `Dlt.Props.C64_dry_run` | propext, Classical.choice, Quot.sound |
| `Dlt.Props.C64_files_stay` | propext, Classical.choice, Quot.sound |
| `Dlt.Props.C64_lookup` | propext, Classical.choice, Quot.sound |
| `Dlt.Props.C64_reader_during_write` | propext, Classical.choice, Quot.sound |
| `Dlt.Props.C65_file_names_differ` | propext, Classical.choice, Quot.sound |
| `Dlt.Props.C65_inside_directory` | propext, Classical.choice, Quot.sound |
| `Dlt.Props.C66_all_combinations` | propext |
| `Dlt.Props.C66_texture` | propext, Classical.choice, Quot.sound |
| `Dlt.Props.C66_success` | propext, Quot.sound |
| `Dlt.Props.C66_pixels_only` | propext, Quot.sound |
| `Dlt.Props.C66_file` | propext, Classical.choice, Quot.sound |
| `Dlt.Props.C66_extract` | propext, Classical.choice, Quot.sound |
| `Dlt.Props.C66_command` | propext, Classical.choice, Quot.sound |
| `Dlt.Props.C67_filter_names` | none |
| `Dlt.Props.C67_extraction` | propext, Quot.sound |
| `Dlt.Props.C67_detect` | propext, Classical.choice, Quot.sound |
| `Dlt.Props.C67_analysis` | propext, Classical.choice, Quot.sound |
| `Dlt.Props.C68_best` | propext, Classical.choice, Quot.sound |
| `Dlt.Props.C68_levels` | propext |
| `Dlt.Props.C68_size` | propext, Quot.sound |
| `Dlt.Props.C68_cached_size` | propext, Quot.sound |
| `Dlt.Props.C68_bc1` | propext, Classical.choice, Quot.sound |
| `Dlt.Props.C68_bc1_normalize` | propext, Classical.choice, Quot.sound |
| `Dlt.Props.C68_bc2` | propext, Classical.choice, Quot.sound |
| `Dlt.Props.C68_bc3` | propext, Classical.choice, Quot.sound |
| `Dlt.Props.C68_ranking` | propext, Classical.choice, Quot.sound |
| `Dlt.Props.C69_files` | propext, Classical.choice, Quot.sound |
| `Dlt.Props.C69_sizes` | propext |
| `Dlt.Props.C69_short_reads` | propext |
| `Dlt.Props.C69_directories_sound` | propext, Classical.choice, Quot.sound |
| `Dlt.Props.C69_directories` | propext, Classical.choice, Quot.sound |
| `Dlt.Props.C69_directories_end` | propext, Classical.choice, Quot.sound |
| `Dlt.Props.C70_verdict` | propext, Quot.sound |
| `Dlt.Props.C70_plain_file` | propext, Classical.choice, Quot.sound |
| `Dlt.Props.C70_result` | propext, Classical.choice, Quot.sound |
| `Dlt.Props.C70_process` | propext, Classical.choice, Quot.sound |
| `Dlt.Props.C70_passes` | propext, Classical.choice, Quot.sound |
| `Dlt.Props.C70_sound` | propext, Classical.choice, Quot.sound |
| `Dlt.Props.C71_bc1_transforms` | propext, Classical.choice, Quot.sound |
| `Dlt.Props.C71_bc1_untransforms` | propext, Classical.choice, Quot.sound |
| `Dlt.Props.C71_bc1_production` | propext, Classical.choice, Quot.sound |
| `Dlt.Props.C71_bc1_unlays` | propext, Classical.choice, Quot.sound |
| `Dlt.Props.C71_bc1_roundtrip` | propext, Classical.choice, Quot.sound |
| `Dlt.Props.C71_bc2_transforms` | propext, Classical.choice, Quot.sound |
| `Dlt.Props.C71_bc2_production` | propext, Classical.choice, Quot.sound |
| `Dlt.Props.C71_bc2_untransforms` | propext, Classical.choice, Quot.sound |
| `Dlt.Props.C71_bc2_roundtrip` | propext, Classical.choice, Quot.sound |
| `Dlt.Props.C71_bc3_transforms` | propext, Classical.choice, Quot.sound |
| `Dlt.Props.C71_bc3_alpha_transforms` | propext, Classical.choice, Quot.sound |
| `Dlt.Props.C71_bc3_production` | propext, Classical.choice, Quot.sound |
| `Dlt.Props.C71_bc3_untransforms` | propext, Classical.choice, Quot.sound |
| `Dlt.Props.C71_bc3_roundtrip` | propext, Classical.choice, Quot.sound |
| `Dlt.Props.C71_split` | propext, Classical.choice, Quot.sound |
| `Dlt.Props.C72_names` | propext |
| `Dlt.Props.C72_created` | propext |
| `Dlt.Props.C72_command` | propext, Classical.choice, Quot.sound |
| `Dlt.Props.C72_bc1_slice` | propext, Classical.choice, Quot.sound |
| `Dlt.Props.C72_bc1` | propext, Classical.choice, Quot.sound |
| `Dlt.Props.C72_bc2_refused` | propext, Classical.choice, Quot.sound |
| `Dlt.Props.C72_only_bc1` | propext, Classical.choice, Quot.sound |
| `Dlt.Props.C72_max_not_worse` | propext, Quot.sound |
| `Dlt.Props.C73_bc1` | propext, Classical.choice, Quot.sound |
| `Dlt.Props.C73_bc2` | propext, Classical.choice, Quot.sound |
| `Dlt.Props.C73_bc3` | propext, Classical.choice, Quot.sound |
| `Dlt.Props.C73_refused` | propext, Classical.choice, Quot.sound |
| `Dlt.Props.C73_zero_iterations` | propext, Classical.choice, Quot.sound |
| `Dlt.Props.C73_damaged_cache` | propext, Classical.choice, Quot.sound |
| `Dlt.Props.C73_determine` | propext, Classical.choice, Quot.sound |
| `Dlt.Props.C73_determine_formats` | propext, Classical.choice, Quot.sound |
| `Dlt.Props.C73_search_command` | propext, Classical.choice, Quot.sound |
| `Dlt.Props.C74_times` | propext, Classical.choice, Quot.sound |
| `Dlt.Props.C74_overall` | propext, Quot.sound |
| `Dlt.Props.C74_bytes` | propext, Classical.choice, Quot.sound |
| `Dlt.Props.C75_names` | propext, Classical.choice, Quot.sound |
| `Dlt.Props.C75_printed` | propext, Classical.choice, Quot.sound |
| `Dlt.Props.C75_levels` | propext |
| `Dlt.Props.C76_argument` | propext, Quot.sound |
| `Dlt.Props.C76_ends` | propext, Classical.choice, Quot.sound |
| `Dlt.Props.C76_exit` | propext, Classical.choice, Quot.sound |
| `Dlt.Props.C76_frame` | propext, Classical.choice, Quot.sound |
| `Dlt.Props.C76_missing_input` | propext, Classical.choice, Quot.sound |
| `Dlt.Props.C76_unlisted_input` | propext, Classical.choice, Quot.sound |
| `Dlt.Props.C76_bc2_hidden` | propext, Classical.choice, Quot.sound |
| `Dlt.Props.C76_roundtrip` | propext, Classical.choice, Quot.sound |
| `Dlt.Props.C76_possible` | propext, Classical.choice, Quot.sound |
| `Dlt.Props.C77_test_files` | propext, Classical.choice, Quot.sound |
| `Dlt.Props.C77_frame` | propext, Classical.choice, Quot.sound |
| `Dlt.Props.C77_tools` | propext, Classical.choice, Quot.sound |
| `Dlt.Props.C77_nothing_tested` | propext, Classical.choice, Quot.sound |
| `Dlt.Props.C77_success` | propext, Classical.choice, Quot.sound |
| `Dlt.Props.C77_verdict` | propext, Classical.choice, Quot.sound |
| `Dlt.Props.C77_names` | propext, Classical.choice, Quot.sound |
| `Dlt.Props.C78_array` | propext, Classical.choice, Quot.sound |
| `Dlt.Props.C78_pointers` | propext, Classical.choice, Quot.sound |
| `Dlt.Props.C78_succeeds` | propext, Classical.choice, Quot.sound |
| `Dlt.Props.C78_faults` | propext, Classical.choice, Quot.sound |
| `Dlt.Props.C78_bc1_auto` | propext, Classical.choice, Quot.sound |
| `Dlt.Props.C78_bc2_auto` | propext, Classical.choice, Quot.sound |
| `Dlt.Props.C78_bc3_auto` | propext, Classical.choice, Quot.sound |
| `Dlt.Props.C78_auto_normalize` | propext, Classical.choice, Quot.sound |
| `Dlt.Props.C79_auto` | propext, Classical.choice, Quot.sound |
| `Dlt.Props.C79_auto_normalize` | propext, Classical.choice, Quot.sound |
| `Dlt.Props.C79_documented_exceeded` | propext, Quot.sound |
| `Dlt.Props.C80_transform_panics` | propext, Classical.choice, Quot.sound |
| `Dlt.Props.C80_untransform_panics` | propext, Classical.choice, Quot.sound |
| `Dlt.Props.C80_other_panics` | propext, Classical.choice, Quot.sound |
| `Dlt.Props.C81_image` | propext, Classical.choice, Quot.sound |
| `Dlt.Props.C81_restored_transforms_back` | propext, Classical.choice, Quot.sound |
| `Dlt.Props.C81_restored_transforms_back_exact` | propext, Classical.choice, Quot.sound |
| `Dlt.Props.C82_bc1` | propext, Classical.choice, Quot.sound |
| `Dlt.Props.C82_bc2` | propext, Classical.choice, Quot.sound |
| `Dlt.Props.C82_bc3` | propext, Classical.choice, Quot.sound |
| `Dlt.Props.C82_color_only` | propext, Classical.choice, Quot.sound |
| `Dlt.Props.C82_decode` | propext, Classical.choice, Quot.sound |
| `Dlt.Props.C83_one_owner` | propext, Quot.sound |
| `Dlt.Props.C83_bc1` | propext, Classical.choice, Quot.sound |
| `Dlt.Props.C83_bc2` | propext, Classical.choice, Quot.sound |
| `Dlt.Props.C83_bc3` | propext, Classical.choice, Quot.sound |
| `Dlt.Props.C83_one_byte` | propext, Classical.choice, Quot.sound |
| `Dlt.Props.C84_bc1` | propext, Classical.choice, Quot.sound |
| `Dlt.Props.C84_bc2` | propext, Classical.choice, Quot.sound |
| `Dlt.Props.C84_bc3` | propext, Classical.choice, Quot.sound |
| `Dlt.Props.C84_dds` | propext, Classical.choice, Quot.sound |
| `Dlt.Props.C85_colours` | propext, Classical.choice, Quot.sound |
| `Dlt.Props.C85_decoders` | propext, Quot.sound |
| `Dlt.Props.C85_bc7` | propext, Quot.sound |
| `Dlt.Props.C85_search` | propext, Quot.sound |
| `Dlt.Props.C85_search_bounded` | propext, Quot.sound |
| `Dlt.Props.C85_search_panics` | propext, Classical.choice, Quot.sound |
| `Dlt.Props.C86_bc1` | propext, Classical.choice, Quot.sound |
| `Dlt.Props.C86_bc1_normalize` | propext, Classical.choice, Quot.sound |
| `Dlt.Props.C86_bc2` | propext, Classical.choice, Quot.sound |
| `Dlt.Props.C86_bc3` | propext, Classical.choice, Quot.sound |
| `Dlt.Props.C86_bc1_ends` | propext, Classical.choice, Quot.sound |
| `Dlt.Props.C86_bc1_normalize_ends` | propext, Classical.choice, Quot.sound |
| `Dlt.Props.C86_bc2_ends` | propext, Classical.choice, Quot.sound |
| `Dlt.Props.C86_bc3_ends` | propext, Classical.choice, Quot.sound |
| `Dlt.Props.C86_filter` | propext, Quot.sound |
| `Dlt.Props.C86_command` | propext, Classical.choice, Quot.sound |
| `Dlt.Props.C86_overall` | propext, Classical.choice, Quot.sound |
| `Dlt.Props.C86_order` | propext, Quot.sound |
| `Dlt.Props.C86_ranking` | propext, Quot.sound |
| `Dlt.Props.C86_same` | propext, Classical.choice, Quot.sound |
| `Dlt.Props.C87_untransform` | propext, Classical.choice, Quot.sound |
| `Dlt.Props.C87_transform_same` | propext, Classical.choice, Quot.sound |
| `Dlt.Props.C87_transform_manual` | propext, Classical.choice, Quot.sound |
| `Dlt.Props.C87_transform_auto` | propext, Classical.choice, Quot.sound |
| `Dlt.Props.C87_roundtrip` | propext, Classical.choice, Quot.sound |
| `Dlt.Props.C87_roundtrip_exact` | propext, Classical.choice, Quot.sound |
| `Dlt.Props.C87_empty_not_restored` | propext, Classical.choice, Quot.sound |
| `Dlt.Props.C88_transform` | propext, Classical.choice, Quot.sound |
| `Dlt.Props.C88_auto` | propext, Classical.choice, Quot.sound |
| `Dlt.Props.C88_auto_empty` | propext, Classical.choice, Quot.sound |
| `Dlt.Props.C89_bc1` | propext, Quot.sound |
| `Dlt.Props.C89_bc2` | propext, Quot.sound |
| `Dlt.Props.C89_bc3` | propext, Quot.sound |
| `Dlt.Props.C89_bc1_normalize` | propext, Quot.sound |
| `Dlt.Props.C89_bc3_order_not_enough` | propext, Classical.choice, Quot.sound |
| `Dlt.Props.C90_no_race` | propext, Classical.choice, Quot.sound |
| `Dlt.Props.C90_guarded` | propext, Classical.choice, Quot.sound |
| `Dlt.Props.C90_atomic` | propext, Classical.choice, Quot.sound |
| `Dlt.Props.C90_no_deadlock` | propext, Classical.choice, Quot.sound |
| `Dlt.Props.C90_released` | propext, Classical.choice, Quot.sound |
| `Dlt.Props.C90_source` | propext, Classical.choice, Quot.sound |
| `Dlt.Props.C91_takes_beginning` | propext, Classical.choice, Quot.sound |
| `Dlt.Props.C91_rest_lost` | propext, Classical.choice, Quot.sound |
| `Dlt.Props.C91_four_gib_lost` | propext, Classical.choice, Quot.sound |
| `Dlt.Props.C92_bc1` | propext, Classical.choice, Quot.sound |
| `Dlt.Props.C92_bc2` | propext, Classical.choice, Quot.sound |
| `Dlt.Props.C92_bc3` | propext, Classical.choice, Quot.sound |
| `Dlt.Props.C92_bc1_normalize` | propext, Classical.choice, Quot.sound |
| `Dlt.Props.C92_bc3_documentation_violated` | propext, Quot.sound |
| `Dlt.Props.C93_damage` | propext, Classical.choice, Quot.sound |
| `Dlt.Props.C93_one_byte` | propext, Classical.choice, Quot.sound |
| `Dlt.Props.C93_tag` | propext, Classical.choice, Quot.sound |
| `Dlt.Props.C93_source` | propext, Classical.choice, Quot.sound |
| `Dlt.Props.C93_settings` | propext, Classical.choice, Quot.sound |
| `Dlt.Props.C93_settings_restored` | propext, Classical.choice, Quot.sound |
| `Dlt.Props.C94_bc1` | propext, Classical.choice, Quot.sound |
| `Dlt.Props.C94_bc2` | propext, Classical.choice, Quot.sound |
| `Dlt.Props.C94_bc3` | propext, Classical.choice, Quot.sound |
| `Dlt.Props.C94_dds` | propext, Classical.choice, Quot.sound |
| `Dlt.Props.C94_file` | propext, Classical.choice, Quot.sound |
| `Dlt.Props.C95_bc1` | propext, Classical.choice, Quot.sound |
| `Dlt.Props.C95_bc2` | propext, Classical.choice, Quot.sound |
| `Dlt.Props.C95_bc3` | propext, Classical.choice, Quot.sound |
| `Dlt.Props.C96_bc1` | propext, Classical.choice, Quot.sound |
| `Dlt.Props.C96_bc2` | propext, Classical.choice, Quot.sound |
| `Dlt.Props.C96_bc3` | propext, Classical.choice, Quot.sound |
| `Dlt.Props.C96_other_colours` | propext, Quot.sound |
| `Dlt.Props.C97_bc1_auto` | propext, Classical.choice, Quot.sound |
| `Dlt.Props.C97_bc2_auto` | propext, Classical.choice, Quot.sound |
| `Dlt.Props.C97_bc3_auto` | propext, Classical.choice, Quot.sound |
| `Dlt.Props.C97_handler` | propext, Classical.choice, Quot.sound |
| `Dlt.Props.C97_commands` | propext, Classical.choice, Quot.sound |
| `Dlt.Props.C97_transform_buffer` | propext, Classical.choice, Quot.sound |
| `Dlt.Props.C97_untransform_buffer` | propext, Classical.choice, Quot.sound |
| `Dlt.Props.C98_bc1` | propext, Classical.choice, Quot.sound |
| `Dlt.Props.C98_bc2` | propext, Classical.choice, Quot.sound |
| `Dlt.Props.C98_bc3` | propext, Classical.choice, Quot.sound |
| `Dlt.Props.C99_same_bytes_same_file` | propext, Classical.choice, Quot.sound |
| `Dlt.Props.C99_same_bytes_same_result` | propext, Classical.choice, Quot.sound |
| `Dlt.Props.C99_once_more` | propext, Classical.choice, Quot.sound |
| `Dlt.Props.C100_different_files` | propext, Classical.choice, Quot.sound |
| `Dlt.Props.C100_byte_order_matters` | propext, Classical.choice, Quot.sound |
| `Dlt.Props.C100_commands` | propext, Classical.choice, Quot.sound |
| `Dlt.Props.C101_passes` | propext, Classical.choice, Quot.sound |
| `Dlt.Props.C101_complete` | propext, Classical.choice, Quot.sound |
| `Dlt.Props.C101_unbounded` | propext, Classical.choice, Quot.sound |
| `Dlt.Props.C102_bc1` | propext, Classical.choice, Quot.sound |
| `Dlt.Props.C102_bc3` | propext, Classical.choice, Quot.sound |
| `Dlt.Props.C102_split` | propext, Classical.choice, Quot.sound |
| `Dlt.Props.C102_bc2_partial` | propext, Classical.choice, Quot.sound |
| `Dlt.Props.C102_bc2_exact` | propext, Classical.choice, Quot.sound |
| `Dlt.Props.C102_bc2_needs_vl` | propext, Classical.choice, Quot.sound |
| `Dlt.Props.C103_alone_transform` | propext, Classical.choice, Quot.sound |
| `Dlt.Props.C103_alone_untransform` | propext, Classical.choice, Quot.sound |
| `Dlt.Props.C103_others_copied` | propext, Classical.choice, Quot.sound |
| `Dlt.Props.C103_unread_transform` | propext, Classical.choice, Quot.sound |
| `Dlt.Props.C103_unread_untransform` | propext, Classical.choice, Quot.sound |
| `Dlt.Props.C103_cube_first_face` | propext, Classical.choice, Quot.sound |
| `Dlt.Props.C104_bc1` | propext, Classical.choice, Quot.sound |
| `Dlt.Props.C104_bc2` | propext, Classical.choice, Quot.sound |
| `Dlt.Props.C104_bc3` | propext, Classical.choice, Quot.sound |
| `Dlt.Props.C104_C118_dds` | propext, Classical.choice, Quot.sound |
| `Dlt.Props.C105_balance` | propext, Classical.choice, Quot.sound |
| `Dlt.Props.C105_no_leak` | propext, Classical.choice, Quot.sound |
| `Dlt.Props.C105_free_iff` | propext, Classical.choice, Quot.sound |
| `Dlt.Props.C106_bc1` | propext, Classical.choice, Quot.sound |
| `Dlt.Props.C106_bc2` | propext, Classical.choice, Quot.sound |
| `Dlt.Props.C106_bc3` | propext, Classical.choice, Quot.sound |
| `Dlt.Props.C107_contexts` | propext, Quot.sound |
| `Dlt.Props.C107_roundtrip` | propext, Quot.sound |
| `Dlt.Props.C107_passed_on` | propext, Quot.sound |
| `Dlt.Props.C107_inverse` | propext, Quot.sound |
| `Dlt.Props.C107_exact` | propext, Quot.sound |
| `Dlt.Props.C107_room` | propext, Quot.sound |
| `Dlt.Props.C107_exact_empty` | propext |
| `Dlt.Props.C107_exact_level` | propext |
| `Dlt.Props.C108_bc1` | propext, Classical.choice, Quot.sound |
| `Dlt.Props.C108_bc2` | propext, Classical.choice, Quot.sound |
| `Dlt.Props.C108_bc3_partial` | propext, Classical.choice, Quot.sound |
| `Dlt.Props.C108_bc3_in_place` | propext, Quot.sound |
| `Dlt.Props.C109_transform` | propext, Classical.choice, Quot.sound |
| `Dlt.Props.C109_untransform` | propext, Classical.choice, Quot.sound |
| `Dlt.Props.C110_bc2` | propext, Classical.choice, Quot.sound |
| `Dlt.Props.C110_bc3` | propext, Classical.choice, Quot.sound |
| `Dlt.Props.C110_bc2_untransform` | propext, Classical.choice, Quot.sound |
| `Dlt.Props.C110_bc3_untransform` | propext, Classical.choice, Quot.sound |
| `Dlt.Props.C110_bc2_auto` | propext, Classical.choice, Quot.sound |
| `Dlt.Props.C111_bc1` | propext, Classical.choice, Quot.sound |
| `Dlt.Props.C111_bc2` | propext, Classical.choice, Quot.sound |
| `Dlt.Props.C111_bc3` | propext, Classical.choice, Quot.sound |
| `Dlt.Props.C112_bc1` | propext, Classical.choice, Quot.sound |
| `Dlt.Props.C112_bc2` | propext, Classical.choice, Quot.sound |
| `Dlt.Props.C112_bc3` | propext, Classical.choice, Quot.sound |
| `Dlt.Props.C112_colours` | propext, Classical.choice, Quot.sound |
| `Dlt.Props.C113_files` | propext, Classical.choice, Quot.sound |
| `Dlt.Props.C113_lost` | propext, Classical.choice, Quot.sound |
| `Dlt.Props.C113_no_success` | propext, Classical.choice, Quot.sound |
| `Dlt.Props.C114_killed` | propext, Classical.choice, Quot.sound |
| `Dlt.Props.C114_repeated` | propext, Classical.choice, Quot.sound |
| `Dlt.Props.C115_any_order` | propext, Classical.choice, Quot.sound |
| `Dlt.Props.C115_shared_builder` | propext, Quot.sound |
| `Dlt.Props.C116_holds_last_set` | propext, Classical.choice, Quot.sound |
| `Dlt.Props.C116_transform_uses_last_set` | propext, Classical.choice, Quot.sound |
| `Dlt.Props.C117_bc1` | propext, Classical.choice, Quot.sound |
| `Dlt.Props.C117_bc2` | propext, Classical.choice, Quot.sound |
| `Dlt.Props.C117_bc3` | propext, Classical.choice, Quot.sound |
| `Dlt.Props.C118_bc1` | propext, Classical.choice, Quot.sound |
| `Dlt.Props.C118_bc2` | propext, Classical.choice, Quot.sound |
| `Dlt.Props.C118_bc3` | propext, Classical.choice, Quot.sound |
| `Dlt.Props.C119_bc1` | propext, Classical.choice, Quot.sound |
| `Dlt.Props.C119_bc2` | propext, Classical.choice, Quot.sound |
| `Dlt.Props.C119_bc3` | propext, Classical.choice, Quot.sound |
| `Dlt.Props.C119_bc1_switch` | propext, Classical.choice, Quot.sound |
| `Dlt.Props.C119_bc2_switch` | propext, Classical.choice, Quot.sound |
| `Dlt.Props.C119_bc3_switch` | propext, Classical.choice, Quot.sound |
| `Dlt.Props.C119_dds` | propext, Classical.choice, Quot.sound |
| `Dlt.Props.C120_bc1` | propext, Classical.choice, Quot.sound |
| `Dlt.Props.C120_bc2` | propext, Classical.choice, Quot.sound |
| `Dlt.Props.C120_bc3` | propext, Classical.choice, Quot.sound |
| `Dlt.Props.C120_bc1_auto` | propext, Classical.choice, Quot.sound |
| `Dlt.Props.C120_bc2_auto` | propext, Classical.choice, Quot.sound |
| `Dlt.Props.C120_bc3_auto` | propext, Classical.choice, Quot.sound |
| `Dlt.Props.C120_dds` | propext, Classical.choice, Quot.sound |
| `Dlt.Props.C121_bc1` | propext, Classical.choice, Quot.sound |
| `Dlt.Props.C121_bc2` | propext, Classical.choice, Quot.sound |
| `Dlt.Props.C121_bc3` | propext, Classical.choice, Quot.sound |
| `Dlt.Props.C121_dds` | propext, Classical.choice, Quot.sound |
| `Dlt.Props.C121_tags` | propext, Classical.choice, Quot.sound |
| `Dlt.Props.C122_bc1` | propext, Classical.choice, Quot.sound |
| `Dlt.Props.C122_bc1_auto` | propext, Classical.choice, Quot.sound |
| `Dlt.Props.C122_bc2` | propext, Classical.choice, Quot.sound |
| `Dlt.Props.C122_bc3` | propext, Classical.choice, Quot.sound |
