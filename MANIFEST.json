{
 "claims": [
  {
   "property": "C01",
   "status": "proved",
   "theorems": [
    "Dlt.Props.C01_bc1_lossless"
   ],
   "note": "All CPU paths including the non-x86 work-buffer path; transforming and untransforming machine may differ."
  },
  {
   "property": "C05",
   "status": "proved",
   "theorems": [
    "Dlt.Props.C05_bc1_layout",
    "Dlt.Props.C05_bc1_layout_host"
   ],
   "note": "All CPU paths; `_layout` for little-endian hosts, `_layout_host` for either byte order, where the colours are decorrelated as numbers of that byte order."
  },
  {
   "property": "C08",
   "status": "proved",
   "theorems": [
    "Dlt.Props.C08_decorrelation_bijective"
   ],
   "note": ""
  },
  {
   "property": "C09",
   "status": "proved",
   "theorems": [
    "Dlt.Props.C09_ycocg_meaning"
   ],
   "note": ""
  },
  {
   "property": "C11",
   "status": "proved",
   "theorems": [
    "Dlt.Props.C11_bc1_cpu_independent"
   ],
   "note": ""
  },
  {
   "property": "C14",
   "status": "proved",
   "theorems": [
    "Dlt.Props.C14_batch_slice",
    "Dlt.Props.C14_batch_split",
    "Dlt.Props.C14_batch_ptr",
    "Dlt.Props.C14_batch_ptr_split",
    "Dlt.Props.C14_batch_in_place"
   ],
   "note": ""
  },
  {
   "property": "C49",
   "status": "partial",
   "theorems": [
    "Dlt.Props.C49_bc1_not_portable",
    "Dlt.Props.C49_bc1_portable_partial",
    "Dlt.Props.C49_bc2_not_portable",
    "Dlt.Props.C49_bc2_portable_partial",
    "Dlt.Props.C49_bc3_not_portable",
    "Dlt.Props.C49_bc3_portable_partial",
    "Dlt.Props.C49_bc1_exact",
    "Dlt.Props.C49_bc2_exact",
    "Dlt.Props.C49_bc3_exact"
   ],
   "note": "False with decorrelation (witness for each format); holds without. The `_exact` theorems say for all settings what the other host restores, and that it is the original exactly if both hosts store every colour in the same way."
  },
  {
   "property": "C02",
   "status": "proved",
   "theorems": [
    "Dlt.Props.C02_bc2_lossless"
   ],
   "note": "All CPU paths; transforming and untransforming machine may differ."
  },
  {
   "property": "C06",
   "status": "proved",
   "theorems": [
    "Dlt.Props.C06_bc2_layout",
    "Dlt.Props.C06_bc2_layout_host"
   ],
   "note": "All CPU paths; `_layout` for little-endian hosts, `_layout_host` for either byte order, where the colours are decorrelated as numbers of that byte order."
  },
  {
   "property": "C12",
   "status": "proved",
   "theorems": [
    "Dlt.Props.C12_bc2_cpu_independent"
   ],
   "note": ""
  },
  {
   "property": "C03",
   "status": "proved",
   "theorems": [
    "Dlt.Props.C03_bc3_lossless"
   ],
   "note": "All CPU paths; transforming and untransforming machine may differ."
  },
  {
   "property": "C07",
   "status": "proved",
   "theorems": [
    "Dlt.Props.C07_bc3_layout",
    "Dlt.Props.C07_bc3_layout_host"
   ],
   "note": "All CPU paths; `_layout` for little-endian hosts, `_layout_host` for either byte order, where the colours are decorrelated as numbers of that byte order."
  },
  {
   "property": "C13",
   "status": "proved",
   "theorems": [
    "Dlt.Props.C13_bc3_cpu_independent"
   ],
   "note": ""
  },
  {
   "property": "C04",
   "status": "proved",
   "theorems": [
    "Dlt.Props.C04_bc1_bijective",
    "Dlt.Props.C04_bc1_injective",
    "Dlt.Props.C04_bc2_bijective",
    "Dlt.Props.C04_bc2_injective",
    "Dlt.Props.C04_bc3_bijective",
    "Dlt.Props.C04_bc3_injective"
   ],
   "note": ""
  },
  {
   "property": "C10",
   "status": "proved",
   "theorems": [
    "Dlt.Props.C10_bc1_memory",
    "Dlt.Props.C10_bc2_memory",
    "Dlt.Props.C10_bc3_memory",
    "Dlt.Props.C10_loads",
    "Dlt.Props.C10_stores",
    "Dlt.Props.C10_loops"
   ],
   "note": "some = every access inside the two buffers; result and rest of the buffer determined."
  },
  {
   "property": "C26",
   "status": "proved",
   "theorems": [
    "Dlt.Props.C26_dds_roundtrip",
    "Dlt.Props.C26_dds_api_roundtrip",
    "Dlt.Props.C26_dds_roundtrip_exact",
    "Dlt.Props.C26_overflow_checks_matter"
   ],
   "note": "The restoring build checks for overflow only if the transforming one does (C26_overflow_checks_matter: needed)."
  },
  {
   "property": "C27",
   "status": "partial",
   "theorems": [
    "Dlt.Props.C27_larger_buffer_panics",
    "Dlt.Props.C27_larger_buffer_untransform_panics",
    "Dlt.Props.C27_larger_buffer_partial",
    "Dlt.Props.C27_larger_buffer_untransform_partial",
    "Dlt.Props.smallFile_runs"
   ],
   "note": "The full statement is false: every file with trailing data makes the call panic with a larger buffer. Proved for files that end with the texture data."
  },
  {
   "property": "C28",
   "status": "proved",
   "theorems": [
    "Dlt.Props.C28_dds_rest_unchanged",
    "Dlt.Props.C28_dds_rest_exact"
   ],
   "note": "Addresses of at least 32 bits."
  },
  {
   "property": "C29",
   "status": "proved",
   "theorems": [
    "Dlt.Props.C29_not_transformed_twice"
   ],
   "note": "Addresses of at least 32 bits."
  },
  {
   "property": "C30",
   "status": "partial",
   "theorems": [
    "Dlt.Props.C30_never_succeeds",
    "Dlt.Props.C30_error_partial",
    "Dlt.Props.C30_panics",
    "Dlt.Props.C30_error_exact"
   ],
   "note": "It never succeeds. That an error is returned is false where the size computation panics (overflow checks) and proved otherwise for addresses of more than 32 bits. C30_error_exact has the exact condition on every platform."
  },
  {
   "property": "C31",
   "status": "partial",
   "theorems": [
    "Dlt.Props.C31_transform_truncated_partial",
    "Dlt.Props.C31_untransform_truncated_partial",
    "Dlt.Props.C31_truncated_panics",
    "Dlt.Props.C31_transform_truncated_exact",
    "Dlt.Props.C31_untransform_truncated_exact"
   ],
   "note": "False with 32 bit addresses (panic) and where the size computation panics (overflow checks); proved otherwise. The `_exact` theorems say what happens on every platform."
  },
  {
   "property": "C32",
   "status": "partial",
   "theorems": [
    "Dlt.Props.C32_size_reported",
    "Dlt.Props.C32_size_partial",
    "Dlt.Props.C32_exact",
    "Dlt.Props.C32_size_wraps"
   ],
   "note": "False for textures of 4 GiB or more (C32_exact: holds for no others than the smaller ones); what is reported then is proved too."
  },
  {
   "property": "C33",
   "status": "proved",
   "theorems": [
    "Dlt.Props.C33_parse",
    "Dlt.Props.C33_exports",
    "Dlt.Props.C33_detection"
   ],
   "note": "With overflow checks a DDS file is parsed or the call panics."
  },
  {
   "property": "C34",
   "status": "proved",
   "theorems": [
    "Dlt.Props.C34_only_bc1_bc2",
    "Dlt.Props.C34_errors",
    "Dlt.Props.C34_refused_exact"
   ],
   "note": "The exact errors are proved for complete files; C34_refused_exact covers every file and platform."
  },
  {
   "property": "C54",
   "status": "proved",
   "theorems": [
    "Dlt.Props.C54_extraction",
    "Dlt.Props.C54_extraction_exact"
   ],
   "note": "C54_extraction: addresses of more than 32 bits; C54_extraction_exact: every platform."
  },
  {
   "property": "C35",
   "status": "proved",
   "theorems": [
    "Dlt.Props.C35_transform_selection",
    "Dlt.Props.C35_untransform_selection"
   ],
   "note": "Handlers are arbitrary functions that may fail, panic and carry state."
  },
  {
   "property": "C36",
   "status": "proved",
   "theorems": [
    "Dlt.Props.C36_dispatch_obeys_header",
    "Dlt.Props.C36_dispatch_roundtrip",
    "Dlt.Props.C36_bundle_bc1",
    "Dlt.Props.C36_bundle_bc2"
   ],
   "note": ""
  },
  {
   "property": "C42",
   "status": "proved",
   "theorems": [
    "Dlt.Props.C42_variants",
    "Dlt.Props.C42_bc1_setters",
    "Dlt.Props.C42_bc1_manual_transform",
    "Dlt.Props.C42_bc1_manual_reuse",
    "Dlt.Props.C42_bc1_auto_reuse",
    "Dlt.Props.C42_bc1_auto_modes",
    "Dlt.Props.C42_bc2_setters",
    "Dlt.Props.C42_bc2_manual_transform",
    "Dlt.Props.C42_bc2_manual_reuse",
    "Dlt.Props.C42_bc2_auto_reuse",
    "Dlt.Props.C42_bc2_auto_modes"
   ],
   "note": ""
  },
  {
   "property": "C48",
   "status": "proved",
   "theorems": [
    "Dlt.Props.C48_bc1_big_endian_lossless",
    "Dlt.Props.C48_bc2_big_endian_lossless",
    "Dlt.Props.C48_bc3_big_endian_lossless"
   ],
   "note": ""
  },
  {
   "property": "C15",
   "status": "proved",
   "theorems": [
    "Dlt.Props.C15_split_layout",
    "Dlt.Props.C15_split_merge"
   ],
   "note": "All implementations; the pointer before the buffer formed for inputs under 64 bytes is treated as an integer comparison."
  },
  {
   "property": "C16",
   "status": "proved",
   "theorems": [
    "Dlt.Props.C16_bc1_transform_validation",
    "Dlt.Props.C16_bc2_transform_validation",
    "Dlt.Props.C16_bc3_transform_validation",
    "Dlt.Props.C16_bc1_untransform_validation",
    "Dlt.Props.C16_bc2_untransform_validation",
    "Dlt.Props.C16_bc3_untransform_validation",
    "Dlt.Props.C16_bc1_auto_validation",
    "Dlt.Props.C16_bc2_auto_validation",
    "Dlt.Props.C16_bc3_auto_validation"
   ],
   "note": "Release builds; debug builds: C55."
  },
  {
   "property": "C17",
   "status": "proved",
   "theorems": [
    "Dlt.Props.C17_bc1_auto_reports_used",
    "Dlt.Props.C16_bc1_auto_validation"
   ],
   "note": "Any estimator, also one that fails or answers at random."
  },
  {
   "property": "C18",
   "status": "proved",
   "theorems": [
    "Dlt.Props.C18_bc2_auto_reports_used",
    "Dlt.Props.C16_bc2_auto_validation"
   ],
   "note": ""
  },
  {
   "property": "C19",
   "status": "proved",
   "theorems": [
    "Dlt.Props.C19_bc3_auto_reports_used",
    "Dlt.Props.C16_bc3_auto_validation"
   ],
   "note": ""
  },
  {
   "property": "C20",
   "status": "proved",
   "theorems": [
    "Dlt.Props.C20_bc1_auto_optimal",
    "Dlt.Props.C20_bc2_auto_optimal",
    "Dlt.Props.C20_bc3_auto_optimal",
    "Dlt.Props.C20_bc3_total_wraps"
   ],
   "note": "C20_bc3_total_wraps: without the bound on the BC3 total the claim fails (wrapping addition)."
  },
  {
   "property": "C21",
   "status": "proved",
   "theorems": [
    "Dlt.Props.C21_bc1_candidates",
    "Dlt.Props.C21_bc2_candidates",
    "Dlt.Props.C21_bc3_candidates",
    "Dlt.Props.C21_bc1_exhaustive_not_worse",
    "Dlt.Props.C21_bc2_exhaustive_not_worse",
    "Dlt.Props.C21_bc3_exhaustive_not_worse"
   ],
   "note": "For the comparison: the estimator answers without error and the scratch memory is there (failures: C22), and the estimates (BC3: their sums, see C20) fit into usize."
  },
  {
   "property": "C22",
   "status": "proved",
   "theorems": [
    "Dlt.Props.C22_bc1_estimator_failures",
    "Dlt.Props.C22_bc2_estimator_failures",
    "Dlt.Props.C22_bc3_estimator_failures"
   ],
   "note": ""
  },
  {
   "property": "C55",
   "status": "partial",
   "theorems": [
    "Dlt.Props.C55_debug_empty_panics",
    "Dlt.Props.C55_debug_nonempty_partial",
    "Dlt.Props.C55_debug_exact",
    "Dlt.Props.C55_auto_same_partial",
    "Dlt.Props.C55_auto_empty_panics",
    "Dlt.Props.C55_bc3_auto_same_partial",
    "Dlt.Props.C55_bc3_auto_empty_panics",
    "Dlt.Props.C55_auto_exact",
    "Dlt.Props.C55_bc3_auto_exact"
   ],
   "note": "The full statement is false for the empty input; proved for all others. C55_debug_exact, C55_auto_exact and C55_bc3_auto_exact say for all inputs exactly when a debug build panics."
  },
  {
   "property": "C23",
   "status": "proved",
   "theorems": [
    "Dlt.Props.C23_bc1_header_roundtrip",
    "Dlt.Props.C23_bc2_header_roundtrip",
    "Dlt.Props.C23_bc3_bc7_header_roundtrip",
    "Dlt.Props.C23_bc4_bc5_header_roundtrip",
    "Dlt.Props.C23_pixels_header_roundtrip"
   ],
   "note": "The accessors generated by the bitfield crate are modelled by their documented meaning."
  },
  {
   "property": "C24",
   "status": "proved",
   "theorems": [
    "Dlt.Props.C24_header_layout",
    "Dlt.Props.C24_headers_distinct"
   ],
   "note": ""
  },
  {
   "property": "C25",
   "status": "proved",
   "theorems": [
    "Dlt.Props.C25_bc1_bc2_decode",
    "Dlt.Props.C25_bc3_bc7_decode",
    "Dlt.Props.C25_checked_decode"
   ],
   "note": "BC1, BC2, BC3 and BC7 ignore the reserved bits."
  },
  {
   "property": "C47",
   "status": "proved",
   "theorems": [
    "Dlt.Props.C47_expand_reduce",
    "Dlt.Props.C47_expand_value",
    "Dlt.Props.C47_reduce_value"
   ],
   "note": ""
  },
  {
   "property": "C53",
   "status": "proved",
   "theorems": [
    "Dlt.Props.C53_insert_bits",
    "Dlt.Props.C53_extract_value",
    "Dlt.Props.C53_extract_insert",
    "Dlt.Props.C53_insert_extract",
    "Dlt.Props.C53_bad_range",
    "Dlt.Props.C53_example"
   ],
   "note": "Bad ranges panic in builds with debug assertions; C53_bad_range."
  },
  {
   "property": "C56",
   "status": "proved",
   "theorems": [
    "Dlt.Props.C56_bc1_decode",
    "Dlt.Props.C56_bc2_decode",
    "Dlt.Props.C56_bc3_decode",
    "Dlt.Props.C56_from_slice",
    "Dlt.Props.C56_pixels"
   ],
   "note": ""
  },
  {
   "property": "C43",
   "status": "proved",
   "theorems": [
    "Dlt.Props.C43_bc1_pixels",
    "Dlt.Props.C43_bc1_normal_form"
   ],
   "note": ""
  },
  {
   "property": "C44",
   "status": "proved",
   "theorems": [
    "Dlt.Props.C44_bc3_pixels",
    "Dlt.Props.C44_bc3_normal_form",
    "Dlt.Props.C44_bc2_pixels",
    "Dlt.Props.C44_bc2_normal_form"
   ],
   "note": "BC2 too."
  },
  {
   "property": "C45",
   "status": "partial",
   "theorems": [
    "Dlt.Props.C45_bc1_all_modes_partial",
    "Dlt.Props.C45_bc1_none_differs",
    "Dlt.Props.C45_bc1_none_exact",
    "Dlt.Props.C45_bc1_in_place_corrupts",
    "Dlt.Props.C45_bc2_all_modes",
    "Dlt.Props.C45_bc3_all_modes",
    "Dlt.Props.C45_bc3_in_place_exact",
    "Dlt.Props.C45_bc3_in_place_differs"
   ],
   "note": "Holds for BC2 and, with the input outside the outputs, for BC3. False for BC3 if the input is one of the outputs, which the documentation allows: outputs without colour normalization behind it get normalized colours (C45_bc3_in_place_exact says for all data which buffers are right). False for BC1 and mode None: transparent blocks become 0xFF bytes, and an input in the buffer of None is corrupted; the rest is proved. C45_bc1_none_exact says for all blocks and wherever the input is what the buffer of None holds, and when it is right."
  },
  {
   "property": "C46",
   "status": "proved",
   "theorems": [
    "Dlt.Props.C46_bc1_idempotent",
    "Dlt.Props.C46_bc2_idempotent",
    "Dlt.Props.C46_bc3_idempotent"
   ],
   "note": ""
  },
  {
   "property": "C57",
   "status": "proved",
   "theorems": [
    "Dlt.Props.C57_bc1_split",
    "Dlt.Props.C57_bc1_split_same",
    "Dlt.Props.C57_bc2_split",
    "Dlt.Props.C57_bc3_split"
   ],
   "note": ""
  },
  {
   "property": "C50",
   "status": "proved",
   "theorems": [
    "Dlt.Props.C50_normalize_transform",
    "Dlt.Props.C50_auto_normalize"
   ],
   "note": "Any estimator and any allocator behaviour."
  },
  {
   "property": "C58",
   "status": "partial",
   "theorems": [
    "Dlt.Props.C58_auto_normalize_optimal_partial",
    "Dlt.Props.C58_not_optimal",
    "Dlt.Props.C58_auto_normalize_shown",
    "Dlt.Props.C58_nothing_to_normalize"
   ],
   "note": "False with transparent blocks (the mode None is measured on changed data); proved for data without. C58_auto_normalize_shown says for all data which candidate is taken: the first for which the estimate of the data shown to the estimator is least."
  },
  {
   "property": "C37",
   "status": "proved",
   "theorems": [
    "Dlt.Props.C37_file_with_handler",
    "Dlt.Props.C37_slice_to_file_with_handler",
    "Dlt.Props.C37_file_to_slice_with_handler",
    "Dlt.Props.C37_file_with_multiple_handlers",
    "Dlt.Props.C37_slice_to_file_with_multiple_handlers",
    "Dlt.Props.C37_file_to_slice_with_multiple_handlers",
    "Dlt.Props.C37_frame",
    "Dlt.Props.C37_detect_panics",
    "Dlt.Props.C37_dds_file_roundtrip",
    "Dlt.Props.C37_same_path_destroys"
   ],
   "note": "The operating system and lightweight-mmap are a model (Model/FileIo.lean). Files of the size of the address space or larger are outside."
  },
  {
   "property": "C38",
   "status": "partial",
   "theorems": [
    "Dlt.Props.C38_nothing_left_partial",
    "Dlt.Props.C38_left_behind",
    "Dlt.Props.C38_violated",
    "Dlt.Props.C38_exact",
    "Dlt.Props.C38_always_left",
    "Dlt.Props.C38_exact_multiple"
   ],
   "note": "False if the transformation itself fails: the output file stays. Proved for the failures before. C38_exact says for every failure exactly what is left at the output path."
  },
  {
   "property": "C59",
   "status": "proved",
   "theorems": [
    "Dlt.Props.C59_dds_total"
   ],
   "note": ""
  },
  {
   "property": "C39",
   "status": "partial",
   "theorems": [
    "Dlt.Props.C39_find_all_files",
    "Dlt.Props.C39_schedule_independent_partial",
    "Dlt.Props.C39_sequential_partial",
    "Dlt.Props.C39_terminates",
    "Dlt.Props.C39_no_panic",
    "Dlt.Props.C39_nested_depends_on_order",
    "Dlt.Props.C39_one_file_partial",
    "Dlt.Props.C39_any_directory"
   ],
   "note": "Proved if no output path is an input path, e.g. if neither directory lies in the other; false otherwise (C39_nested_depends_on_order). For any directories: each file whose input is not the output of another has its own result and output whatever becomes of the others (C39_one_file_partial), nothing but outputs changes and the counter adds up (C39_any_directory). Any interleaving of the system calls; stateless estimators; std, rayon and the operating system are models."
  },
  {
   "property": "C60",
   "status": "proved",
   "theorems": [
    "Dlt.Props.C60_batch_roundtrip"
   ],
   "note": "On the model of the operating system, std and rayon in Model/FileIo.lean and Model/Cli.lean."
  },
  {
   "property": "C40",
   "status": "proved",
   "theorems": [
    "Dlt.Props.C40_holds_last_set",
    "Dlt.Props.C40_independent",
    "Dlt.Props.C40_null_ignored",
    "Dlt.Props.C40_transform_uses_last_set",
    "Dlt.Props.C40_disjoint"
   ],
   "note": "For the BC1 and the BC2 library at once (parameter `b`). The allocator may answer any free address; freed addresses may come back."
  },
  {
   "property": "C41",
   "status": "proved",
   "theorems": [
    "Dlt.Props.C41_manual_nulls",
    "Dlt.Props.C41_manual_result",
    "Dlt.Props.C41_auto_nulls",
    "Dlt.Props.C41_auto_result",
    "Dlt.Props.C41_estimator",
    "Dlt.Props.C41_codes_distinct",
    "Dlt.Props.C41_core_codes_distinct",
    "Dlt.Props.C41_core_nulls",
    "Dlt.Props.C41_core_result",
    "Dlt.Props.C41_core_auto_result"
   ],
   "note": "Null arguments leave the variable for the builder untouched, although the comment on the function says that it is set to null on error."
  },
  {
   "property": "C61",
   "status": "proved",
   "theorems": [
    "Dlt.Props.C61_manual_roundtrip",
    "Dlt.Props.C61_auto_roundtrip",
    "Dlt.Props.C61_core_roundtrip"
   ],
   "note": ""
  },
  {
   "property": "C62",
   "status": "proved",
   "theorems": [
    "Dlt.Props.C62_ltu_c_is_ltu",
    "Dlt.Props.C62_ltu_never_fails",
    "Dlt.Props.C62_ltu_c_succeeds"
   ],
   "note": "The match counter of the crate lossless-transform-utils is an arbitrary function."
  },
  {
   "property": "C51",
   "status": "proved",
   "theorems": [
    "Dlt.Props.C51_returned_size_was_estimated",
    "Dlt.Props.C51_source",
    "Dlt.Props.C51_transparent",
    "Dlt.Props.C51_known",
    "Dlt.Props.C51_no_second_estimate",
    "Dlt.Props.C51_mixed_witness"
   ],
   "note": "Any number of calls, any interleaving of critical sections and estimator answers. C51_source covers the cache loaded from disk and calls of compress_data_cached, which shares the keys; C51_mixed_witness shows that such a call may put a size into the cache which no estimator has answered."
  },
  {
   "property": "C52",
   "status": "partial",
   "theorems": [
    "Dlt.Props.C52_violated",
    "Dlt.Props.C52_lookup_partial",
    "Dlt.Props.C52_exact",
    "Dlt.Props.C52_bytes_partial"
   ],
   "note": "Violated: the file is written in place, so a lookup after a crash may return a proper prefix (C52_violated). Proved: for one call at work the possible results are exactly the prefixes (C52_exact), and in general every byte is right or zero."
  },
  {
   "property": "C63",
   "status": "proved",
   "theorems": [
    "Dlt.Props.C63_save_load",
    "Dlt.Props.C63_crash",
    "Dlt.Props.C63_reachable",
    "Dlt.Props.C63_loaded",
    "Dlt.Props.C63_reported"
   ],
   "note": "bincode is modelled by its specification for these types; 64-bit usize."
  },
  {
   "property": "C64",
   "status": "proved",
   "theorems": [
    "Dlt.Props.C64_dry_run",
    "Dlt.Props.C64_files_stay",
    "Dlt.Props.C64_lookup",
    "Dlt.Props.C64_reader_during_write"
   ],
   "note": "Compressor deterministic and no hash collisions among the data (Consistent). C64_reader_during_write shows that a call during the dry run may see an incomplete file."
  },
  {
   "property": "C65",
   "status": "proved",
   "theorems": [
    "Dlt.Props.C65_file_names_differ",
    "Dlt.Props.C65_inside_directory"
   ],
   "note": ""
  },
  {
   "property": "C66",
   "status": "proved",
   "theorems": [
    "Dlt.Props.C66_all_combinations",
    "Dlt.Props.C66_texture",
    "Dlt.Props.C66_success",
    "Dlt.Props.C66_pixels_only",
    "Dlt.Props.C66_file",
    "Dlt.Props.C66_extract",
    "Dlt.Props.C66_command"
   ],
   "note": "Release build, 64-bit usize. Allocation failures surface as NoSupportedHandler without a message."
  },
  {
   "property": "C67",
   "status": "proved",
   "theorems": [
    "Dlt.Props.C67_filter_names",
    "Dlt.Props.C67_extraction",
    "Dlt.Props.C67_detect",
    "Dlt.Props.C67_analysis"
   ],
   "note": "str::to_lowercase is an arbitrary function. Whether a texture is complete does not matter to the detection. The format query with a filter other than the one that accepts everything, which no command uses, is not covered."
  },
  {
   "property": "C68",
   "status": "proved",
   "theorems": [
    "Dlt.Props.C68_best",
    "Dlt.Props.C68_levels",
    "Dlt.Props.C68_size",
    "Dlt.Props.C68_cached_size",
    "Dlt.Props.C68_bc1",
    "Dlt.Props.C68_bc1_normalize",
    "Dlt.Props.C68_bc2",
    "Dlt.Props.C68_bc3",
    "Dlt.Props.C68_ranking"
   ],
   "note": "zstd and the LTU match counter are arbitrary functions; assumed is that a destination of ZSTD_compressBound bytes or more does not change the size (Ample), and no hash collision among the data asked for. The texture has whole blocks."
  },
  {
   "property": "C69",
   "status": "proved",
   "theorems": [
    "Dlt.Props.C69_files",
    "Dlt.Props.C69_sizes",
    "Dlt.Props.C69_short_reads",
    "Dlt.Props.C69_directories_sound",
    "Dlt.Props.C69_directories",
    "Dlt.Props.C69_directories_end"
   ],
   "note": "The state of the disk does not change during the comparison; read returns at least one byte before the end of the file."
  },
  {
   "property": "C70",
   "status": "proved",
   "theorems": [
    "Dlt.Props.C70_verdict",
    "Dlt.Props.C70_plain_file",
    "Dlt.Props.C70_result",
    "Dlt.Props.C70_process",
    "Dlt.Props.C70_passes",
    "Dlt.Props.C70_sound"
   ],
   "note": "Release build, 64-bit usize; running the tool under cross is running its program on the other machine in the same file system. The rest of the command is C77."
  },
  {
   "property": "C71",
   "status": "proved",
   "theorems": [
    "Dlt.Props.C71_bc1_transforms",
    "Dlt.Props.C71_bc1_untransforms",
    "Dlt.Props.C71_bc1_production",
    "Dlt.Props.C71_bc1_unlays",
    "Dlt.Props.C71_bc1_roundtrip",
    "Dlt.Props.C71_bc2_transforms",
    "Dlt.Props.C71_bc2_production",
    "Dlt.Props.C71_bc2_untransforms",
    "Dlt.Props.C71_bc2_roundtrip",
    "Dlt.Props.C71_bc3_transforms",
    "Dlt.Props.C71_bc3_alpha_transforms",
    "Dlt.Props.C71_bc3_production",
    "Dlt.Props.C71_bc3_untransforms",
    "Dlt.Props.C71_bc3_roundtrip",
    "Dlt.Props.C71_split"
   ],
   "note": "Numeric addresses: forming a pointer outside the allocation without using it is not an error in the model. The BC3 functions for split alphas are called with the sections of one buffer."
  },
  {
   "property": "C72",
   "status": "proved",
   "theorems": [
    "Dlt.Props.C72_names",
    "Dlt.Props.C72_created",
    "Dlt.Props.C72_command",
    "Dlt.Props.C72_bc1_slice",
    "Dlt.Props.C72_bc1",
    "Dlt.Props.C72_bc2_refused",
    "Dlt.Props.C72_only_bc1",
    "Dlt.Props.C72_max_not_worse"
   ],
   "note": "Release build, 64-bit usize; the input and output directories are separate (C39). zstd and the LTU match counter are arbitrary functions; for optimal and max zstd must succeed and the scratch buffer be allocated (failures: C22). str::to_lowercase is an arbitrary function; argh is not modelled."
  },
  {
   "property": "C73",
   "status": "proved",
   "theorems": [
    "Dlt.Props.C73_bc1",
    "Dlt.Props.C73_bc2",
    "Dlt.Props.C73_bc3",
    "Dlt.Props.C73_refused",
    "Dlt.Props.C73_zero_iterations",
    "Dlt.Props.C73_damaged_cache",
    "Dlt.Props.C73_determine",
    "Dlt.Props.C73_determine_formats",
    "Dlt.Props.C73_search_command"
   ],
   "note": "Release build, 64-bit usize, files below 4 GiB. Here the dry run is made in order; C106 has it in parallel. zstd is a pair of functions, decompression inverse to compression; durations and the f64 division are arbitrary. Which search settings are recommended is C17-C20; with experimental_normalize they are chosen on normalized data."
  },
  {
   "property": "C74",
   "status": "proved",
   "theorems": [
    "Dlt.Props.C74_times",
    "Dlt.Props.C74_overall",
    "Dlt.Props.C74_bytes"
   ],
   "note": "Throughput is an arbitrary function of bytes and time, zero for time zero; natural numbers without overflow."
  },
  {
   "property": "C75",
   "status": "proved",
   "theorems": [
    "Dlt.Props.C75_names",
    "Dlt.Props.C75_printed",
    "Dlt.Props.C75_levels"
   ],
   "note": "str::to_lowercase is an arbitrary function; argh is not modelled."
  },
  {
   "property": "C76",
   "status": "proved",
   "theorems": [
    "Dlt.Props.C76_argument",
    "Dlt.Props.C76_ends",
    "Dlt.Props.C76_exit",
    "Dlt.Props.C76_frame",
    "Dlt.Props.C76_missing_input",
    "Dlt.Props.C76_unlisted_input",
    "Dlt.Props.C76_bc2_hidden",
    "Dlt.Props.C76_roundtrip",
    "Dlt.Props.C76_possible"
   ],
   "note": "Paths are absolute and there are no links; argh is modelled by the order in which it calls the functions of the two options; other processes do not interfere."
  },
  {
   "property": "C77",
   "status": "proved",
   "theorems": [
    "Dlt.Props.C77_test_files",
    "Dlt.Props.C77_frame",
    "Dlt.Props.C77_tools",
    "Dlt.Props.C77_nothing_tested",
    "Dlt.Props.C77_success",
    "Dlt.Props.C77_verdict",
    "Dlt.Props.C77_names"
   ],
   "note": "The crate tempfile is modelled as a directory with a new name of its choice that is removed with its contents on drop; cross as in C70. The verdict is for release builds with 64-bit usize."
  },
  {
   "property": "C78",
   "status": "proved",
   "theorems": [
    "Dlt.Props.C78_array",
    "Dlt.Props.C78_pointers",
    "Dlt.Props.C78_succeeds",
    "Dlt.Props.C78_faults",
    "Dlt.Props.C78_bc1_auto",
    "Dlt.Props.C78_bc2_auto",
    "Dlt.Props.C78_bc3_auto",
    "Dlt.Props.C78_auto_normalize"
   ],
   "note": "The crate safe-allocator-api is modelled as: RawAlloc::new asks the allocator, Drop releases. Memory that an estimator takes for itself is not counted."
  },
  {
   "property": "C79",
   "status": "proved",
   "theorems": [
    "Dlt.Props.C79_auto",
    "Dlt.Props.C79_auto_normalize",
    "Dlt.Props.C79_documented_exceeded"
   ],
   "note": "As C78."
  },
  {
   "property": "C80",
   "status": "proved",
   "theorems": [
    "Dlt.Props.C80_transform_panics",
    "Dlt.Props.C80_untransform_panics",
    "Dlt.Props.C80_other_panics"
   ],
   "note": ""
  },
  {
   "property": "C81",
   "status": "proved",
   "theorems": [
    "Dlt.Props.C81_image",
    "Dlt.Props.C81_restored_transforms_back",
    "Dlt.Props.C81_restored_transforms_back_exact"
   ],
   "note": ""
  },
  {
   "property": "C82",
   "status": "proved",
   "theorems": [
    "Dlt.Props.C82_bc1",
    "Dlt.Props.C82_bc2",
    "Dlt.Props.C82_bc3",
    "Dlt.Props.C82_color_only",
    "Dlt.Props.C82_decode"
   ],
   "note": "The foreign decoders rgbcx and bcdec_rs are parameters; C82_decode says exactly what they have to return."
  },
  {
   "property": "C83",
   "status": "proved",
   "theorems": [
    "Dlt.Props.C83_one_owner",
    "Dlt.Props.C83_bc1",
    "Dlt.Props.C83_bc2",
    "Dlt.Props.C83_bc3",
    "Dlt.Props.C83_one_byte"
   ],
   "note": ""
  },
  {
   "property": "C84",
   "status": "proved",
   "theorems": [
    "Dlt.Props.C84_bc1",
    "Dlt.Props.C84_bc2",
    "Dlt.Props.C84_bc3",
    "Dlt.Props.C84_dds"
   ],
   "note": "C84_dds: addresses of at least 32 bits. The search with normalization looks at the indices as well and is not meant."
  },
  {
   "property": "C85",
   "status": "proved",
   "theorems": [
    "Dlt.Props.C85_colours",
    "Dlt.Props.C85_decoders",
    "Dlt.Props.C85_bc7",
    "Dlt.Props.C85_search",
    "Dlt.Props.C85_search_bounded",
    "Dlt.Props.C85_search_panics"
   ],
   "note": "The statement names the condition under which the sum of the BC3 search cannot overflow; C85_search_panics shows that it is needed."
  },
  {
   "property": "C86",
   "status": "proved",
   "theorems": [
    "Dlt.Props.C86_bc1",
    "Dlt.Props.C86_bc1_normalize",
    "Dlt.Props.C86_bc2",
    "Dlt.Props.C86_bc3",
    "Dlt.Props.C86_bc1_ends",
    "Dlt.Props.C86_bc1_normalize_ends",
    "Dlt.Props.C86_bc2_ends",
    "Dlt.Props.C86_bc3_ends",
    "Dlt.Props.C86_filter",
    "Dlt.Props.C86_command",
    "Dlt.Props.C86_overall",
    "Dlt.Props.C86_order",
    "Dlt.Props.C86_ranking",
    "Dlt.Props.C86_same"
   ],
   "note": "The files do not change while the command runs; accesses to the cache and to the list of results are atomic, as they are behind a Mutex."
  },
  {
   "property": "C87",
   "status": "proved",
   "theorems": [
    "Dlt.Props.C87_untransform",
    "Dlt.Props.C87_transform_same",
    "Dlt.Props.C87_transform_manual",
    "Dlt.Props.C87_transform_auto",
    "Dlt.Props.C87_roundtrip",
    "Dlt.Props.C87_roundtrip_exact",
    "Dlt.Props.C87_empty_not_restored"
   ],
   "note": "Overflow checks are a separate switch of the platform and the same in the two builds that are compared."
  },
  {
   "property": "C88",
   "status": "proved",
   "theorems": [
    "Dlt.Props.C88_transform",
    "Dlt.Props.C88_auto",
    "Dlt.Props.C88_auto_empty"
   ],
   "note": "A debug build checks the alignment of dereferenced pointers and of slices made from pointers (rustc and the standard library); this is part of the model."
  },
  {
   "property": "C89",
   "status": "proved",
   "theorems": [
    "Dlt.Props.C89_bc1",
    "Dlt.Props.C89_bc2",
    "Dlt.Props.C89_bc3",
    "Dlt.Props.C89_bc1_normalize",
    "Dlt.Props.C89_bc3_order_not_enough"
   ],
   "note": ""
  },
  {
   "property": "C90",
   "status": "proved",
   "theorems": [
    "Dlt.Props.C90_no_race",
    "Dlt.Props.C90_guarded",
    "Dlt.Props.C90_atomic",
    "Dlt.Props.C90_no_deadlock",
    "Dlt.Props.C90_released",
    "Dlt.Props.C90_source"
   ],
   "note": "The mutex of the standard library is modelled as a lock with at most one holder; it is never poisoned as HashMap::get and HashMap::insert do not panic."
  },
  {
   "property": "C91",
   "status": "proved",
   "theorems": [
    "Dlt.Props.C91_takes_beginning",
    "Dlt.Props.C91_rest_lost",
    "Dlt.Props.C91_four_gib_lost"
   ],
   "note": "Only for builds in which usize has fewer bits than file sizes; the mapping of the operating system is a model."
  },
  {
   "property": "C92",
   "status": "proved",
   "theorems": [
    "Dlt.Props.C92_bc1",
    "Dlt.Props.C92_bc2",
    "Dlt.Props.C92_bc3",
    "Dlt.Props.C92_bc1_normalize",
    "Dlt.Props.C92_bc3_documentation_violated"
   ],
   "note": "recorded est is est with a list of its questions; that recording changes nothing is part of the theorems. The last theorem contradicts the documentation of the trait, not the claim."
  },
  {
   "property": "C93",
   "status": "proved",
   "theorems": [
    "Dlt.Props.C93_damage",
    "Dlt.Props.C93_one_byte",
    "Dlt.Props.C93_tag",
    "Dlt.Props.C93_source",
    "Dlt.Props.C93_settings",
    "Dlt.Props.C93_settings_restored"
   ],
   "note": ""
  },
  {
   "property": "C94",
   "status": "proved",
   "theorems": [
    "Dlt.Props.C94_bc1",
    "Dlt.Props.C94_bc2",
    "Dlt.Props.C94_bc3",
    "Dlt.Props.C94_dds",
    "Dlt.Props.C94_file"
   ],
   "note": ""
  },
  {
   "property": "C95",
   "status": "proved",
   "theorems": [
    "Dlt.Props.C95_bc1",
    "Dlt.Props.C95_bc2",
    "Dlt.Props.C95_bc3"
   ],
   "note": ""
  },
  {
   "property": "C96",
   "status": "proved",
   "theorems": [
    "Dlt.Props.C96_bc1",
    "Dlt.Props.C96_bc2",
    "Dlt.Props.C96_bc3",
    "Dlt.Props.C96_other_colours"
   ],
   "note": ""
  },
  {
   "property": "C97",
   "status": "proved",
   "theorems": [
    "Dlt.Props.C97_bc1_auto",
    "Dlt.Props.C97_bc2_auto",
    "Dlt.Props.C97_bc3_auto",
    "Dlt.Props.C97_handler",
    "Dlt.Props.C97_commands",
    "Dlt.Props.C97_transform_buffer",
    "Dlt.Props.C97_untransform_buffer"
   ],
   "note": ""
  },
  {
   "property": "C98",
   "status": "proved",
   "theorems": [
    "Dlt.Props.C98_bc1",
    "Dlt.Props.C98_bc2",
    "Dlt.Props.C98_bc3"
   ],
   "note": ""
  },
  {
   "property": "C99",
   "status": "proved",
   "theorems": [
    "Dlt.Props.C99_same_bytes_same_file",
    "Dlt.Props.C99_same_bytes_same_result",
    "Dlt.Props.C99_once_more"
   ],
   "note": ""
  },
  {
   "property": "C100",
   "status": "proved",
   "theorems": [
    "Dlt.Props.C100_different_files",
    "Dlt.Props.C100_byte_order_matters",
    "Dlt.Props.C100_commands"
   ],
   "note": ""
  },
  {
   "property": "C101",
   "status": "proved",
   "theorems": [
    "Dlt.Props.C101_passes",
    "Dlt.Props.C101_complete",
    "Dlt.Props.C101_unbounded"
   ],
   "note": ""
  },
  {
   "property": "C102",
   "status": "partial",
   "theorems": [
    "Dlt.Props.C102_bc1",
    "Dlt.Props.C102_bc3",
    "Dlt.Props.C102_split",
    "Dlt.Props.C102_bc2_partial",
    "Dlt.Props.C102_bc2_exact",
    "Dlt.Props.C102_bc2_needs_vl"
   ],
   "note": "False for BC2: three AVX-512 transforms use _mm_loadu_epi8, which needs AVX512VL, and are chosen by AVX512BW alone. C102_bc2_exact says exactly when. Proved for BC1, BC3, the colour split, and BC2 with AVX512VL. Which extension an intrinsic belongs to is taken from the instruction set reference."
  },
  {
   "property": "C103",
   "status": "proved",
   "theorems": [
    "Dlt.Props.C103_alone_transform",
    "Dlt.Props.C103_alone_untransform",
    "Dlt.Props.C103_others_copied",
    "Dlt.Props.C103_unread_transform",
    "Dlt.Props.C103_unread_untransform",
    "Dlt.Props.C103_cube_first_face"
   ],
   "note": ""
  },
  {
   "property": "C104",
   "status": "proved",
   "theorems": [
    "Dlt.Props.C104_bc1",
    "Dlt.Props.C104_bc2",
    "Dlt.Props.C104_bc3",
    "Dlt.Props.C104_C118_dds"
   ],
   "note": "C104_C118_dds: addresses of at least 32 bits."
  },
  {
   "property": "C105",
   "status": "proved",
   "theorems": [
    "Dlt.Props.C105_balance",
    "Dlt.Props.C105_no_leak",
    "Dlt.Props.C105_free_iff"
   ],
   "note": ""
  },
  {
   "property": "C106",
   "status": "proved",
   "theorems": [
    "Dlt.Props.C106_bc1",
    "Dlt.Props.C106_bc2",
    "Dlt.Props.C106_bc3"
   ],
   "note": "One thread per file (rayon's pool has fewer, which allows fewer executions). Writes that stop half-way are excluded: C73_damaged_cache and C52 show what they do."
  },
  {
   "property": "C107",
   "status": "proved",
   "theorems": [
    "Dlt.Props.C107_contexts",
    "Dlt.Props.C107_roundtrip",
    "Dlt.Props.C107_passed_on",
    "Dlt.Props.C107_inverse",
    "Dlt.Props.C107_exact",
    "Dlt.Props.C107_room",
    "Dlt.Props.C107_exact_empty",
    "Dlt.Props.C107_exact_level"
   ],
   "note": "C107_inverse gives the assumption Inverse of C73 and C106. What zstd.h promises is assumed (Documented); the frame format itself is not modelled."
  },
  {
   "property": "C108",
   "status": "partial",
   "theorems": [
    "Dlt.Props.C108_bc1",
    "Dlt.Props.C108_bc2",
    "Dlt.Props.C108_bc3_partial",
    "Dlt.Props.C108_bc3_in_place"
   ],
   "note": "False for normalize_blocks_all_modes of BC3: its documentation allows the input to be one of the output buffers, its assertion does not (C108_bc3_in_place: every such call panics). True for BC1, BC2 and the other calls of BC3. Overlaps among output buffers are not looked at by the code and not covered."
  },
  {
   "property": "C109",
   "status": "proved",
   "theorems": [
    "Dlt.Props.C109_transform",
    "Dlt.Props.C109_untransform"
   ],
   "note": "Addresses of more than 32 bits; outputs of the size of the files."
  },
  {
   "property": "C110",
   "status": "proved",
   "theorems": [
    "Dlt.Props.C110_bc2",
    "Dlt.Props.C110_bc3",
    "Dlt.Props.C110_bc2_untransform",
    "Dlt.Props.C110_bc3_untransform",
    "Dlt.Props.C110_bc2_auto"
   ],
   "note": ""
  },
  {
   "property": "C111",
   "status": "proved",
   "theorems": [
    "Dlt.Props.C111_bc1",
    "Dlt.Props.C111_bc2",
    "Dlt.Props.C111_bc3"
   ],
   "note": ""
  },
  {
   "property": "C112",
   "status": "proved",
   "theorems": [
    "Dlt.Props.C112_bc1",
    "Dlt.Props.C112_bc2",
    "Dlt.Props.C112_bc3",
    "Dlt.Props.C112_colours"
   ],
   "note": ""
  },
  {
   "property": "C113",
   "status": "proved",
   "theorems": [
    "Dlt.Props.C113_files",
    "Dlt.Props.C113_lost",
    "Dlt.Props.C113_no_success"
   ],
   "note": "C113_lost and C113_no_success: release builds (overflow checks off) with addresses of more than 32 bits."
  },
  {
   "property": "C114",
   "status": "proved",
   "theorems": [
    "Dlt.Props.C114_killed",
    "Dlt.Props.C114_repeated"
   ],
   "note": "No output is an input (C39), both runs find the same files, which fit into the address space, and neither fails; addresses of more than 32 bits; the command processes the list of files, its arguments are those of C76."
  },
  {
   "property": "C115",
   "status": "proved",
   "theorems": [
    "Dlt.Props.C115_any_order",
    "Dlt.Props.C115_shared_builder"
   ],
   "note": ""
  },
  {
   "property": "C116",
   "status": "proved",
   "theorems": [
    "Dlt.Props.C116_holds_last_set",
    "Dlt.Props.C116_transform_uses_last_set"
   ],
   "note": ""
  },
  {
   "property": "C117",
   "status": "proved",
   "theorems": [
    "Dlt.Props.C117_bc1",
    "Dlt.Props.C117_bc2",
    "Dlt.Props.C117_bc3"
   ],
   "note": ""
  },
  {
   "property": "C118",
   "status": "proved",
   "theorems": [
    "Dlt.Props.C118_bc1",
    "Dlt.Props.C118_bc2",
    "Dlt.Props.C118_bc3",
    "Dlt.Props.C104_C118_dds"
   ],
   "note": "C104_C118_dds: addresses of at least 32 bits."
  },
  {
   "property": "C119",
   "status": "proved",
   "theorems": [
    "Dlt.Props.C119_bc1",
    "Dlt.Props.C119_bc2",
    "Dlt.Props.C119_bc3",
    "Dlt.Props.C119_bc1_switch",
    "Dlt.Props.C119_bc2_switch",
    "Dlt.Props.C119_bc3_switch",
    "Dlt.Props.C119_dds"
   ],
   "note": "C119_dds: addresses of at least 32 bits."
  },
  {
   "property": "C120",
   "status": "proved",
   "theorems": [
    "Dlt.Props.C120_bc1",
    "Dlt.Props.C120_bc2",
    "Dlt.Props.C120_bc3",
    "Dlt.Props.C120_bc1_auto",
    "Dlt.Props.C120_bc2_auto",
    "Dlt.Props.C120_bc3_auto",
    "Dlt.Props.C120_dds"
   ],
   "note": "C120_dds: addresses of at least 32 bits."
  },
  {
   "property": "C121",
   "status": "proved",
   "theorems": [
    "Dlt.Props.C121_bc1",
    "Dlt.Props.C121_bc2",
    "Dlt.Props.C121_bc3",
    "Dlt.Props.C121_dds",
    "Dlt.Props.C121_tags"
   ],
   "note": "C121_dds, C121_tags: addresses of at least 32 bits. C121_tags: files whose results begin with the same tag, whoever chose the settings."
  },
  {
   "property": "C122",
   "status": "proved",
   "theorems": [
    "Dlt.Props.C122_bc1",
    "Dlt.Props.C122_bc1_auto",
    "Dlt.Props.C122_bc2",
    "Dlt.Props.C122_bc3"
   ],
   "note": "BC2 and BC3: normalized into another buffer as long as the texture. C122_bc1_auto: two blocks of one texture."
  }
 ]
}