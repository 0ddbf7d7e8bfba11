{"id": "C01", "title": "BC1 transform is lossless", "statement": "Transforming BC1 block data with any settings and then untransforming the result with the same settings gives back exactly the original bytes.", "quantifier": "every byte string whose length is a multiple of 8 (any number of blocks, including zero), every one of the 8 setting combinations", "why_tests_cant": "The input space is unbounded in length and 2^64 per block; the tests use a handful of lengths and pseudo random or sequential data.", "anchors": ["src/core/dxt-lossless-transform-bc1/src/transform/transform_with_settings.rs: transform_bc1_with_settings, untransform_bc1_with_settings", "src/core/dxt-lossless-transform-bc1/src/transform/standard", "src/core/dxt-lossless-transform-bc1/src/transform/with_recorrelate", "src/core/dxt-lossless-transform-bc1/src/transform/with_split_colour", "src/core/dxt-lossless-transform-bc1/src/transform/with_split_colour_and_recorr"]}
{"id": "C02", "title": "BC2 transform is lossless", "statement": "Transforming BC2 block data with any settings and then untransforming the result with the same settings gives back exactly the original bytes.", "quantifier": "every byte string whose length is a multiple of 16, every one of the 8 setting combinations", "why_tests_cant": "Unbounded length, 2^128 values per block.", "anchors": ["src/core/dxt-lossless-transform-bc2/src/transform/transform_with_settings.rs: transform_bc2_with_settings, untransform_bc2_with_settings"]}
{"id": "C03", "title": "BC3 transform is lossless", "statement": "Transforming BC3 block data with any settings and then untransforming the result with the same settings gives back exactly the original bytes.", "quantifier": "every byte string whose length is a multiple of 16, every one of the 16 setting combinations", "why_tests_cant": "Unbounded length, 2^128 values per block, 16 different code paths.", "anchors": ["src/core/dxt-lossless-transform-bc3/src/transform/transform_with_settings.rs: transform_bc3_with_settings, untransform_bc3_with_settings"]}
{"id": "C04", "title": "Untransform is lossless as well (each transform is a bijection)", "statement": "Untransforming arbitrary data and transforming it again with the same settings gives the data back; hence no two different textures share a transformed form and every byte string of a valid length is the transform of exactly one texture.", "quantifier": "every byte string of block multiple length, all settings of BC1, BC2 and BC3", "why_tests_cant": "Injectivity is a statement about all pairs of inputs.", "anchors": ["src/core/dxt-lossless-transform-bc1/src/transform/transform_with_settings.rs", "src/core/dxt-lossless-transform-bc2/src/transform/transform_with_settings.rs", "src/core/dxt-lossless-transform-bc3/src/transform/transform_with_settings.rs"]}
{"id": "C05", "title": "BC1 output layout is the documented one", "statement": "The transformed output is section by section: without endpoint splitting all 4-byte colour pairs of all blocks in order and then all 4-byte index words; with splitting all first colours, all second colours, all index words; colours are replaced by their decorrelated form and everything else is copied verbatim.", "quantifier": "every byte string of length 8n, all settings; every byte position of the output", "why_tests_cant": "Files written by one version must be readable by all others, so the layout of every byte matters, not just that the round trip works.", "anchors": ["src/core/dxt-lossless-transform-bc1/src/transform/transform_with_settings.rs", "src/core/dxt-lossless-transform-bc1/src/lib.rs"]}
{"id": "C06", "title": "BC2 output layout is the documented one", "statement": "The transformed output holds all 8-byte alpha words, then all colours (interleaved pairs, or all first colours then all second colours when split), then all 4-byte index words, colours decorrelated, everything else verbatim.", "quantifier": "every byte string of length 16n, all settings", "why_tests_cant": "Needs every output byte for every length.", "anchors": ["src/core/dxt-lossless-transform-bc2/src/transform/transform_with_settings.rs"]}
{"id": "C07", "title": "BC3 output layout is the documented one", "statement": "The transformed output holds alpha endpoints (pairs, or all first then all second endpoints when split), 6-byte alpha index groups, colours (pairs or split), 4-byte colour index words, in that order, colours decorrelated, everything else verbatim.", "quantifier": "every byte string of length 16n, all 16 settings", "why_tests_cant": "Needs every output byte for every length.", "anchors": ["src/core/dxt-lossless-transform-bc3/src/transform/transform_with_settings.rs"]}
{"id": "C08", "title": "Colour decorrelation is lossless in every variant", "statement": "For each of the YCoCg variants, recorrelating a decorrelated RGB565 colour returns the same 16-bit value and vice versa, so decorrelation is a bijection on 16-bit colours.", "quantifier": "all 65536 colours, all variants, both directions", "why_tests_cant": "Existing tests go over one direction for all colours at best; the property is needed for both and as a fact other proofs can use.", "anchors": ["src/core/dxt-lossless-transform-common/src/color_565/mod.rs", "src/core/dxt-lossless-transform-common/src/color_565/decorrelate.rs: decorrelate_ycocg_r_var1/2/3, recorrelate_ycocg_r_var1/2/3"]}
{"id": "C09", "title": "Decorrelation computes the YCoCg-R lifting steps and stores them in the documented bit positions", "statement": "The decorrelated word contains Y, Co, Cg of the YCoCg-R lifting transform of the top five green bits with red and blue (modulo 32), and the left over low green bit, at the bit positions documented for the variant.", "quantifier": "all colours and all variants", "why_tests_cant": "The meaning of the stored bits is a file format contract; tests only compare a few hard coded colours.", "anchors": ["src/core/dxt-lossless-transform-common/src/color_565/decorrelate.rs"]}
{"id": "C10", "title": "Unsafe transform entry points touch only the memory they are given", "statement": "Every load of the transform and untransform functions lies inside the len input bytes, every store lies inside the first len bytes of the output, all len output bytes are written and bytes after them keep their value.", "quantifier": "every length that is a multiple of the block size, every input content, every initial output content, every settings value, every instruction set path", "why_tests_cant": "Out of bounds accesses depend on the length modulo the vector width and are invisible to value comparing tests.", "anchors": ["src/core/dxt-lossless-transform-bc1/src/transform", "src/core/dxt-lossless-transform-bc2/src/transform", "src/core/dxt-lossless-transform-bc3/src/transform"]}
{"id": "C11", "title": "BC1 results do not depend on the CPU", "statement": "For every combination of detected CPU features the BC1 transform and untransform produce the same bytes as the portable code path.", "quantifier": "all subsets of CPU features the dispatcher looks at, all inputs of length 8n, all settings", "why_tests_cant": "A test machine has one CPU; vector and tail handling depend on the length.", "anchors": ["src/core/dxt-lossless-transform-bc1/src/transform/standard/transform/mod.rs", "src/core/dxt-lossless-transform-bc1/src/transform/standard/transform/sse2.rs", "src/core/dxt-lossless-transform-bc1/src/transform/standard/transform/avx2.rs", "src/core/dxt-lossless-transform-bc1/src/transform/standard/transform/avx512f.rs", "src/core/dxt-lossless-transform-bc1/src/transform/with_recorrelate", "src/core/dxt-lossless-transform-bc1/src/transform/with_split_colour", "src/core/dxt-lossless-transform-bc1/src/transform/with_split_colour_and_recorr"]}
{"id": "C12", "title": "BC2 results do not depend on the CPU", "statement": "For every combination of detected CPU features the BC2 transform and untransform produce the same bytes as the portable code path.", "quantifier": "all CPU feature subsets, all inputs of length 16n, all settings", "why_tests_cant": "A test machine has one CPU; vector and tail handling depend on the length.", "anchors": ["src/core/dxt-lossless-transform-bc2/src/transform/standard", "src/core/dxt-lossless-transform-bc2/src/transform/with_recorrelate", "src/core/dxt-lossless-transform-bc2/src/transform/with_split_colour", "src/core/dxt-lossless-transform-bc2/src/transform/with_split_colour_and_recorr"]}
{"id": "C13", "title": "BC3 results do not depend on the CPU", "statement": "For every combination of detected CPU features the BC3 transform and untransform produce the same bytes as the portable code path.", "quantifier": "all CPU feature subsets, all inputs of length 16n, all settings", "why_tests_cant": "A test machine has one CPU; vector and tail handling depend on the length.", "anchors": ["src/core/dxt-lossless-transform-bc3/src/transform/standard", "src/core/dxt-lossless-transform-bc3/src/transform/with_recorrelate", "src/core/dxt-lossless-transform-bc3/src/transform/with_split_alphas"]}
{"id": "C14", "title": "Batch colour decorrelation equals the per colour function", "statement": "The slice and pointer batch functions produce for each element exactly the decorrelated (recorrelated) colour, in order, and the split batch recorrelation interleaves the two recorrelated sources; nothing but the destination items changes. Decorrelation also works in place.", "quantifier": "all slice lengths and contents, all variants, every CPU feature set", "why_tests_cant": "Unbounded lengths with vector/scalar tails.", "anchors": ["src/core/dxt-lossless-transform-common/src/color_565/decorrelate_batch_ptr.rs", "src/core/dxt-lossless-transform-common/src/color_565/decorrelate_batch_slice.rs", "src/core/dxt-lossless-transform-common/src/color_565/decorrelate_batch_split_ptr.rs", "src/core/dxt-lossless-transform-common/src/intrinsics/color_565"]}
{"id": "C15", "title": "Colour endpoint splitting puts first colours before second colours", "statement": "split_color_endpoints writes all first 16-bit colours in order followed by all second colours, whatever implementation the CPU selects, and merging them again restores the input.", "quantifier": "all input lengths that are multiples of 4 (at least 4), all contents, all CPU feature sets", "why_tests_cant": "Unbounded lengths, several instruction sets with different chunk sizes.", "anchors": ["src/core/dxt-lossless-transform-common/src/transforms/split_565_color_endpoints/mod.rs", "src/core/dxt-lossless-transform-common/src/transforms/split_565_color_endpoints/sse2.rs", "src/core/dxt-lossless-transform-common/src/transforms/split_565_color_endpoints/avx2.rs", "src/core/dxt-lossless-transform-common/src/transforms/split_565_color_endpoints/avx512.rs"]}
{"id": "C16", "title": "Safe API validates lengths exactly", "statement": "The safe transform and untransform functions succeed exactly when the input length is a multiple of the block size and the output is at least as long as the input; otherwise they return InvalidLength(len) respectively OutputBufferTooSmall(needed, actual), length being checked first, and leave the output untouched. They never panic.", "quantifier": "all input and output slices of any length, BC1, BC2 and BC3, all settings", "why_tests_cant": "Unbounded pairs of lengths.", "anchors": ["src/core/dxt-lossless-transform-bc1/src/transform/safe/transform_with_settings.rs", "src/core/dxt-lossless-transform-bc2/src/transform/safe/transform_with_settings.rs", "src/core/dxt-lossless-transform-bc3/src/transform/safe/transform_with_settings.rs"]}
{"id": "C17", "title": "BC1 auto transform reports the settings that it really used", "statement": "Whatever the size estimator answers, if the automatic BC1 transform succeeds then the output equals the manual transform with the returned settings, so untransforming with the returned settings restores the input.", "quantifier": "all inputs of length 8n, all estimators (including inconsistent, stateful ones), both search modes", "why_tests_cant": "Depends on which candidate wins and whether it was the last one tested, for arbitrary estimators.", "anchors": ["src/core/dxt-lossless-transform-bc1/src/transform/transform_auto.rs: transform_bc1_auto", "src/core/dxt-lossless-transform-bc1/src/transform/settings.rs: FAST_TEST_ORDER, COMPREHENSIVE_TEST_ORDER"]}
{"id": "C18", "title": "BC2 auto transform reports the settings that it really used", "statement": "Whatever the size estimator answers, if the automatic BC2 transform succeeds then the output equals the manual transform with the returned settings.", "quantifier": "all inputs of length 16n, all estimators, both search modes", "why_tests_cant": "Arbitrary estimators.", "anchors": ["src/core/dxt-lossless-transform-bc2/src/transform/transform_auto.rs"]}
{"id": "C19", "title": "BC3 auto transform reports the settings that it really used", "statement": "Whatever the size estimator answers, if the automatic BC3 transform succeeds then the output equals the manual transform with the returned settings.", "quantifier": "all inputs of length 16n, all estimators, both search modes", "why_tests_cant": "Arbitrary estimators.", "anchors": ["src/core/dxt-lossless-transform-bc3/src/transform/transform_auto.rs"]}
{"id": "C20", "title": "Auto transform picks a candidate with the smallest estimate, the earliest one on ties", "statement": "With a deterministic estimator that gives some candidate of the search mode an estimate below usize::MAX (for BC3 the estimate of a candidate is the total for its two measured sections, and all totals fit in a usize), the returned settings have the smallest estimate of all candidates of the search mode, and among equals the one listed first.", "quantifier": "all inputs, all deterministic estimators, both search modes, BC1, BC2, BC3", "why_tests_cant": "Quantifies over all estimators.", "anchors": ["src/core/dxt-lossless-transform-bc1/src/transform/transform_auto.rs", "src/core/dxt-lossless-transform-bc2/src/transform/transform_auto.rs", "src/core/dxt-lossless-transform-bc3/src/transform/transform_auto.rs"]}
{"id": "C21", "title": "The thorough search mode considers every settings combination and is never worse than the fast one", "statement": "The exhaustive mode tests each settings combination exactly once, the fast mode tests exactly those without decorrelation or with Variant1, as documented, once each, and with the same deterministic estimator the estimate of the exhaustive result is at most that of the fast result.", "quantifier": "all inputs, all deterministic estimators", "why_tests_cant": "Quantifies over all estimators.", "anchors": ["src/core/dxt-lossless-transform-bc1/src/transform/settings.rs", "src/core/dxt-lossless-transform-bc2/src/transform/settings.rs", "src/core/dxt-lossless-transform-bc3/src/transform/settings.rs"]}
{"id": "C22", "title": "Estimator failures surface as errors", "statement": "If the estimator fails for the size bound or for any candidate that is tested, the auto transform returns the estimation error (the first one met) and never a settings value.", "quantifier": "all inputs and all estimators that fail at any point", "why_tests_cant": "Every failure position and estimator behaviour.", "anchors": ["src/core/dxt-lossless-transform-bc1/src/transform/transform_auto.rs", "src/api/dxt-lossless-transform-bc1-api/src/error.rs: from_auto_transform_error"]}
{"id": "C23", "title": "Embedded settings header round trips", "statement": "Writing the 4-byte header for any settings and reading it back yields the same format and the same settings, for every format that has an embedded representation.", "quantifier": "all settings of all embeddable formats (BC1, BC2, BC3, BC4, BC5, BC7, RGBA8888, BGRA8888, BGR888) and all surrounding bytes", "why_tests_cant": "Tests cover single formats at the packed level, not the written bytes with the format tag.", "anchors": ["src/api/dxt-lossless-transform-file-formats-api/src/embed/mod.rs: TransformHeader", "src/api/dxt-lossless-transform-file-formats-api/src/embed/formats/bc1.rs", "src/api/dxt-lossless-transform-file-formats-api/src/embed/formats/bc2.rs"]}
{"id": "C24", "title": "Header bit layout is stable", "statement": "The header is a little endian 32-bit word: low four bits the format tag, then two version bits (0), for BC1/BC2 one split flag and two variant bits (Variant1=0, Variant2=1, Variant3=2, None=3), all other bits zero. Different (format, settings) pairs have different headers.", "quantifier": "all settings of BC1 and BC2", "why_tests_cant": "It is a file format contract.", "anchors": ["src/api/dxt-lossless-transform-file-formats-api/src/embed/mod.rs", "src/api/dxt-lossless-transform-file-formats-api/src/embed/formats/bc1.rs", "src/api/dxt-lossless-transform-file-formats-api/src/embed/formats/bc2.rs", "src/api/dxt-lossless-transform-file-formats-api/src/embed/transform_format.rs"]}
{"id": "C25", "title": "Any 32-bit header value is decoded or rejected, never misread as another format", "statement": "Decoding an arbitrary header word either fails with an error or yields settings of the format named by its low four bits; it fails exactly when the tag is not the expected one or the version is not 0 (or for the formats that check them, when reserved bits are set).", "quantifier": "all 2^32 header words", "why_tests_cant": "2^32 words times formats.", "anchors": ["src/api/dxt-lossless-transform-file-formats-api/src/embed/formats/mod.rs: from_header", "src/api/dxt-lossless-transform-file-formats-api/src/embed/mod.rs", "src/api/dxt-lossless-transform-file-formats-api/src/handlers/dispatch.rs: dispatch_untransform"]}
{"id": "C26", "title": "DDS files survive transform and untransform byte for byte", "statement": "If transforming a DDS file into a buffer of the same size succeeds, untransforming the result into a buffer of the same size succeeds and returns exactly the original file including header, mip levels and trailing data. Only if the restoring build checks for overflow and a mip level has 4 GiB or more does restoring panic instead.", "quantifier": "all byte strings offered as file, all bundles (manual with any settings or automatic with any estimator), all previous buffer contents; any two platforms of the same byte order with addresses of at least 32 bits, with or without overflow checks", "why_tests_cant": "All files: any header values, any trailing data, any settings.", "anchors": ["src/extensions/file-formats/dxt-lossless-transform-dds/src/handler/file_format_handler.rs: transform_bundle, untransform", "src/api/dxt-lossless-transform-file-formats-api/src/api.rs: transform_slice_with_bundle, untransform_slice"]}
{"id": "C27", "title": "A larger output buffer gives the same result", "statement": "The documentation only requires the output buffer to be at least as large as the input; transforming or untransforming into a larger buffer should produce the same bytes in the first input length bytes and never panic.", "quantifier": "all input files and all output buffers at least as long", "why_tests_cant": "Needs files with trailing data together with larger buffers.", "anchors": ["src/extensions/file-formats/dxt-lossless-transform-dds/src/handler/file_format_handler.rs: leftover copy", "src/api/dxt-lossless-transform-file-formats-api/src/api.rs"]}
{"id": "C28", "title": "DDS transform changes only the magic and the texture data", "statement": "A successful transform leaves every header byte after the magic, and every byte after the texture data unchanged, and keeps the file size.", "quantifier": "all input files and bundles with equal sized output", "why_tests_cant": "All byte positions of all files.", "anchors": ["src/extensions/file-formats/dxt-lossless-transform-dds/src/handler/file_format_handler.rs"]}
{"id": "C29", "title": "A transformed file is never transformed twice", "statement": "The output of a successful transform is not accepted as input of another transform: it returns InvalidInputFileHeader (detection returns no handler).", "quantifier": "all input files and bundles", "why_tests_cant": "Relies on no header word colliding with the DDS magic for any settings.", "anchors": ["src/extensions/file-formats/dxt-lossless-transform-dds/src/handler/file_format_handler.rs", "src/extensions/file-formats/dxt-lossless-transform-dds/src/dds/likely_dds.rs", "src/api/dxt-lossless-transform-file-formats-api/src/embed/mod.rs"]}
{"id": "C30", "title": "Untransforming a file that was never transformed is refused", "statement": "Untransform of any file that still starts with the DDS magic returns an error.", "quantifier": "all byte strings starting with the DDS magic", "why_tests_cant": "All files.", "anchors": ["src/extensions/file-formats/dxt-lossless-transform-dds/src/handler/file_format_handler.rs: untransform", "src/api/dxt-lossless-transform-file-formats-api/src/handlers/dispatch.rs"]}
{"id": "C31", "title": "Truncated DDS files are refused before any output is written", "statement": "If the file is shorter than header plus stated texture size, transform and untransform return InputTooShortForStatedTextureSize with the required and actual size and the output is untouched; files without DDS header are refused with the output untouched.", "quantifier": "all byte strings and output buffers", "why_tests_cant": "All truncation points.", "anchors": ["src/extensions/file-formats/dxt-lossless-transform-dds/src/handler/file_format_handler.rs"]}
{"id": "C32", "title": "DDS texture size is the sum over all mip levels", "statement": "For block compressed formats the reported data length is the sum over the mip levels of ceil(w/4)*ceil(h/4)*block size with dimensions halved (at least 1) per level; for pixel formats the sum of w*h*bytes per pixel.", "quantifier": "all header contents (width, height, mip count in 32 bits)", "why_tests_cant": "2^96 header combinations, behaviour on arithmetic overflow.", "anchors": ["src/extensions/file-formats/dxt-lossless-transform-dds/src/dds/parse_dds.rs: calculate_data_length_for_block_compression, calculate_data_length_for_pixel_formats"]}
{"id": "C33", "title": "DDS format classification", "statement": "Parsing accepts exactly the inputs of at least 128 bytes with DDS magic (148 if the four character code is DX10), reports offset 128 or 148, and classifies the format by the DX10 format number or four character code/masks as documented.", "quantifier": "all byte strings", "why_tests_cant": "All header contents.", "anchors": ["src/extensions/file-formats/dxt-lossless-transform-dds/src/dds/parse_dds.rs: parse_dds, parse_dds_ignore_magic, detect_uncompressed_format", "src/extensions/file-formats/dxt-lossless-transform-dds/src/dds/likely_dds.rs"]}
{"id": "C34", "title": "Formats without an implementation are refused", "statement": "A DDS file whose format is not BC1 or BC2 is never transformed: the call returns an error, or panics if the sizes in the header overflow (exactly then); likewise if the bundle has no builder for the format.", "quantifier": "all files and bundles", "why_tests_cant": "All header contents.", "anchors": ["src/extensions/file-formats/dxt-lossless-transform-dds/src/handler/format_conversion.rs", "src/api/dxt-lossless-transform-file-formats-api/src/bundle/mod.rs: dispatch_transform"]}
{"id": "C35", "title": "Handler selection", "statement": "With several handlers the first one whose detection accepts the input is used and returned; if none accepts, NoSupportedHandler is returned and the output is untouched; handlers after the accepting one have no effect.", "quantifier": "all handler lists (any detection behaviour), all inputs", "why_tests_cant": "All lists of handlers of any length.", "anchors": ["src/api/dxt-lossless-transform-file-formats-api/src/api.rs: transform_slice_with_multiple_handlers, untransform_slice_with_multiple_handlers", "src/extensions/file-formats/dxt-lossless-transform-dds/src/handler/file_format_detection.rs"]}
{"id": "C36", "title": "Untransform dispatch obeys the embedded header", "statement": "dispatch_untransform uses the format and settings stored in the header and nothing else, so with the header returned by dispatch_transform it restores the texture data; texture sizes that are not a block multiple are refused with InvalidDataAlignment.", "quantifier": "all headers, all texture data", "why_tests_cant": "All header words and data lengths.", "anchors": ["src/api/dxt-lossless-transform-file-formats-api/src/handlers/dispatch.rs", "src/api/dxt-lossless-transform-file-formats-api/src/bundle/mod.rs"]}
{"id": "C37", "title": "File API equals the slice API", "statement": "Transforming a file to a file produces the output file that the slice API would produce for its contents, with the same size, and leaves the input file and all other files unchanged; file to slice and slice to file agree with it; untransforming the output file restores the input.", "quantifier": "all file contents, all file systems states, all bundles, distinct input and output paths; the restoring build checks for overflow only if the transforming one does", "why_tests_cant": "All file systems and contents.", "anchors": ["src/api/dxt-lossless-transform-file-formats-api/src/file_io/lightweight_mmap/file.rs", "src/api/dxt-lossless-transform-file-formats-api/src/file_io/lightweight_mmap/file_to_slice.rs", "src/api/dxt-lossless-transform-file-formats-api/src/file_io/lightweight_mmap/slice_to_file.rs"]}
{"id": "C38", "title": "A failed file transform leaves no output behind", "statement": "If a file transform fails the output path should not hold a new or modified file.", "quantifier": "all inputs for which the operation fails", "why_tests_cant": "Needs all failure points; the code creates the output before the operation can fail.", "anchors": ["src/api/dxt-lossless-transform-file-formats-api/src/file_io/lightweight_mmap/file.rs: transform_file_with_multiple_handlers"]}
{"id": "C39", "title": "Batch processing is independent of scheduling", "statement": "Transforming a directory with several threads gives the same output files and the same byte count as processing the files one after another, in any order; one failing file does not affect the others.", "quantifier": "all sets of files, all schedules (orders of per file completion)", "why_tests_cant": "All interleavings.", "anchors": ["src/tools/dxt-lossless-transform-cli/src/commands/transform/mod.rs: process_files_with_bundle", "src/tools/dxt-lossless-transform-cli/src/commands/untransform/mod.rs"]}
{"id": "C40", "title": "C builder API behaves like the Rust builder", "statement": "For every sequence of create, clone, set, reset and free calls a live builder holds the values last set (defaults Variant1/split), clones are independent, null builders are ignored, and Transform/Untransform produce the bytes and the error code that correspond to the Rust result.", "quantifier": "all call histories, all buffers", "why_tests_cant": "Unbounded call sequences.", "anchors": ["src/api/dxt-lossless-transform-bc1-api/src/c_api/transform/manual_transform_builder.rs", "src/api/dxt-lossless-transform-bc2-api/src/c_api/transform/manual_transform_builder.rs", "src/api/dxt-lossless-transform-bc1-api/src/c_api/error.rs"]}
{"id": "C41", "title": "C API argument checking and result codes", "statement": "Null pointers are reported with the code of the first null argument in the documented order without touching any output; otherwise the code is Success exactly when the operation succeeded; the auto builder stores a non null manual builder with the used settings on success and a null pointer on failure.", "quantifier": "all combinations of null/non null arguments, all buffers, all C estimators", "why_tests_cant": "All argument combinations with all estimator behaviours.", "anchors": ["src/api/dxt-lossless-transform-bc1-api/src/c_api/transform/auto_transform_builder.rs", "src/api/dxt-lossless-transform-bc1-api/src/c_api/transform/manual_transform_builder.rs", "src/api/dxt-lossless-transform-api-common/src/c_api/size_estimation.rs", "src/core/dxt-lossless-transform-bc1/src/c_api"]}
{"id": "C42", "title": "Builder results can be reused for untransform", "statement": "A manual builder restores what it transformed, and the manual builder returned by the auto builder restores what the auto builder transformed.", "quantifier": "all inputs, all builder configurations, all estimators", "why_tests_cant": "All configurations and estimators.", "anchors": ["src/api/dxt-lossless-transform-bc1-api/src/transform/manual_transform_builder.rs", "src/api/dxt-lossless-transform-bc1-api/src/transform/auto_transform_builder.rs", "src/api/dxt-lossless-transform-bc2-api/src/transform"]}
{"id": "C43", "title": "BC1 block normalization never changes a decoded pixel", "statement": "Decoding a normalized BC1 block yields the same 16 RGBA pixels as decoding the original block, for every normalization mode and block.", "quantifier": "all 2^64 blocks, all modes, all numbers of blocks", "why_tests_cant": "2^64 blocks.", "anchors": ["src/core/dxt-lossless-transform-bc1/src/experimental/normalize_blocks/normalize.rs: normalize_blocks", "src/core/dxt-lossless-transform-bc1/src/util/bc1_decode.rs"]}
{"id": "C44", "title": "BC3 block normalization never changes a decoded pixel", "statement": "Decoding a normalized BC3 block yields the same 16 RGBA pixels as decoding the original block, for every combination of alpha and colour normalization mode.", "quantifier": "all 2^128 blocks, all mode pairs, all numbers of blocks", "why_tests_cant": "2^128 blocks.", "anchors": ["src/core/dxt-lossless-transform-bc3/src/experimental/normalize_blocks/normalize.rs", "src/core/dxt-lossless-transform-bc3/src/util/bc3_decode.rs"]}
{"id": "C45", "title": "Normalizing all modes at once equals normalizing each mode on its own", "statement": "normalize_blocks_all_modes writes into the buffer of each mode exactly what normalize_blocks with that mode would write.", "quantifier": "all block data", "why_tests_cant": "2^64 blocks; a special case (transparent blocks) differs.", "anchors": ["src/core/dxt-lossless-transform-bc1/src/experimental/normalize_blocks/normalize.rs: normalize_blocks_all_modes", "src/core/dxt-lossless-transform-bc3/src/experimental/normalize_blocks/normalize.rs: normalize_blocks_all_modes"]}
{"id": "C46", "title": "Normalization is idempotent", "statement": "Normalizing an already normalized block with the same mode changes nothing.", "quantifier": "all blocks and modes", "why_tests_cant": "2^64 blocks.", "anchors": ["src/core/dxt-lossless-transform-bc1/src/experimental/normalize_blocks/normalize.rs"]}
{"id": "C47", "title": "RGB565 survives expansion to 8888", "statement": "Expanding any RGB565 colour to 8 bits per channel and reducing it again returns the same colour.", "quantifier": "all 65536 colours", "why_tests_cant": "Needed as a fact for all colours by normalization.", "anchors": ["src/core/dxt-lossless-transform-common/src/color_565/mod.rs", "src/core/dxt-lossless-transform-common/src/color_8888.rs"]}
{"id": "C48", "title": "Big endian hosts are lossless too", "statement": "On a big endian host (portable code path) transform followed by untransform restores the input for all formats and settings.", "quantifier": "all inputs and settings on big endian hosts", "why_tests_cant": "CI machines are mostly little endian and data dependent.", "anchors": ["src/core/dxt-lossless-transform-bc1/src/transform/with_recorrelate", "src/core/dxt-lossless-transform-bc2/src/transform", "src/core/dxt-lossless-transform-bc3/src/transform", "src/core/dxt-lossless-transform-bc3/src/utils.rs"]}
{"id": "C49", "title": "Transformed data is portable between little and big endian hosts", "statement": "Data transformed on a little endian host is restored correctly on a big endian host and vice versa.", "quantifier": "all inputs and settings, both host endiannesses", "why_tests_cant": "Needs two hosts; depends on the settings.", "anchors": ["src/core/dxt-lossless-transform-bc1/src/transform/with_recorrelate", "src/tools/dxt-lossless-transform-cli/src/commands/debug_endian"]}
{"id": "C50", "title": "Transform with normalization keeps the picture", "statement": "The experimental BC1 transform with block normalization yields data that, untransformed with the reported settings, decodes to the same pixels as the input.", "quantifier": "all BC1 inputs, all estimators", "why_tests_cant": "All blocks and estimators.", "anchors": ["src/core/dxt-lossless-transform-bc1/src/experimental/normalize_blocks/transform.rs"]}
{"id": "C51", "title": "Compression size cache never returns a wrong size under concurrency", "statement": "With any number of threads calling the cached size estimation in any interleaving, every returned size is a size the estimator produced for data with the same content hash, level and algorithm.", "quantifier": "all interleavings of any number of calls", "why_tests_cant": "All schedules.", "anchors": ["src/tools/dxt-lossless-transform-cli/src/debug_format/compression/helpers.rs: calc_size_with_cache_and_estimation_algorithm", "src/tools/dxt-lossless-transform-cli/src/debug_format/compression_size_cache.rs"]}
{"id": "C52", "title": "Compressed data cache survives a crash", "statement": "After a crash at any point while an entry is written, a later lookup returns either nothing or the complete compressed data.", "quantifier": "all crash points during saving", "why_tests_cant": "All crash points; the file is written in place.", "anchors": ["src/tools/dxt-lossless-transform-cli/src/debug_format/compressed_data_cache.rs: save_compressed_data, load_compressed_data"]}
{"id": "C53", "title": "Bit field helpers are inverse", "statement": "Inserting a value in a bit range of a byte and extracting the range returns the value (masked to the range) and leaves all other bits unchanged.", "quantifier": "all bytes, ranges 0<=start<=end<=7, values", "why_tests_cant": "Needed for all ranges and values.", "anchors": ["src/core/dxt-lossless-transform-bc7/src/util/msb_extract_bits.rs", "src/core/dxt-lossless-transform-bc7/src/util/msb_insert_bits.rs"]}
{"id": "C54", "title": "Block extraction returns exactly the texture data", "statement": "Extracting blocks from a DDS file returns the bytes between header end and stated end of the texture data, tagged with the file's format, exactly if the filter accepts the format; nothing else.", "quantifier": "all files and filters", "why_tests_cant": "All header contents.", "anchors": ["src/extensions/file-formats/dxt-lossless-transform-dds/src/handler/file_format_block_extraction.rs", "src/core/dxt-lossless-transform-file-formats-debug/src/block_extraction.rs", "src/extensions/file-formats/dxt-lossless-transform-dds/src/handler/file_format_check.rs"]}
{"id": "C55", "title": "The safe slice functions return a result in debug builds too", "statement": "With debug assertions enabled, the safe BC1 and BC3 functions behave as in a release build, for every pair of slices: they return a result and do not panic.", "quantifier": "all input and output slices, all settings, all CPU feature sets", "why_tests_cant": "Depends on the CPU feature set of the machine; the tests use non-empty inputs.", "anchors": ["src/core/dxt-lossless-transform-bc1/src/transform/with_split_colour/untransform/sse2.rs: untransform_with_split_colour", "src/core/dxt-lossless-transform-bc1/src/transform/with_split_colour_and_recorr/untransform/sse2.rs: untransform_recorr", "src/core/dxt-lossless-transform-bc3/src/transform/with_split_alphas/transform/avx512vbmi.rs: transform_with_split_alphas"]}
{"id": "C56", "title": "The block decoders follow the BC1, BC2 and BC3 formats", "statement": "decode_bc1_block, decode_bc2_block and decode_bc3_block return the sixteen RGBA pixels that the formats prescribe (endpoint expansion, palettes of both BC1 modes, index order, alpha tables), read only the bytes of the block, and the slice variants answer None exactly for slices that are too short.", "quantifier": "all blocks, all slices", "why_tests_cant": "2^64 and 2^128 blocks.", "anchors": ["src/core/dxt-lossless-transform-common/src/decoded_4x4_block.rs", "src/core/dxt-lossless-transform-bc1/src/util/bc1_decode.rs", "src/core/dxt-lossless-transform-bc2/src/util/bc2_decode.rs", "src/core/dxt-lossless-transform-bc3/src/util/bc3_decode.rs"]}
{"id": "C57", "title": "Normalizing separated fields equals separating normalized blocks", "statement": "normalize_split_blocks_in_place, applied to the separated colour and index (and alpha) sections of some blocks, leaves there the sections of the blocks that normalize_blocks yields with the same mode, and touches nothing else; for BC1 with the two sections in one region or in two.", "quantifier": "all block data, all modes, all numbers of blocks", "why_tests_cant": "2^64 and 2^128 blocks; the two code paths are tested on a few literals.", "anchors": ["src/core/dxt-lossless-transform-bc1/src/experimental/normalize_blocks/normalize.rs: normalize_split_blocks_in_place", "src/core/dxt-lossless-transform-bc2/src/experimental/normalize_blocks/normalize.rs: normalize_split_blocks_in_place", "src/core/dxt-lossless-transform-bc3/src/experimental/normalize_blocks/normalize.rs: normalize_split_blocks_in_place"]}
{"id": "C58", "title": "The automatic transform with normalization takes the best candidate", "statement": "If some block can be normalized, transform_bc1_auto_with_normalization reports, of the candidates (three normalization modes times the settings of the plain search), the first one for which the estimate of the colour data that it would write is least; candidates whose estimation fails are passed over, and if none is below usize::MAX the default settings are used.", "quantifier": "all BC1 inputs, all deterministic estimators, both search modes, all CPU feature sets", "why_tests_cant": "The quality of the choice is not visible in a round trip test; all inputs and estimators.", "anchors": ["src/core/dxt-lossless-transform-bc1/src/experimental/normalize_blocks/transform.rs: transform_bc1_auto_with_normalization", "src/core/dxt-lossless-transform-bc1/src/experimental/normalize_blocks/transform.rs: test_normalize_variant_with_normalization"]}
{"id": "C59", "title": "The DDS handler never panics in 64-bit release builds", "statement": "With an output buffer of the size of the input, transform_bundle and untransform of the DDS handler return a result for every byte string, leave the output at its size, and can_handle and can_handle_untransform always answer.", "quantifier": "all byte strings, all bundles and estimators, all CPU feature sets; addresses of more than 32 bits, overflow checks off", "why_tests_cant": "All byte strings, including every hostile header.", "anchors": ["src/extensions/file-formats/dxt-lossless-transform-dds/src/handler/file_format_handler.rs", "src/extensions/file-formats/dxt-lossless-transform-dds/src/handler/file_format_detection.rs"]}
{"id": "C60", "title": "A directory there and back", "statement": "If a directory is transformed with the command line tool and the output directory then untransformed, every file that was transformed with success and can be read and written the second time is restored byte for byte at its relative path, and success is reported for it.", "quantifier": "all directory trees and file contents, all presets (bundles with stateless estimators), all schedules of both commands, all machines of equal byte order; separate directories; the restoring build checks for overflow only if the transforming one does", "why_tests_cant": "All schedules and contents.", "anchors": ["src/tools/dxt-lossless-transform-cli/src/commands/transform/mod.rs: process_file_transform", "src/tools/dxt-lossless-transform-cli/src/commands/untransform/mod.rs: process_file_untransform", "src/tools/dxt-lossless-transform-cli/src/util/core.rs: find_all_files"]}
{"id": "C61", "title": "Round trip through the C API", "statement": "If a Transform of the C API (manual or automatic builder, or the core C API) reports success, then Untransform of the stored bytes with a builder holding the same settings (for the automatic one: the builder it stored) into a buffer with enough room reports success and stores the original bytes, in the same or another process on a machine of the same byte order.", "quantifier": "all process states, all buffers, all C estimators, BC1 and BC2", "why_tests_cant": "All contents, estimators and settings, two processes.", "anchors": ["src/api/dxt-lossless-transform-bc1-api/src/c_api/transform", "src/api/dxt-lossless-transform-bc2-api/src/c_api/transform", "src/core/dxt-lossless-transform-bc1/src/c_api", "src/core/dxt-lossless-transform-bc2/src/c_api"]}
{"id": "C62", "title": "The LTU estimator never fails and is the same through C", "statement": "The automatic transform with the LTU estimator succeeds on every input of valid length without allocating scratch memory, and through the C interface the library sees the same estimator, so that the call reports Success for all valid arguments.", "quantifier": "all inputs, all results of the LZ match counter, BC1-BC3", "why_tests_cant": "All inputs and match counts.", "anchors": ["src/extensions/estimators/dxt-lossless-transform-ltu/src/lib.rs", "src/extensions/estimators/dxt-lossless-transform-ltu/src/c_api.rs"]}
{"id": "C63", "title": "The size cache file survives a crash", "statement": "After a crash at any point of saving the size cache, the next load finds the file as it was, or restores exactly the sizes that were being saved, or reports an error and leaves the in-memory cache unchanged; it never loads a wrong or partial map.", "quantifier": "all caches, all iteration orders, all crash points", "why_tests_cant": "All crash points of an in-place rewrite and all maps.", "anchors": ["src/tools/dxt-lossless-transform-cli/src/debug_format/compression_size_cache.rs: save_to_disk, load_from_disk"]}
{"id": "C64", "title": "The parallel dry run leaves complete cache files", "statement": "However the calls of the parallel dry run interleave, also when several of them write the same file, once all have ended without a write error every file of the compressed data cache holds the complete compressed data of its key.", "quantifier": "all interleavings of any number of calls, all chunkings of the writes", "why_tests_cant": "All schedules and all partial writes.", "anchors": ["src/tools/dxt-lossless-transform-cli/src/debug_format/compression/helpers.rs: compress_data_cached", "src/tools/dxt-lossless-transform-cli/src/debug_format/compressed_data_cache.rs: save_compressed_data, load_compressed_data"]}
{"id": "C65", "title": "Different cache keys use different files", "statement": "Two entries of the compressed data cache that differ in content hash, compression level or algorithm are stored in different files, and every file lies directly in the cache directory.", "quantifier": "all 128-bit hashes, all i32 levels, all algorithms", "why_tests_cant": "2^160 keys.", "anchors": ["src/tools/dxt-lossless-transform-cli/src/debug_format/compressed_data_cache.rs: cache_key"]}
{"id": "C66", "title": "The roundtrip debug command", "statement": "The roundtrip command of the debug tools tries every combination of settings exactly once on the texture of each file; a complete texture of the format passes whatever its contents, and the command succeeds exactly if every file it visits is a readable DDS file of that format with enough memory to test it. It changes no file. A pass means that all decoded pixels agree, which is weaker than equality of the bytes.", "quantifier": "all directories, all file contents below 4 GiB, all machines, all schedules, all allocation failures", "why_tests_cant": "The command is itself a test; that it does not report false failures needs all inputs, and what a pass means needs all wrong transforms.", "anchors": ["src/tools/dxt-lossless-transform-cli/src/commands/debug_bc1/roundtrip.rs", "src/tools/dxt-lossless-transform-cli/src/commands/debug_bc2/roundtrip.rs", "src/tools/dxt-lossless-transform-cli/src/commands/debug_bc3/roundtrip.rs", "src/tools/dxt-lossless-transform-cli/src/debug_format/mod.rs: extract_blocks_from_file"]}
{"id": "C67", "title": "Block extraction and format queries", "statement": "A filter is recognised exactly by its name in any case of letters. Of several handlers the first that accepts the file decides alone. The format analysis of a directory changes nothing and reports for each format the exact number of files and bytes, which add up to all files and bytes.", "quantifier": "all strings, all handlers, all directories and file contents", "why_tests_cant": "Handlers are arbitrary and the directories unbounded.", "anchors": ["src/core/dxt-lossless-transform-file-formats-debug/src/block_extraction.rs", "src/core/dxt-lossless-transform-file-formats-debug/src/file_io.rs", "src/tools/dxt-lossless-transform-cli/src/commands/debug_format_analysis.rs"]}
{"id": "C68", "title": "The compression statistics debug commands", "statement": "The analysis of a texture by the compression-stats commands does not panic; the sizes it reports for the original and for each of the combinations of settings (each exactly once) are the sizes which the compression algorithm gives, with or without the cache, and the recommendation it reports is that of the search without a cache. The cache stays truthful. The best result is the first of the smallest; it is no larger than the default or the recommended one.", "quantifier": "all textures, machines, compressors, estimators, levels, truthful caches and allocation failures", "why_tests_cant": "Compressors and caches are arbitrary; a test compares with one compressor on one file.", "anchors": ["src/tools/dxt-lossless-transform-cli/src/debug_format/calc_compression_stats_common.rs", "src/tools/dxt-lossless-transform-cli/src/debug_format/compression/helpers.rs", "src/tools/dxt-lossless-transform-cli/src/debug_format/estimation/mod.rs", "src/tools/dxt-lossless-transform-cli/src/commands/debug_bc1/calc_compression_stats.rs", "src/tools/dxt-lossless-transform-cli/src/commands/debug_bc2/calc_compression_stats.rs", "src/tools/dxt-lossless-transform-cli/src/commands/debug_bc3/calc_compression_stats.rs"]}
{"id": "C69", "title": "Comparison of files and directories", "statement": "compare_files answers yes only for files with the same bytes, and answers yes for such files if both are read in the same portions; with short reads it may call equal files different. compare_directories always ends; it answers yes only if both directories hold the same files with the same contents at every relative path, and does so then if files are read in the same portions. Empty directories make no difference.", "quantifier": "all file contents and directory trees, all answers of the system to read calls, all orders of listing", "why_tests_cant": "Portions in which the system returns bytes cannot be chosen in a test, and directory trees are unbounded.", "anchors": ["src/tools/dxt-lossless-transform-cli/src/commands/debug_endian/file_compare.rs"]}
{"id": "C70", "title": "The endianness test command", "statement": "The test of a file passes only if the restored files on both machines agree; the command succeeds exactly if every file passed, so also without files. It tries only the first combination of settings, without decorrelation, whose result is the same on every machine; so every complete BC1 or BC2 texture file passes on any two machines, although transformed files with decorrelation are not portable between byte orders.", "quantifier": "all complete BC1 and BC2 DDS files below 4 GiB, any two machines, all directory states", "why_tests_cant": "The command is itself a test; that it cannot fail needs all inputs and machines.", "anchors": ["src/tools/dxt-lossless-transform-cli/src/commands/debug_endian/endian_test.rs", "src/tools/dxt-lossless-transform-cli/src/commands/debug_endian/transform_command.rs", "src/tools/dxt-lossless-transform-cli/src/commands/debug_endian/mod.rs"]}
{"id": "C71", "title": "Benchmark kernels are interchangeable with the production code", "statement": "Every kernel exported for benchmarking (BC1, BC2, BC3, with and without split alpha endpoints, and the splitting of colour endpoints) ends without leaving its buffers, gives byte for byte the result of the production function for the corresponding settings on every machine, and leaves the bytes behind the result alone; any exported untransform kernel undoes any exported transform kernel, also between machines of different byte order.", "quantifier": "all exported kernels, all inputs of whole blocks, all output buffers long enough, both byte orders, all contents of unspecified registers", "why_tests_cant": "The tests use a few dozen blocks of counting bytes; several kernels store beyond the section they fill or run on limits derived from saturating subtractions, which goes wrong only for particular lengths, and the big-endian branches are not run.", "anchors": ["src/core/dxt-lossless-transform-bc1/src/bench/mod.rs", "src/core/dxt-lossless-transform-bc2/src/bench/mod.rs", "src/core/dxt-lossless-transform-bc3/src/bench/mod.rs", "src/core/dxt-lossless-transform-bc1/src/transform/standard/transform/bench/", "src/core/dxt-lossless-transform-bc1/src/transform/standard/untransform/bench/", "src/core/dxt-lossless-transform-bc2/src/transform/standard/transform/bench/", "src/core/dxt-lossless-transform-bc3/src/transform/standard/transform/bench/portable32.rs", "src/core/dxt-lossless-transform-bc3/src/transform/standard/untransform/bench/portable.rs", "src/core/dxt-lossless-transform-common/src/transforms/split_565_color_endpoints/bench/"]}
{"id": "C72", "title": "Presets of the transform command", "statement": "Each of the four presets can be set up. When the transform command has ended, under any schedule of its threads, every file of the input directory with a complete BC1 texture is the original with its texture transformed by the settings the preset stands for: version 1 with split endpoints for low; for medium, optimal and max the first candidate of least size, by the LTU estimator or zstd level 1, among four or, for max, all eight settings. Max is never worse than optimal by that size. No other format is ever transformed; BC2 textures are refused with every preset and leave a damaged file in the output directory.", "quantifier": "all presets, directory states, schedules, complete BC1 and BC2 DDS files below 4 GiB, any compressor", "why_tests_cant": "The choice depends on the compressor's answers for every candidate; the tests run one preset on one small file and do not look at the settings used.", "anchors": ["src/tools/dxt-lossless-transform-cli/src/commands/transform/mod.rs"]}
{"id": "C73", "title": "The benchmark commands", "statement": "The benchmark of a directory does not panic and changes no input file: every run of untransform reads the transform of a texture with the settings that the name of its scenario states, or with the settings recommended, and restores the texture; the results are those of the files with a texture of the format, in order, with the scenarios of the format in their order and one without transform; every scenario runs as often as requested, and afterwards the cache holds exactly what decompresses to the data. Algorithms that cannot compress are refused at once. The benchmark of the search succeeds exactly if every search does; its command does not panic, changes no file and has one result for each file with a texture, in order, with the average time. With no iterations both commands panic, and a cache file cut short leads to a panic or a silently skipped file.", "quantifier": "all directories, machines, compressors that invert themselves, hash functions without collision on the data, caches, iteration counts, memory and file answers, durations", "why_tests_cant": "The commands measure time on real files and verify nothing themselves; that the data measured are the right ones is not observable in their output.", "anchors": ["src/tools/dxt-lossless-transform-cli/src/commands/debug_bc1/benchmark.rs", "src/tools/dxt-lossless-transform-cli/src/commands/debug_bc2/benchmark.rs", "src/tools/dxt-lossless-transform-cli/src/commands/debug_bc3/benchmark.rs", "src/tools/dxt-lossless-transform-cli/src/commands/debug_bc1/benchmark_determine_best.rs", "src/tools/dxt-lossless-transform-cli/src/debug_format/benchmark_common.rs", "src/tools/dxt-lossless-transform-cli/src/debug_format/compression/helpers.rs"]}
{"id": "C74", "title": "Statistics of the benchmark", "statement": "The line of a scenario has the two measured times, of decompression and of untransform, divided by the number of iterations, their sum, and the throughputs for the size of the texture. Whatever the iteration order of the hash map, the overall statistics have exactly one line for each scenario name, with the sums of the times over all results, the throughput that belongs to these sums and to all bytes of all textures, sorted by the combined throughput with the best first.", "quantifier": "all measured times and iteration counts, all lists of results, all map orders, all throughput functions", "why_tests_cant": "The iteration order of the map is random per process, and nothing checks printed tables.", "anchors": ["src/tools/dxt-lossless-transform-cli/src/debug_format/benchmark_common.rs"]}
{"id": "C75", "title": "Names and levels of compression algorithms", "statement": "An algorithm is recognized exactly by its short and its long name in any case, including the name that is printed; anything else is an error. Without options the size estimator can always be created, the estimates use the algorithm of the compression, and a level given for zstd estimates is rejected exactly outside 1 to 22, only when the estimator is created.", "quantifier": "all strings, lower-case functions, options and levels", "why_tests_cant": "The set of strings and of 32-bit levels cannot be enumerated by tests.", "anchors": ["src/tools/dxt-lossless-transform-cli/src/debug_format/compression/mod.rs", "src/tools/dxt-lossless-transform-cli/src/commands/debug_bc1/mod.rs"]}
{"id": "C76", "title": "The transform and untransform commands from arguments to exit status", "statement": "transform from directory a to a new directory b and then untransform from b to a new directory c, as whole processes with any preset, order of options, number of threads and schedule, restore every complete BC1 texture file of a byte for byte in c and change nothing outside b and c. Reading an argument changes no file and makes directories only on the way to the path. A process ends with status 0 whatever becomes of the files, unless an argument is rejected: also if the input does not exist (it is made as an empty directory), cannot be listed, or holds a BC2 texture, whose output is then neither the file nor its transformed version.", "quantifier": "all file systems that are trees, all paths, presets, orders of options, schedules, answers of the operating system and, for the round trip, all files that are complete BC1 textures", "why_tests_cant": "Schedules, file system states and system answers are unbounded, and the property joins two processes, the search for files, the threads and the transformation.", "anchors": ["src/tools/dxt-lossless-transform-cli/src/util/core.rs", "src/tools/dxt-lossless-transform-cli/src/commands/transform/mod.rs", "src/tools/dxt-lossless-transform-cli/src/commands/untransform/mod.rs", "src/tools/dxt-lossless-transform-cli/src/main.rs"]}
{"id": "C77", "title": "The command debug-endian", "statement": "Whatever the system answers, the command changes nothing outside the directory tmp of the workspace. It tests exactly the files below assets/tests whose name ends in .dds and whose header announces a BC1 or BC2 texture, each once, in the order of their names. It gives up first if a tool is missing, unless the check is skipped. It succeeds only if for every test file both builds ended with status zero, forward and back, and both comparisons found no difference. If the tools work and the system refuses nothing it ends, succeeds if every test file is complete, reports failed tests if one is truncated, and leaves all files as they were and at most the directory tmp more. If the test files cannot be listed it reports success. Two generated directory names are equal only if made at the same time by the same process with the same suffix.", "quantifier": "all workspaces, file systems, answers of the system, machines and clocks; for the verdict all finite trees of directories in which the system refuses nothing", "why_tests_cant": "The command needs cross compilers and an emulator to run at all; file systems, failures and names are unbounded.", "anchors": ["src/tools/dxt-lossless-transform-cli/src/commands/debug_endian/mod.rs", "src/tools/dxt-lossless-transform-cli/src/commands/debug_endian/endian_test.rs", "src/tools/dxt-lossless-transform-cli/src/commands/debug_endian/tool_check.rs", "src/tools/dxt-lossless-transform-cli/src/commands/debug_endian/file_compare.rs"]}
{"id": "C78", "title": "Scratch memory is released exactly once", "statement": "FixedRawAllocArray::new either fails and leaves exactly the blocks live that were live before, or succeeds with N new blocks of the requested size whose pointers get_pointer_slice returns in order, 64-byte aligned, not null and overlapping nothing; dropping it releases them. No slot is dropped or read before it is written and no block is released twice. transform_bc1_auto, transform_bc2_auto, transform_bc3_auto and transform_bc1_auto_with_normalization leave exactly the blocks live that were live before, on every path: success, failure of any of the allocations, failure of the estimator.", "quantifier": "all N, sizes, allocators (succeeding and failing at any request), allocator states, data, estimators and machines", "why_tests_cant": "Allocation failures cannot be produced systematically by tests, and the clean-up path of the array uses MaybeUninit by hand, where a mistake is undefined behaviour.", "anchors": ["src/core/dxt-lossless-transform-common/src/allocate.rs", "src/core/dxt-lossless-transform-bc1/src/experimental/normalize_blocks/transform.rs", "src/core/dxt-lossless-transform-bc1/src/transform/transform_auto.rs", "src/core/dxt-lossless-transform-bc2/src/transform/transform_auto.rs", "src/core/dxt-lossless-transform-bc3/src/transform/transform_auto.rs"]}
{"id": "C79", "title": "Memory taken by the automatic transforms", "statement": "Beyond what was live before, transform_bcN_auto never has more bytes live at one time than the estimator asked for, and transform_bc1_auto_with_normalization never more than the larger of six and a half times the data plus one scratch buffer and two scratch buffers. The documented figures (three times the data without, six times with normalization) are exceeded.", "quantifier": "all data, estimators whose requests are at most K, allocators, allocator states and machines", "why_tests_cant": "The peak depends on the order of releases on every path and on the answers of the estimator and the allocator.", "anchors": ["src/core/dxt-lossless-transform-bc1/src/experimental/normalize_blocks/transform.rs", "src/core/dxt-lossless-transform-bc1/src/transform/transform_auto.rs"]}
{"id": "C80", "title": "When the DDS handler panics", "statement": "transform_bundle of the DDS handler panics exactly if the output is not shorter than the input, the input is a DDS file, and (a) overflow checks are on and a mip level needs 4 GiB or more, or (b) header size plus reported size exceeds usize::MAX and overflow checks are on or the format is BC1, BC2, RGBA8888, BGRA8888 or BGR888, or (c) the file has data after the texture, the output is longer than the file and the same call with an output of the length of the file succeeds. untransform panics under the same conditions without the one on the format and whatever the first four bytes are; detection and the format query only under (a), block extraction under (a), and under (b) if the filter lets the format pass.", "quantifier": "all byte strings, output lengths, bundles, estimators, filters and CPU feature sets; both settings of overflow checks; addresses of at least 32 bits", "why_tests_cant": "An equivalence over all headers and sizes; needs 32-bit hosts and debug builds.", "anchors": ["src/extensions/file-formats/dxt-lossless-transform-dds/src/handler/file_format_handler.rs", "src/extensions/file-formats/dxt-lossless-transform-dds/src/dds/parse_dds.rs", "src/extensions/file-formats/dxt-lossless-transform-dds/src/handler/file_format_block_extraction.rs"]}
{"id": "C81", "title": "Which files are transformed DDS files", "statement": "A byte string is written by transform_bundle of the DDS handler, for some file, bundle and output buffer of the file's size, exactly if untransform accepts it, the number in its first four bytes is below 512, and this number states the format (BC1 or BC2) that the DDS header has. A file that untransform accepts, and whose first bytes state the format of its header, is turned back into itself by transform with the settings stated there, except that bits 9 to 31 of the first four bytes become zero, or the call panics because the build checks for overflow and a mip level has 4 GiB or more.", "quantifier": "all byte strings, bundles, buffers and settings; any two platforms of the same byte order with addresses of at least 32 bits, with or without overflow checks", "why_tests_cant": "An equivalence between two sets of files; a test sees only files that the library itself has written.", "anchors": ["src/extensions/file-formats/dxt-lossless-transform-dds/src/handler/file_format_handler.rs", "src/api/dxt-lossless-transform-file-formats-api/src/embed/formats/bc1.rs", "src/api/dxt-lossless-transform-file-formats-api/src/handlers/dispatch.rs"]}
{"id": "C82", "title": "The fuzz targets never fail", "statement": "No input block makes one of the normalization targets or the BC1/BC2 colour comparison target of the fuzz directory fail. The BC2 and BC3 normalization targets would not fail either if they did not skip the blocks with color0 <= color1. A decoder target returns exactly if the foreign decoder gives the sixteen pixels of the block format, for every block for BC1 and for the blocks with color0 > color1 for BC2 and BC3.", "quantifier": "all blocks of 8 or 16 bytes, all foreign decoders", "why_tests_cant": "A fuzzer tries a finite number of the 2^64 or 2^128 blocks; the statement is about all of them and says what a run without failure proves about the foreign decoder.", "anchors": ["src/fuzz/fuzz_targets/bc1_normalize.rs", "src/fuzz/fuzz_targets/bc1_normalize_all_modes.rs", "src/fuzz/fuzz_targets/bc1_normalize_in_place.rs", "src/fuzz/fuzz_targets/bc1_decode.rs", "src/fuzz/fuzz_targets/bc2_normalize.rs", "src/fuzz/fuzz_targets/bc2_normalize_all_modes.rs", "src/fuzz/fuzz_targets/bc2_normalize_in_place.rs", "src/fuzz/fuzz_targets/bc2_decode.rs", "src/fuzz/fuzz_targets/bc2_decode_color_only.rs", "src/fuzz/fuzz_targets/bc3_normalize.rs", "src/fuzz/fuzz_targets/bc3_normalize_all_modes.rs", "src/fuzz/fuzz_targets/bc3_normalize_in_place.rs", "src/fuzz/fuzz_targets/bc3_decode.rs"]}
{"id": "C83", "title": "Each block has its own bytes of the transformed texture", "statement": "In a transformed texture every byte belongs to exactly one block, known from the number of blocks and the widths of the sections alone. Two textures have the same block number i exactly if their transforms have the same bytes at the places of block i; two byte strings have the same bytes at these places exactly if untransforming them gives textures with the same block number i. In particular one wrong byte in a transformed texture makes exactly one block of the restored texture wrong.", "quantifier": "all byte strings of whole blocks, all settings of BC1, BC2 and BC3, all CPU feature sets of one byte order, all blocks, all byte positions", "why_tests_cant": "A statement about pairs of textures that differ in any way; a round trip test never compares two textures and would not notice that a kernel mixes neighbouring blocks in an invertible way.", "anchors": ["src/core/dxt-lossless-transform-bc1/src/transform/transform_with_settings.rs", "src/core/dxt-lossless-transform-bc2/src/transform/transform_with_settings.rs", "src/core/dxt-lossless-transform-bc3/src/transform/transform_with_settings.rs"]}
{"id": "C84", "title": "The automatic choice of settings depends on the end points only", "statement": "Two textures of the same length whose blocks have the same colour end points (for BC3 also the same alpha end points) get the same settings, or the same error, from transform_bc1_auto, transform_bc2_auto and transform_bc3_auto, whatever their indices and (for BC2) alpha values are, and leave the estimator in the same state. Two DDS files with such textures, transformed with the same bundle, get the same tag.", "quantifier": "all pairs of textures, all estimators including stateful and failing ones, all allocators, previous contents of the output buffers, both search modes, all CPU feature sets of one byte order", "why_tests_cant": "A non-interference statement: it compares all pairs of runs that differ in data that the search must not look at.", "anchors": ["src/core/dxt-lossless-transform-bc1/src/transform/transform_auto.rs", "src/core/dxt-lossless-transform-bc2/src/transform/transform_auto.rs", "src/core/dxt-lossless-transform-bc3/src/transform/transform_auto.rs"]}
{"id": "C85", "title": "Overflow checks change nothing in the scalar arithmetic", "statement": "A build with overflow checks computes the same results as a release build and never panics in the colour decorrelation and recorrelation of all variants, in the BC1, BC2 and BC3 block decoders (for every usize of at least 16 bits) and in extract_msb_bits and insert_msb_bits. transform_bc3_auto, whose sum of two estimates can overflow, returns with overflow checks only what it returns without, never panics in the sum if the estimator answers at most half of usize::MAX, and does panic for an estimator that always answers usize::MAX.", "quantifier": "all colours, all blocks and positions, all u8 arguments, all estimators, inputs, allocators and CPU feature sets", "why_tests_cant": "Absence of overflow is a claim about every input; the tests run a few blocks, in one build profile.", "anchors": ["src/core/dxt-lossless-transform-common/src/color_565/decorrelate.rs", "src/core/dxt-lossless-transform-bc1/src/util/bc1_decode.rs", "src/core/dxt-lossless-transform-bc2/src/util/bc2_decode.rs", "src/core/dxt-lossless-transform-bc3/src/util/bc3_decode.rs", "src/core/dxt-lossless-transform-bc7/src/util/msb_extract_bits.rs", "src/core/dxt-lossless-transform-bc7/src/util/msb_insert_bits.rs", "src/core/dxt-lossless-transform-bc3/src/transform/transform_auto.rs"]}
{"id": "C86", "title": "Compression statistics of a directory do not depend on the order of the threads", "statement": "The command compression-stats analyses the files in threads that share the size cache and the list of results. In every execution no thread panics, the cache holds only true sizes of the data in question at every point (so also the file that is saved), and every result in the list is the one of a file that holds a texture of the format, with the true sizes for the original, for all settings and for the recommendation. If nothing fails, each such file has exactly one result, and two executions with any two truthful caches at the start give the same results up to their order and print the same totals. The totals are the sums over the files of the sizes of the first smallest, the default and the recommended settings, savings are relative to the original, the best settings need at most as much as the default and the recommended ones, and the methods that are named are the at most three most common ones; with overflow checks the summary panics exactly if one of the sums exceeds usize::MAX. The filter by size keeps exactly the files whose length is known and at most the maximum; an algorithm that cannot compress is refused. Every execution comes to an end: at each moment every thread that has not ended can go on, and in one way only, given what it has seen; a thread makes at most 37 (BC1, BC2), 69 (BC1 with normalization) or 101 (BC3) accesses, so that every execution can be continued to one in which all threads have ended and none goes on for ever.", "quantifier": "all directories of files, all interleavings of the accesses of the threads, all truthful caches at the start, all compressors that keep to their documentation, all options, BC1 (with and without normalization), BC2 and BC3; hash collisions between the data in question are excluded by hypothesis", "why_tests_cant": "The number of interleavings of the threads is unbounded, and the command has no tests; a run on a directory shows one of them.", "anchors": ["src/tools/dxt-lossless-transform-cli/src/commands/debug_bc1/calc_compression_stats.rs", "src/tools/dxt-lossless-transform-cli/src/commands/debug_bc2/calc_compression_stats.rs", "src/tools/dxt-lossless-transform-cli/src/commands/debug_bc3/calc_compression_stats.rs", "src/tools/dxt-lossless-transform-cli/src/debug_format/calc_compression_stats_common.rs"]}
{"id": "C87", "title": "The DDS handler in debug builds differs from the release build exactly for empty BC1 textures", "statement": "With debug assertions enabled, transforming and restoring a DDS file does for every input, output buffer, bundle and machine what it does without them, with one exception: the file has a BC1 texture of no bytes (width or height 0). Then restoring panics exactly if the first four bytes say BC1 with split endpoints, the output is not too small and the machine has one of the x86 SIMD kernels; transforming with given settings panics exactly if these split the endpoints and the machine has AVX-512; transforming with the automatic choice panics exactly if the machine has AVX-512, provided the estimator and the allocator do not fail. So a file that any build transformed is restored by a debug build unless its texture is empty and was transformed with split endpoints, or a mip level has 4 GiB or more and the restoring build checks for overflow; such a file, which a release build writes with the default settings, is not restored by a debug build on any x86-64 machine.", "quantifier": "all inputs and output buffers, all bundles and estimators, all platforms (32 or 64 bit, with or without overflow checks), all CPU feature sets", "why_tests_cant": "Tests run in debug builds on one CPU and no test file has an empty texture; that nothing else differs is a statement about all files.", "anchors": ["src/api/dxt-lossless-transform-file-formats-api/src/handlers/dispatch.rs: dispatch_untransform", "src/api/dxt-lossless-transform-file-formats-api/src/bundle/mod.rs: dispatch_transform", "src/extensions/file-formats/dxt-lossless-transform-dds/src/handler/file_format_handler.rs", "src/core/dxt-lossless-transform-bc1/src/transform/with_split_colour/untransform/sse2.rs: untransform_with_split_colour"]}
{"id": "C88", "title": "The BC1 transform with normalization in debug builds panics exactly for empty split input and misaligned output", "statement": "With debug assertions enabled transform_bc1_with_normalize_blocks does what it does without them, for all buffers that meet its documented safety conditions (which only recommend an alignment), with exactly two exceptions: it panics if the input is empty and the settings split the endpoints, and if the input is not empty, the output starts at an odd address and the settings decorrelate. transform_bc1_auto_with_normalization on a non-empty input panics exactly if the output starts at an odd address, some block is fully transparent or shows a single RGB565 colour, and the settings it chooses decorrelate; otherwise it does what the release build does. On an empty input it panics exactly if the machine has AVX-512 BW, the allocations succeed, and the estimator answers until the first candidate with split endpoints is tried.", "quantifier": "all inputs, buffers and addresses, all settings, estimators and allocators (with 64-byte aligned memory), all machines", "why_tests_cant": "Test buffers come from the allocator, which never returns odd addresses, and no test is empty; whether the panic occurs depends on the settings that the estimator prefers.", "anchors": ["src/core/dxt-lossless-transform-bc1/src/experimental/normalize_blocks/transform.rs: transform_bc1_with_normalize_blocks", "src/core/dxt-lossless-transform-bc1/src/experimental/normalize_blocks/transform.rs: transform_bc1_auto_with_normalization", "src/core/dxt-lossless-transform-common/src/color_565/decorrelate_batch_ptr.rs: decorrelate_ycocg_r_ptr", "src/core/dxt-lossless-transform-common/src/transforms/split_565_color_endpoints/mod.rs: split_color_endpoints"]}
{"id": "C89", "title": "The automatic transforms use the estimated sizes only to compare them", "statement": "If each answer of an estimator is replaced by another one such that the order of the answers, and their comparison with usize::MAX, stay the same, the automatic transforms of BC1 and BC2 and that of BC1 with normalization return the same settings or error, write the same bytes and ask the estimator the same questions. For BC3, where two sizes are added, the same holds if the order of the sums stays the same and no sum reaches usize::MAX; the order of the single sizes is not enough. In particular the unit of the sizes and a constant overhead per answer do not matter.", "quantifier": "all estimators with any internal state, all replacements that keep the order, all inputs, buffers, search modes, machines and allocators", "why_tests_cant": "A test runs one estimator; the property compares the runs of any two estimators that are related by any order-preserving map.", "anchors": ["src/core/dxt-lossless-transform-bc1/src/transform/transform_auto.rs: transform_bc1_auto", "src/core/dxt-lossless-transform-bc2/src/transform/transform_auto.rs: transform_bc2_auto", "src/core/dxt-lossless-transform-bc3/src/transform/transform_auto.rs: transform_bc3_auto", "src/core/dxt-lossless-transform-bc1/src/experimental/normalize_blocks/transform.rs: transform_bc1_auto_with_normalization"]}
{"id": "C90", "title": "Threads that share the size cache neither race nor wait for ever", "statement": "With any number of threads calling the cached size estimation and the cached compression, in any interleaving of their single steps, including steps inside of the critical sections: no thread is inside the map of the size cache while another one changes it; a step that looks into the map or changes it is made by the thread that holds the lock; at most one thread is in a critical section; a call that has not ended can go on, or it waits for a thread that can, and the thread that holds the lock gives it back after at most three steps of its own; and everything that the threads share and return is as in some execution in which each critical section is a single step, so each returned size is an estimated, compressed or loaded one for the same content hash, level and algorithm.", "quantifier": "all interleavings of the steps of any number of calls, all contents of the cache at the start, all answers of estimator, compressor and operating system", "why_tests_cant": "Races and deadlocks depend on the schedule; a test sees a few schedules out of infinitely many.", "anchors": ["src/tools/dxt-lossless-transform-cli/src/debug_format/compression/helpers.rs: calc_size_with_cache_and_estimation_algorithm", "src/tools/dxt-lossless-transform-cli/src/debug_format/compression/helpers.rs: compress_data_cached", "src/tools/dxt-lossless-transform-cli/src/debug_format/estimation/mod.rs: CachedSizeEstimator::estimate_compressed_size", "src/tools/dxt-lossless-transform-cli/src/debug_format/compression_size_cache.rs: CompressionSizeCache"]}
{"id": "C91", "title": "A file that does not fit into the address space is taken for its beginning", "statement": "Where usize is narrower than a file size, each function that reads a file (to file or to slice, one handler or several, transforming or restoring) answers for a longer file and changes the world exactly as if a multiple of the size of the address space were cut off at the end of the file. So transforming and restoring such a DDS file succeed, without an error, and give back only its beginning.", "quantifier": "all files, handlers, bundles, operating system answers and widths of usize; for the consequence the restoring build checks for overflow only if the transforming one does", "why_tests_cant": "Needs files over 4 GiB on 32 bit machines.", "anchors": ["src/api/dxt-lossless-transform-file-formats-api/src/file_io/lightweight_mmap/file.rs", "src/api/dxt-lossless-transform-file-formats-api/src/file_io/lightweight_mmap/file_to_slice.rs"]}
{"id": "C92", "title": "What the automatic transforms ask the size estimator", "statement": "An automatic transform asks the estimator for one size bound, for half of the data (BC1) or a quarter (BC2, BC3), and then for one estimate per candidate in the fixed test order (BC3: two, of the alpha and of the colour end points). Each estimate of BC1 and BC2 is for exactly as many bytes as the bound was asked for, those of BC3 are for an eighth and a quarter of the data in turn, and each has a scratch buffer of exactly the size that the estimator has answered. No question follows a failure, and settings are only returned after all questions have been answered. The automatic BC1 transform with normalization asks for one bound and then, if a block can be normalized, for three estimates per candidate whether the estimator fails or not, otherwise all questions of the BC1 transform, so a second bound. The promises of the trait documentation that the scratch buffer is never null and that all inputs of a batch have one length do not hold.", "quantifier": "all estimators with any internal state that may fail at any question, all inputs, output buffers, search modes, machines and allocators", "why_tests_cant": "A test sees the questions for one texture and one behaviour of the estimator; failures can come at any question.", "anchors": ["src/core/dxt-lossless-transform-bc1/src/transform/transform_auto.rs: transform_bc1_auto", "src/core/dxt-lossless-transform-bc2/src/transform/transform_auto.rs: transform_bc2_auto", "src/core/dxt-lossless-transform-bc3/src/transform/transform_auto.rs: transform_bc3_auto", "src/core/dxt-lossless-transform-bc1/src/experimental/normalize_blocks/transform.rs: transform_bc1_auto_with_normalization", "src/api/dxt-lossless-transform-api-common/src/estimate/mod.rs: SizeEstimationOperations"]}
{"id": "C93", "title": "Damage in a transformed DDS file stays where it is", "statement": "If a transformed DDS file can be restored, then so can every file of the same length with the same header and first four bytes. Header and data after the texture come back as they are, and a block of the texture comes back right exactly if the bytes that belong to it in the transformed file are right. So one wrong byte behind the header makes exactly one block wrong, or exactly that byte if it comes after the texture, and of the first four bytes only the lowest nine bits matter; if these name the right format and wrong settings, the file can still be restored and at most the colour end points of the blocks are wrong. Conversely, if two files with one header are transformed with the same settings, exactly the bytes of the blocks in which they differ make the difference.", "quantifier": "all files, all damaged copies of them, all previous buffer contents, all platforms with addresses of at least 32 bits, all bundles and estimators", "why_tests_cant": "All positions and values of the damage in all files.", "anchors": ["src/extensions/file-formats/dxt-lossless-transform-dds/src/handler/file_format_handler.rs: untransform, transform_bundle", "src/api/dxt-lossless-transform-file-formats-api/src/handlers/dispatch.rs: dispatch_untransform", "src/core/dxt-lossless-transform-bc1/src/transform/transform_with_settings.rs: untransform_bc1_with_settings", "src/core/dxt-lossless-transform-bc2/src/transform/transform_with_settings.rs: untransform_bc2_with_settings"]}
{"id": "C94", "title": "What is not decorrelated is only moved", "statement": "In a transformed BC1, BC2 or BC3 texture every section holds, block after block, the bytes that begin at one fixed place in the block, unchanged unless they are colour end points that are decorrelated; the same relation holds between the input of the inverse transform and its output. Without decorrelation the transformed texture consists of the same bytes in another order, at places that depend on their number only; a restored DDS file is, apart from its first four bytes, then a rearrangement of the transformed one, and in every case the four bytes of the tag become those of the magic number and header and data after the texture are the same.", "quantifier": "all textures of whole blocks, all settings, all previous buffer contents, all machines of either byte order with any supported instruction set; for files all files that can be restored and all platforms with addresses of at least 32 bits", "why_tests_cant": "All numbers of blocks and all contents, on code paths that differ between instruction sets.", "anchors": ["src/core/dxt-lossless-transform-bc1/src/transform/transform_with_settings.rs: transform_bc1_with_settings, untransform_bc1_with_settings", "src/core/dxt-lossless-transform-bc2/src/transform/transform_with_settings.rs: transform_bc2_with_settings, untransform_bc2_with_settings", "src/core/dxt-lossless-transform-bc3/src/transform/transform_with_settings.rs: transform_bc3_with_settings, untransform_bc3_with_settings", "src/extensions/file-formats/dxt-lossless-transform-dds/src/handler/file_format_handler.rs: untransform"]}
{"id": "C95", "title": "Textures can be transformed in pieces", "statement": "If a BC1, BC2 or BC3 texture is cut between two blocks and the pieces are transformed with the same settings, then every section of the transformed texture is the section of the first piece followed by that of the second one, also if the pieces are transformed on other machines of the same byte order. Conversely, if a transformed texture is joined from two pieces in this way, then it is restored to what the pieces are restored to, one after the other.", "quantifier": "all textures of whole blocks, all cuts between blocks, all settings, all previous buffer contents, all triples of machines of one byte order with any supported instruction sets", "why_tests_cant": "All sizes of the two pieces; vector kernels treat the blocks differently depending on their number.", "anchors": ["src/core/dxt-lossless-transform-bc1/src/transform/transform_with_settings.rs: transform_bc1_with_settings, untransform_bc1_with_settings", "src/core/dxt-lossless-transform-bc2/src/transform/transform_with_settings.rs: transform_bc2_with_settings, untransform_bc2_with_settings", "src/core/dxt-lossless-transform-bc3/src/transform/transform_with_settings.rs: transform_bc3_with_settings, untransform_bc3_with_settings"]}
{"id": "C96", "title": "Normalized blocks that look the same are the same bytes", "statement": "Of two blocks, of any two textures, that are normalized with the same modes other than none, let the first one be recognised by the normalization: BC1, transparent or of one RGB565 colour; BC2, colours of one RGB565 colour; BC3, also of one alpha value. Then the normalized blocks are the same bytes exactly if all sixteen pixels of the blocks are the same. Two BC1 blocks of one colour that is not an RGB565 colour may look the same and stay different.", "quantifier": "all pairs of textures, all block indices, all previous buffer contents, in place or not, all modes other than none", "why_tests_cant": "All pairs of blocks: two to the 128 of them already for BC1.", "anchors": ["src/core/dxt-lossless-transform-bc1/src/experimental/normalize_blocks/normalize.rs: normalize_blocks", "src/core/dxt-lossless-transform-bc2/src/experimental/normalize_blocks/normalize.rs: normalize_blocks", "src/core/dxt-lossless-transform-bc3/src/experimental/normalize_blocks/normalize.rs: normalize_blocks"]}
{"id": "C97", "title": "Files do not depend on the CPU or on what the output held before", "statement": "On two CPUs of one byte order the safe automatic transforms of BC1, BC2 and BC3, the DDS handler in all its four functions, and the commands transform and untransform do exactly the same: the same output bytes, the same results and errors, the same estimator state, the same panics, and for a command the same possible final states of the file system and exit statuses. For output slices of the same length with different contents, the DDS handler returns the same result and leaves the same estimator state, and if it succeeds the bytes of the file are the same.", "quantifier": "all inputs, bundles, estimators with any state, allocators, output buffers, CPU feature sets, file systems and schedules; 32-bit and wider address spaces", "why_tests_cant": "A test machine has one CPU and a fresh buffer; the claim is about all pairs of feature sets, all buffer contents and all estimators, on the error paths as well.", "anchors": ["src/api/dxt-lossless-transform-file-formats-api/src/handlers/dispatch.rs: dispatch_untransform", "src/api/dxt-lossless-transform-file-formats-api/src/bundle/mod.rs: dispatch_transform", "src/core/dxt-lossless-transform-bc1/src/transform/transform_auto.rs: transform_bc1_auto"]}
{"id": "C98", "title": "Settings are not interchangeable", "statement": "Untransforming with settings s' restores every texture of n blocks that was transformed with s exactly if n is zero, or the decorrelation variants are equal and the splits are equal as well, where a difference in the splits does not matter for n = 1. So every part of the settings that the header stores is needed, for BC1, BC2 and BC3, and no two candidates of the automatic search are the same transform on more than one block.", "quantifier": "all pairs of settings, all numbers of blocks, all previous buffer contents, all machines of one byte order", "why_tests_cant": "One direction is about all textures; the other one holds for every number of blocks.", "anchors": ["src/core/dxt-lossless-transform-bc1/src/transform/transform_with_settings.rs: transform_bc1_with_settings", "src/core/dxt-lossless-transform-bc2/src/transform/transform_with_settings.rs: transform_bc2_with_settings", "src/core/dxt-lossless-transform-bc3/src/transform/transform_with_settings.rs: transform_bc3_with_settings"]}
{"id": "C99", "title": "What becomes of a file depends on its bytes alone", "statement": "Two executions of the transform command with the same settings, or of the untransform command, at any times, in any directories, on operating systems with any answers, with any CPUs of one byte order, any number of threads and any schedule, whatever lay in the output directories before. If a file of one and a file of the other hold the same bytes and both are converted with success, the two output files are equal byte for byte. If the names have the same extension the two results are equal as well (converted, refused with the same error, or panic), unless the operating system fails in one of them. So repeating a successful command leaves every file as it is.", "quantifier": "all files, directories, listings, operating system answers, previous contents, CPUs of one byte order, schedules, settings and estimators, both commands; files that fit into the address space and are not themselves an output of the same command (finding of C38, C39), addresses of more than 32 bits", "why_tests_cant": "Hidden inputs (previous contents of the output file, other files, time, threads, CPU) have to be excluded, not sampled.", "anchors": ["src/tools/dxt-lossless-transform-cli/src/commands/transform/mod.rs: process_file_transform", "src/tools/dxt-lossless-transform-cli/src/commands/untransform/mod.rs: process_file_untransform", "src/api/dxt-lossless-transform-file-formats-api/src/file_io/lightweight_mmap/file.rs: transform_file_with_multiple_handlers", "src/api/dxt-lossless-transform-file-formats-api/src/file_io/lightweight_mmap/file.rs: untransform_file_with_multiple_handlers"]}
{"id": "C100", "title": "Different files stay different", "statement": "If two DDS files are transformed with success, perhaps with different settings, different estimators and on different platforms of one byte order, and the two transformed files are equal, then the original files are equal. So transformed files can be compared or deduplicated without knowing how they were made. The transform command inherits this for any two executions. Between machines of different byte order it is false: two different files can become the same transformed file.", "quantifier": "all pairs of files, bundles (manual or automatic), estimators, previous buffer contents, platforms of one byte order with addresses of at least 32 bits; all pairs of executions of the command, with files that fit into the address space and are not themselves an output of the same command, addresses of more than 32 bits", "why_tests_cant": "A collision would have to be found among pairs of arbitrary files.", "anchors": ["src/extensions/file-formats/dxt-lossless-transform-dds/src/handler/file_format_handler.rs: transform_bundle", "src/extensions/file-formats/dxt-lossless-transform-dds/src/handler/file_format_handler.rs: untransform", "src/tools/dxt-lossless-transform-cli/src/commands/transform/mod.rs: process_file_transform"]}
{"id": "C101", "title": "The work of reading a DDS header", "statement": "Parsing a DDS header passes through the loop over the mip levels as often as the header states levels (never, if the format has no size; fewer times only if it panics), and not at all for inputs that are not DDS files. The number of passes exceeds the reported texture size by at most 32, so for a file that holds its whole texture it is less than the length of the file. It is not bounded by the length in general: for every number from 1 to 2^32-1 there is a file of 128 bytes which costs that many passes in the parser and in the questions whether the handler takes the file for transformation or untransformation.", "quantifier": "all inputs, all platforms, with and without overflow checks", "why_tests_cant": "The tests look at results, not at the work done; the number of passes ranges over all 32-bit numbers.", "anchors": ["src/extensions/file-formats/dxt-lossless-transform-dds/src/dds/parse_dds.rs: parse_dds", "src/extensions/file-formats/dxt-lossless-transform-dds/src/dds/parse_dds.rs: parse_dds_ignore_magic", "src/extensions/file-formats/dxt-lossless-transform-dds/src/dds/parse_dds.rs: calculate_data_length_for_block_compression", "src/extensions/file-formats/dxt-lossless-transform-dds/src/dds/parse_dds.rs: calculate_data_length_for_pixel_formats", "src/extensions/file-formats/dxt-lossless-transform-dds/src/handler/file_format_detection.rs: can_handle", "src/extensions/file-formats/dxt-lossless-transform-dds/src/handler/file_format_untransform_detection.rs: can_handle_untransform"]}
{"id": "C102", "title": "No kernel runs on a CPU without its instructions", "statement": "On every x86 CPU, 32 or 64 bit, whatever extensions it has, transforming and untransforming a BC1, BC2 or BC3 texture and separating the endpoint colours run to the end without using an instruction the CPU lacks, whether the features are detected at run time or are those the program was compiled for; the output is the documented layout, and any other CPU gives the texture back.", "quantifier": "all sets of extensions that obey the implications of the instruction set reference, all answers that claim nothing the CPU lacks, all textures, all settings", "why_tests_cant": "Tests run on the CPU at hand and skip the kernels it cannot run; they never call a dispatcher on a CPU with a chosen set of extensions.", "anchors": ["src/core/dxt-lossless-transform-common/src/cpu_detect.rs: has_avx512f", "src/core/dxt-lossless-transform-common/src/cpu_detect.rs: has_avx512bw", "src/core/dxt-lossless-transform-common/src/cpu_detect.rs: has_sse2", "src/core/dxt-lossless-transform-common/src/transforms/split_565_color_endpoints/mod.rs: split_color_endpoints_x86", "src/core/dxt-lossless-transform-bc1/src/transform/with_recorrelate/transform/mod.rs: transform_with_decorrelate_x86", "src/core/dxt-lossless-transform-bc2/src/transform/with_recorrelate/transform/avx512bw.rs: transform_decorr", "src/core/dxt-lossless-transform-bc2/src/transform/with_split_colour/transform/avx512bw.rs: transform_with_split_colour", "src/core/dxt-lossless-transform-bc3/src/transform/standard/untransform/mod.rs: untransform_x86", "src/core/dxt-lossless-transform-bc3/src/transform/with_recorrelate/transform/mod.rs: transform_with_decorrelate_x86"]}
{"id": "C103", "title": "Of several surfaces in a DDS file only the first is transformed", "statement": "Whether a DDS file is a cube map, a texture array or a volume has no influence on the DDS handler. (a) A file that holds its first surface is transformed and restored in the same way whatever follows: same settings, same result, same bytes, and on success what follows is copied. (b) In a file that announces several surfaces, all but the first are unchanged in the output. (c) Two files of the same length which differ only in header bytes outside the magic and the fields that describe the first surface (flags, height, width, mip levels, pixel format and, with a DX10 header, the format number) are transformed and restored alike, and the outputs differ only in those bytes.", "quantifier": "all inputs, all outputs, all bundles of settings and estimators, all platforms (c: addresses of more than 32 bits; b: surfaces of less than 4 GiB)", "why_tests_cant": "The repository's DDS tests contain no cube map, array or volume; which header bytes matter is a statement about all pairs of files.", "anchors": ["src/extensions/file-formats/dxt-lossless-transform-dds/src/dds/parse_dds.rs: parse_dds_ignore_magic", "src/extensions/file-formats/dxt-lossless-transform-dds/src/dds/parse_dds.rs: parse_dds", "src/extensions/file-formats/dxt-lossless-transform-dds/src/dds/parse_dds.rs: calculate_data_length", "src/extensions/file-formats/dxt-lossless-transform-dds/src/handler/file_format_handler.rs: transform_bundle", "src/extensions/file-formats/dxt-lossless-transform-dds/src/handler/file_format_handler.rs: untransform"]}
{"id": "C104", "title": "Grey colours have no chroma", "statement": "In a texture transformed with one of the three decorrelation variants, both chroma values of an end point colour are zero exactly if red, blue and the upper five bits of green of the original colour are equal, and then the luma is that value. So if all end points are grey, the low byte of every stored end point is 0 with variant 2, 0 or 32 with variant 1, and 0 or 1 with variant 3.", "quantifier": "all textures (BC1, BC2, BC3) of any number of blocks, all settings with decorrelation, all little-endian machines, any previous content of the output; and the textures of all transformed DDS files whose tag names a decorrelation", "why_tests_cant": "Which inputs give zero chroma is a statement about all colours at all positions of textures of any length; the tests compare a few colours and the round trip.", "anchors": ["src/core/dxt-lossless-transform-common/src/color_565/decorrelate.rs", "src/core/dxt-lossless-transform-bc1/src/transform/mod.rs", "src/core/dxt-lossless-transform-bc2/src/transform/mod.rs", "src/core/dxt-lossless-transform-bc3/src/transform/mod.rs"]}
{"id": "C105", "title": "The C API creates and releases exactly what it says", "statement": "Each call of the C API that returns a builder or an estimator (new, clone, and a successful automatic transform through its output variable) hands out exactly one new object, each free call with a non-null pointer releases exactly one, and no other call (in particular no failing one) creates or releases any. So in every sequence of calls, for every address, objects at the beginning plus pointers handed out equal pointers given back plus objects at the end: a caller who gives back every builder once leaves none behind, and a pointer can be given back exactly if it was handed out more often than it was given back.", "quantifier": "all call histories of the BC1 and BC2 C API with manual builders, automatic builders and LTU estimators, all arguments including null pointers, all answers of the allocator, all buffers and estimators", "why_tests_cant": "Call sequences are unbounded, and a leak on an error path has no effect on any result that a test compares.", "anchors": ["src/api/dxt-lossless-transform-bc1-api/src/c_api/transform/manual_transform_builder.rs", "src/api/dxt-lossless-transform-bc2-api/src/c_api/transform/manual_transform_builder.rs", "src/api/dxt-lossless-transform-bc1-api/src/c_api/transform/auto_transform_builder.rs", "src/api/dxt-lossless-transform-bc2-api/src/c_api/transform/auto_transform_builder.rs"]}
{"id": "C106", "title": "The parallel dry run of the benchmark leaves a cache that the benchmark can rely on", "statement": "The benchmark commands first transform and compress every file in parallel, with threads that share the two caches, and then measure file by file. However the steps of the threads are interleaved, whatever the estimators answer and whichever calls fail: no thread panics and no call does; when the dry run is over and no write to the cache has stopped half-way, the cache holds for the textures and their transforms only files that decompress to them and everything it held before, and the measured part then runs to its end with every run of untransform restoring its texture and a result for each texture in order. If nothing fails and nothing runs out, the cache has after the dry run a file for every texture and for each of its transforms with the fixed settings of the benchmark. From every state of a dry run without failures its end can be reached, so no thread ever waits for another.", "quantifier": "all directories of files below 4 GiB with any contents, all interleavings, all answers of estimators, allocator and operating system, all caches at the beginning that hold only what decompresses to the data, all options with the zstd algorithm, BC1 (with and without normalization), BC2 and BC3, any iterations other than zero; release build, addresses of more than 32 bits, no hash collisions among the data, a zstd that undoes what it did", "why_tests_cant": "Interleavings of unboundedly many threads over shared caches; two threads that write the same cache file at once happen only with equal textures and unlucky timing.", "anchors": ["src/tools/dxt-lossless-transform-cli/src/commands/debug_bc1/benchmark.rs", "src/tools/dxt-lossless-transform-cli/src/commands/debug_bc2/benchmark.rs", "src/tools/dxt-lossless-transform-cli/src/commands/debug_bc3/benchmark.rs", "src/tools/dxt-lossless-transform-cli/src/debug_format/compressed_data_cache.rs", "src/tools/dxt-lossless-transform-cli/src/debug_format/compression/helpers.rs"]}
{"id": "C107", "title": "The wrappers around zstd", "statement": "The size estimator and the debug commands each have their own wrapper around the C library zstd. Whatever zstd answers, a wrapper never calls it with a null pointer or with a context that was released; it releases exactly the one context it creates, also when zstd fails, and leaves all others alone; it passes the size or the error code on. What the debug commands compressed at any level their decompression turns back into the same bytes. Both give zstd as much room as it asks for, so that they get a result whenever zstd keeps its promise about that. For data and a level that the estimator accepts, the size it gives is exactly the number of bytes which the compression of the debug commands makes, and it fails exactly if that fails; for no data and for other levels this is not so.", "quantifier": "all libraries that keep what zstd.h promises (fresh contexts, writes within the destination, decompression in the same format undoes compression), all data, levels, contents of new memory and contexts of others", "why_tests_cant": "A leaked or doubly released context and a call with a null pointer show only when zstd fails; that two wrappers with separate parameter lists agree must hold for all data and levels.", "anchors": ["src/extensions/compressors/dxt-lossless-transform-zstd/src/lib.rs", "src/tools/dxt-lossless-transform-cli/src/debug_format/compression/zstd/zstd_raw.rs", "src/tools/dxt-lossless-transform-cli/src/debug_format/compression/zstd/mod.rs"]}
{"id": "C108", "title": "Documented calls of block normalization in debug builds", "statement": "A call of normalize_blocks or normalize_blocks_all_modes that its documentation allows (the length a multiple of the block size, each output buffer either the input itself or without a byte in common with it) returns in a debug build what it returns in a release build. A call with buffers that partly overlap panics there.", "quantifier": "BC1, BC2 and BC3, all addresses, lengths, modes and data", "why_tests_cant": "The tests use a few separate buffers; all placements of buffers in memory must be considered.", "anchors": ["src/core/dxt-lossless-transform-bc1/src/experimental/normalize_blocks/normalize.rs: normalize_blocks_all_modes", "src/core/dxt-lossless-transform-bc2/src/experimental/normalize_blocks/normalize.rs: normalize_blocks_all_modes", "src/core/dxt-lossless-transform-bc3/src/experimental/normalize_blocks/normalize.rs: normalize_blocks_all_modes"]}
{"id": "C109", "title": "The container does not influence the transform", "statement": "Two DDS files of the same block format that hold the same texture data (less than 4 GiB), whatever else is in them (old or DX10 header, one level or several, other dimensions, other data behind the texture), are transformed alike: the same result, the same settings in the first four bytes, the same transformed texture, the same state of the estimator. Two transformed files with the same first four bytes and the same texture data are restored to the same texture, even if their headers name different formats.", "quantifier": "all pairs of files, bundles, estimators, output contents", "why_tests_cant": "A relation between all pairs of files with the same texture; the tests transform single files and compare with the original.", "anchors": ["src/extensions/file-formats/dxt-lossless-transform-dds/src/handler/file_format_handler.rs: transform_bundle", "src/extensions/file-formats/dxt-lossless-transform-dds/src/handler/file_format_handler.rs: untransform"]}
{"id": "C110", "title": "The colours of BC2 and BC3 are handled as a BC1 texture", "statement": "The second half of a BC2 or BC3 texture transformed with given settings is what the BC1 transform with the same colour settings makes of its colour blocks (the last eight bytes of each block), and what is restored from it has the colour blocks that the BC1 function restores from that half. The automatic BC2 transform chooses the settings, reports the errors and leaves the estimator in the state that the automatic BC1 transform of the colour blocks does.", "quantifier": "all textures, settings, estimators with state, CPUs of the same byte order", "why_tests_cant": "Three crates with kernels of their own are compared for all inputs, and two searches for all estimators; the tests look at each crate alone.", "anchors": ["src/core/dxt-lossless-transform-bc1/src/transform/transform_with_settings.rs: transform_bc1_with_settings", "src/core/dxt-lossless-transform-bc2/src/transform/transform_with_settings.rs: transform_bc2_with_settings", "src/core/dxt-lossless-transform-bc3/src/transform/transform_with_settings.rs: transform_bc3_with_settings", "src/core/dxt-lossless-transform-bc2/src/transform/transform_auto.rs: transform_bc2_auto"]}
{"id": "C111", "title": "The settings are separate steps", "statement": "A texture transformed with decorrelation is the texture transformed without it, with decorrelate_ycocg_r_slice applied to the section of the end points; recorrelate_ycocg_r_slice leads back. A texture transformed with separated end points is the texture transformed without separation, with split_color_endpoints applied to that section. All other bytes are the same for all of these settings.", "quantifier": "BC1, BC2 and BC3, all textures, variants, CPUs and buffer contents", "why_tests_cant": "Each combination of settings has kernels of its own; the tests compare each with a reference on a few lengths, not the kernels with each other for all inputs.", "anchors": ["src/core/dxt-lossless-transform-bc1/src/transform/transform_with_settings.rs: transform_bc1_with_settings", "src/core/dxt-lossless-transform-bc2/src/transform/transform_with_settings.rs: transform_bc2_with_settings", "src/core/dxt-lossless-transform-bc3/src/transform/transform_with_settings.rs: transform_bc3_with_settings", "src/core/dxt-lossless-transform-common/src/color_565/decorrelate_batch_slice.rs: decorrelate_ycocg_r_slice", "src/core/dxt-lossless-transform-common/src/color_565/decorrelate_batch_slice.rs: recorrelate_ycocg_r_slice", "src/core/dxt-lossless-transform-common/src/transforms/split_565_color_endpoints/mod.rs: split_color_endpoints"]}
{"id": "C112", "title": "Normalizing again counts as normalizing once with the later mode, for alpha and colours separately", "statement": "Normalizing a texture with normalize_blocks and the result again, in place, with another mode leaves what one call on the original leaves with the later mode, or with the first if the later one is none. For BC3 this holds for the alpha mode and the colour mode each on its own, so they may be applied at once or one after the other, in any order. BC2 and BC3 textures with the same colour blocks have the same colour blocks after normalization with the same colour mode, whatever their alpha and the alpha mode.", "quantifier": "all textures, modes, buffers in place or separate", "why_tests_cant": "Every pair of modes on every content of a block; the tests normalize once, and look at each crate alone.", "anchors": ["src/core/dxt-lossless-transform-bc1/src/experimental/normalize_blocks/normalize.rs: normalize_blocks", "src/core/dxt-lossless-transform-bc2/src/experimental/normalize_blocks/normalize.rs: normalize_blocks", "src/core/dxt-lossless-transform-bc3/src/experimental/normalize_blocks/normalize.rs: normalize_blocks"]}
{"id": "C113", "title": "A directory onto itself", "statement": "transform or untransform with the same directory for --input and --output, under any schedule of the threads and however the process ends: every file holds what it held before, except that files the tool takes for ones it can convert may hold what the system leaves when a file of their size is created in their place; no file is ever converted, and files that are not taken are never touched. If the system refuses nothing and the directory holds a file that is taken, then the process does not come to a regular end: it gets into undefined behaviour (the input mapping and the output mapping are the same file), and by then such a file has been lost.", "quantifier": "all directories, files, presets, listings, schedules, answers of the system and moments at which the process goes wrong", "why_tests_cant": "The loss depends on the order of system calls of several threads on one file; the tests use separate directories.", "anchors": ["src/tools/dxt-lossless-transform-cli/src/commands/transform/mod.rs: process_file_transform", "src/tools/dxt-lossless-transform-cli/src/commands/untransform/mod.rs: process_file_untransform", "src/api/dxt-lossless-transform-file-formats-api/src/file_io/lightweight_mmap/file.rs: transform_file_with_multiple_handlers", "src/api/dxt-lossless-transform-file-formats-api/src/file_io/lightweight_mmap/file.rs: untransform_file_with_multiple_handlers"]}
{"id": "C114", "title": "A command that was killed can be repeated", "statement": "transform or untransform is killed at any moment, with a part of the files done, others begun and perhaps written in part. No input and no file outside of the outputs has changed. If the command is repeated, with other threads and perhaps on another CPU of the same byte order, and converts all files, then every file is in the end what it would be after a single run that was not killed, whatever the killed run has left in the outputs.", "quantifier": "all batches, moments, partial outputs, schedules of the three executions, operating systems, CPUs of one byte order", "why_tests_cant": "A test can kill a process at a few moments of a few schedules; the tests kill none.", "anchors": ["src/tools/dxt-lossless-transform-cli/src/commands/transform/mod.rs: process_file_transform", "src/tools/dxt-lossless-transform-cli/src/commands/untransform/mod.rs: process_file_untransform", "src/api/dxt-lossless-transform-file-formats-api/src/file_io/lightweight_mmap/file.rs: transform_file_with_multiple_handlers"]}
{"id": "C115", "title": "Threads that share no builder may call the C API in any order", "statement": "Threads call the C API, each in its own order. If no thread writes what another one uses (a builder may be used by several threads for transforms only, estimators without state, such as LTU, and inputs may be shared), then every thread gets the same replies and the process ends in the same state, whatever the order in which the calls of the threads follow each other; and if one order is within the contract then all are. With a shared builder that one thread changes, the bytes stored depend on the order.", "quantifier": "all processes, numbers of threads, sequences of calls, interleavings of whole calls, estimators, addresses, CPUs, BC1 and BC2", "why_tests_cant": "Tests call the C API from one thread; the orders in which the calls of several threads can follow each other are too many to be run.", "anchors": ["src/api/dxt-lossless-transform-bc1-api/src/c_api/transform/manual_transform_builder.rs: dltbc1_ManualTransformBuilder_Transform", "src/api/dxt-lossless-transform-bc1-api/src/c_api/transform/auto_transform_builder.rs: dltbc1_AutoTransformBuilder_Transform", "src/extensions/estimators/dxt-lossless-transform-ltu/src/c_api.rs: dltltu_new_size_estimator"]}
{"id": "C116", "title": "An automatic builder of the C API works with the flag set last and the estimator it was made with", "statement": "After any sequence of calls, an automatic builder has the estimator that was at the address passed when it was made, even if that was freed or overwritten since, and the flag that was passed to SetUseAllDecorrelationModes last, false if none was. Transform does with them what the automatic core function does: the same bytes, the same questions to the estimator and the same result, and on success the new manual builder has the settings that the core function reports.", "quantifier": "all sequences of calls, estimators, addresses, data, CPUs, BC1 and BC2", "why_tests_cant": "Tests set the flag once on a new builder and look at the result code; they do not try sequences of calls.", "anchors": ["src/api/dxt-lossless-transform-bc1-api/src/c_api/transform/auto_transform_builder.rs: dltbc1_AutoTransformBuilder_SetUseAllDecorrelationModes", "src/api/dxt-lossless-transform-bc1-api/src/c_api/transform/auto_transform_builder.rs: dltbc1_new_AutoTransformBuilder", "src/api/dxt-lossless-transform-bc1-api/src/c_api/transform/auto_transform_builder.rs: dltbc1_AutoTransformBuilder_Transform"]}
{"id": "C117", "title": "In the parallel dry run of the benchmark commands a file is given up at the first failure", "statement": "In every state that the dry run can reach, with any interleaving of its threads, any contents of the caches and any failures of estimators, compressors and the file system: if a call of the cached functions made for a file has ended with an error, it is the last call for this file, and none is under way for it. For debug-bc1 with --experimental-normalize this holds for compressions; after an estimate that failed the search goes on with the next candidate.", "quantifier": "all files, options, cache contents, executions of the threads and failures; BC1, BC2, BC3", "why_tests_cant": "Failures of the estimator or the compressor in the middle of a parallel run do not occur in tests, and the benchmark commands have none.", "anchors": ["src/tools/dxt-lossless-transform-cli/src/commands/debug_bc1/benchmark.rs: process_file", "src/tools/dxt-lossless-transform-cli/src/commands/debug_bc1/benchmark.rs: process_scenario", "src/core/dxt-lossless-transform-bc1/src/experimental/normalize_blocks/transform.rs: test_normalize_variant_with_normalization"]}
{"id": "C118", "title": "Colours that differ in brightness only have the same chroma", "statement": "In a transformed texture, with any of the three decorrelation variants, two colour end points (of the same or of different blocks) have the same Co and Cg bits exactly if red, the upper five bits of green, and blue of the original colours differ by the same amount modulo 32; then their luma values differ by this amount modulo 32.", "quantifier": "all textures, pairs of end points, variants, settings, little-endian CPUs; BC1, BC2, BC3; and the textures of all transformed DDS files whose tag names a decorrelation", "why_tests_cant": "Tests check round trips; a decorrelation with other chroma values would pass them and compress worse.", "anchors": ["src/core/dxt-lossless-transform-common/src/color_565/decorrelate.rs: decorrelate_ycocg_r_var1", "src/core/dxt-lossless-transform-bc1/src/transform/mod.rs", "src/core/dxt-lossless-transform-bc2/src/transform/mod.rs", "src/core/dxt-lossless-transform-bc3/src/transform/mod.rs"]}
{"id": "C119", "title": "The decorrelation variants store the same bits in another order", "statement": "A texture transformed with two of the three decorrelation variants, all other settings being equal, gives outputs that agree in every byte outside the colours; and each colour end point has, in both, the same 16 bits at places that depend on the variant only (the low bit of green stands first in variant 2, last in variant 3, in the middle in variant 1; the order of the others is the same). So the number of set bits of each colour is the same. A transformed texture can therefore be switched to another variant by moving bits alone: the untransform with that variant restores the original. For DDS files: a file that is transformed successfully with one variant is so with the others, and the results agree but for the tag in the first four bytes and the bit order of the colours.", "quantifier": "all textures, end points, variants, settings, little-endian CPUs; BC1, BC2, BC3; any output buffer that is long enough", "why_tests_cant": "Tests check each variant against its own inverse only; that the variants differ in bit order only (so that choosing one affects nothing but compressibility) is never compared.", "anchors": ["src/core/dxt-lossless-transform-common/src/color_565/decorrelate.rs: decorrelate_ycocg_r_var1", "src/core/dxt-lossless-transform-bc1/src/transform/mod.rs", "src/core/dxt-lossless-transform-bc2/src/transform/mod.rs", "src/core/dxt-lossless-transform-bc3/src/transform/mod.rs", "src/extensions/file-formats/dxt-lossless-transform-dds/src/handler/file_format_handler.rs"]}
{"id": "C120", "title": "Equal colours stay equal, different colours stay different", "statement": "In a transformed texture two colour end points have the same two bytes exactly if they had in the original: the repetitions among the colours are kept, and each colour occurs as often as before.", "quantifier": "all textures, pairs of end points, variants (also none), split settings, whether given or found by the automatic search with any estimator, CPUs of either byte order; BC1, BC2, BC3; any output buffer that is long enough; and the textures of all DDS files that are transformed", "why_tests_cant": "Round trips of samples do not show that no two of the 65536 colours are ever stored alike at two places of a texture, nor that one colour is stored alike wherever it stands (in a vector lane or in the scalar remainder).", "anchors": ["src/core/dxt-lossless-transform-common/src/color_565/decorrelate.rs: decorrelate_ycocg_r_var1", "src/core/dxt-lossless-transform-bc1/src/transform/mod.rs", "src/core/dxt-lossless-transform-bc2/src/transform/mod.rs", "src/core/dxt-lossless-transform-bc3/src/transform/mod.rs"]}
{"id": "C121", "title": "How a block is stored depends on the block alone", "statement": "With the same settings, a block of one texture and a block of another, or of the same, have the same bytes in every section of the transformed textures exactly if the blocks are equal: the place of the block, the number of blocks, the other blocks and the CPU have no influence, and different blocks are stored differently. Likewise two restored blocks are equal exactly if they were stored alike.", "quantifier": "all pairs of textures of any sizes, pairs of blocks, settings, pairs of CPUs of one byte order; BC1, BC2, BC3; any output buffers that are long enough; and all pairs of DDS files of one format that are transformed with given settings, or with any settings, given or found, when the results begin with the same tag", "why_tests_cant": "Whether a block lies in a vector group, at its edge or in the scalar remainder changes with its place and the number of blocks; no set of sample textures covers all places, sizes and kernels.", "anchors": ["src/core/dxt-lossless-transform-bc1/src/transform/mod.rs", "src/core/dxt-lossless-transform-bc2/src/transform/mod.rs", "src/core/dxt-lossless-transform-bc3/src/transform/mod.rs"]}
{"id": "C122", "title": "With normalization, what looks the same is stored alike", "statement": "After normalization and transform with the same settings, a block that is transparent or of one RGB565 colour (BC2: of one colour with any alpha values; BC3: of one colour and one alpha value) and any other block have the same bytes in every section exactly if all their pixels are equal, however the blocks were encoded.", "quantifier": "all pairs of textures of any sizes, pairs of blocks, normalization modes other than none, settings, pairs of CPUs of one byte order; BC1 with transform_bc1_with_normalize_blocks and the automatic choice with any estimator, BC2 and BC3 by normalizing and transforming", "why_tests_cant": "The tests normalize single blocks; that every encoding of a colour, at any place of any texture, ends in the same bytes after the split and the decorrelation quantifies over all encodings, places and kernels.", "anchors": ["src/core/dxt-lossless-transform-bc1/src/experimental/normalize_blocks/transform.rs", "src/core/dxt-lossless-transform-bc1/src/experimental/normalize_blocks/normalize.rs", "src/core/dxt-lossless-transform-bc2/src/experimental/normalize_blocks/normalize.rs", "src/core/dxt-lossless-transform-bc3/src/experimental/normalize_blocks/normalize.rs"]}
