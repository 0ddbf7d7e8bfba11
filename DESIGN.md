# Formal model of dxt-lossless-transform: design

## Trusted base

* The Lean 4.33.0 kernel. Mathlib is imported one module at a time; imports are visible in each file.
* Axioms: at most `propext`, `Classical.choice`, `Quot.sound`. `AXIOMS.md` lists the output of
  `#print axioms` for every theorem named in `MANIFEST.json`.
  No `sorry`, no `native_decide`, no `bv_decide`, no added axioms.
* The correspondence between the Lean definitions and the Rust source. Every definition in `lean/Verif/Model`
  carries a comment with the file and lines it models and what was simplified.
* The meaning given to what is not part of the repository: CPU instructions, the operating system, the Rust standard library,
  rayon, and the crates `bitfield`, `lightweight-mmap`, `bincode`. See below.

Layout of `lean/Verif`: `Model/` the code, `Spec.lean` and `SpecDecode.lean` the independent specifications of the layouts and
of the decoders, `Lemmas/` auxiliary facts, `Props/` the property theorems. Other small specifications stand at the top of the
file of the property that uses them.

`Conformance/` replays unit tests of the repository in the model (DDS detection and handling, decoders, normalization, header, checked functions,
file comparison), evaluated by the kernel. These are tests of the model, not proofs: they are evidence that the model says
what the code does, and no claim rests on them.

## Modelling decisions

* **Memory** (`Model/Mem`). A buffer is `List Byte` (`Byte = BitVec 8`); a pointer is an offset into one buffer.
  Loads and stores (`ld`, `st`) are bounds checked and return `none` when any byte lies outside the buffer. A kernel returns
  `Option Buf`; `none` stands for "undefined behaviour, panic or no end", so every theorem of the form `kernel … = some …`
  includes memory safety and termination. Functions with several output regions take several buffers; where a function is
  called with regions that overlap (in-place decorrelation, in-place normalization) the overlap is modelled.
  Alignment of pointers is modelled only in `Model/NormDebug` (the kernels use unaligned accesses; the batch functions of `color_565` ask the caller for alignment); not modelled is the aliasing discipline of Rust references.
* **Loops** (`whileM`, `forM`) run the loop condition of the code on the pointers of the code; the fuel is larger than the number of
  iterations and running out of it is `none`.
* **Integers** are `BitVec w`, or `Nat` with explicit wrap around where the code uses `usize` sizes.
  Offsets inside a buffer are unbounded `Nat` in kernels (a slice never exceeds `isize::MAX`). The DDS parser works on exact
  32-bit words and on `usize` of a given width; `Platform.overflowChecks` says whether overflow panics or wraps.
* **Machines** (`Model/Machine`). `Machine = x86 features | other endianness fresh`. On x86 the kernel is chosen by the dispatch of the
  code on any consistent set of features; on other machines the portable kernels run with either endianness, and newly
  allocated memory has the contents `fresh`.
* **SIMD** (`Model/Simd`, `Model/Intrinsics`). A register is a list of bytes; instructions are written from the Intel manuals
  (shuffles as index maps, 16-bit lane arithmetic as `BitVec 16`). Inline assembly is modelled instruction by instruction. The upper parts of registers that an
  instruction leaves undefined (casts that widen) have arbitrary contents. The instruction
  semantics is part of the trusted base. (The tactic `krfl` in `Lemmas/Tactic` closes a goal with `Eq.refl` and leaves the check of the
  evaluation to the kernel; it adds nothing to the trusted base.) Registers are allocated by the compiler: clobber lists and `options(…)` are not modelled (see findings); reading all blocks, every register an instruction writes is declared as output and none is read before it has a value.
* **Split endpoints** (`Model/SplitEndpoints`). The kernels compare with `end - 64`, which lies before the buffer for short inputs; the
  model compares integers.
* **Estimators** are arbitrary state transformers `σ → …` that may answer anything, fail, and change their state. `Env`/`Heap` say which
  allocations succeed.
* **Debug builds**. `Model/DebugAsserts` lists the `debug_assert!`s on the way of the safe functions, `Model/DdsDebug` takes them up to the DDS handler; `Model/NormDebug` and `Model/NormCalls` have those of block normalization; `Model/Checked` has the
  scalar arithmetic with overflow checks and `Model/Dds` takes `overflow-checks` as a parameter; elsewhere release builds are modelled.
* **Decoders and normalization** (`Model/Decode`, `Model/Normalize`, `Model/NormTransform`) cover the block decoders, `experimental/normalize_blocks` of all three
  formats and the BC1 transform with normalization. `transformSeparate` puts the two separate regions of
  one kernel into one buffer, see there.
* **Fuzz targets** (`Model/Fuzz`) run on one block; `rgbcx` and `bcdec_rs` are arbitrary functions from blocks to pixels.
* **Header** (`Model/Embed`). The accessors generated by the crate `bitfield` have their documented meaning.
* **Handlers** are arbitrary functions that may fail, panic and carry state (`FileFormats.Handler`); the DDS handler is modelled exactly.
* **Files** (`Model/FileIo`). A program is a tree of system calls; the world maps paths to contents. Whether a call succeeds and what
  `create_preallocated` leaves behind is decided by oracles. No links; two paths name the same file iff they are equal. What the code
  stores through a mapping becomes visible at once when the handler has returned.
* **Batch processing** (`Model/Cli`). rayon executes the programs of the files in any interleaving of their system calls. `create_dir_all` goes from the
  shortest to the longest path. Estimators of the CLI have no state.
* **C API** (`Model/CApi`). Histories of calls of one library (BC1 or BC2). The state holds the caller's memory and the boxes of each kind; the
  allocator may answer any free non-null address. Use after free, double free and overlapping slices are `none`. Boxes and
  caller's memory do not overlap. Estimators change only their own state.
* **Caches** (`Model/Caches`). Threads make steps at the granularity of critical sections, system calls and compressor answers; `Model/CacheLock` takes the critical sections
  apart (C90). The mutex is never
  poisoned, nobody else changes the cache directory, writes reach the disk in order. The hash (XXH3) is an arbitrary function. `bincode` is modelled by its
  specification for the types of the cache.
* **compression-stats** (`Model/StatsCommand`). Each file has a thread. A thread is a function from what it sees of the size cache at each of its
  accesses to its accesses; an execution is a list of accesses of all threads in which each is the next one of its thread. Accesses to the
  cache and to the list of results are single steps. The files do not change meanwhile.
* **zstd** (`Model/Zstd`). The wrappers around the library are modelled with its contexts; what the library computes is arbitrary.

Not modelled: timing and prefetch, the insides of zstd and of the LTU match finder (arbitrary functions), thread pools below the level above,
criterion benches, CLI argument parsing and printing, the parts of the debug commands that only print.

## Properties: what is modelled and how each is proved

| id | model | proof |
|----|-------|-------|
| C01–C03 | `Model/Bc{1,2,3}*.lean` (all kernels), dispatch on settings and CPU | each kernel meets `Spec.lean` (structure of arrays): loop invariant, output so far equals the specification; round trip of the specification from a per block bijection |
| C04 | same | same, other direction |
| C05–C07 | same | the kernel theorem itself against `Spec.lean` |
| C08, C09 | `Model/Color565.lean` | modular arithmetic on the three components |
| C10 | same as C01–C03, `st`/`ld` bounds checked | `= some (… ++ out.drop len)`; what a fault is in `Props/MemFaults.lean` |
| C11–C13 | `Model/Bc{1,2,3}{Std,Generic,Simd}.lean`, one definition per kernel and instruction set | each kernel meets the same specification; shuffles are natural in the bytes, so evaluation on the index list suffices |
| C14, C15 | `Model/Batch.lean`, `Model/SplitEndpoints.lean` | loop invariants; the pointer functions in `Props/BatchPtr.lean` |
| C16 | `Model/Safe.lean` | case analysis |
| C17–C22 | `Model/Auto.lean` | induction over the candidate list with an arbitrary stateful estimator |
| C23–C25 | `Model/Embed.lean` | case analysis, bit lemmas for all 32-bit words |
| C26–C36, C54, C59 | `Model/Dds.lean`, `Model/FileFormats.lean` | composition of the above, list lemmas |
| C27 | as C26 | false for files with trailing data: negation with witness plus partial theorem |
| C30–C32 | as C26 | false on 32-bit machines or where size arithmetic overflows: negation plus partial theorem |
| C37 | `Model/FileIo.lean` | execution of the program tree; refinement to the slice functions |
| C38 | as C37 | false: negation with witness, partial theorem; exact characterisation of what each failure leaves |
| C39, C60 | `Model/Cli.lean` | each program is run in a shadow world of its own; invariant: the world agrees with the shadows. False for nested directories: witness; there the shadow of one program alone (`LocalInv`), for the files whose input is nobody's output |
| C40–C42, C61, C62 | `Model/CApi.lean`, `Model/Builders.lean` | invariants over call histories |
| C43, C44, C46, C47, C57 | `Model/Decode.lean`, `Model/Normalize.lean` | case analysis on the block class |
| C45 | as C43 | fails for BC1 (None mode, transparent block): negation plus partial; exact for the None buffer |
| C48, C49 | endian parameter of the portable kernels | C49 fails for decorrelating settings: negation, partial for `None`, and exact theorems for all settings (`Props/EndianExact.lean`) |
| C50, C58 | `Model/NormTransform.lean` | composition; C58 fails with transparent blocks: negation, partial, and the exact choice for all data |
| C51, C63–C65 | `Model/Caches.lean` | invariant over interleavings; decoder of a prefix fails |
| C52 | as C51 | fails: negation, partial, and the exact set of possible results (the prefixes) |
| C66, C67 | `Model/DebugIo.lean` | read-only programs with a known result; counters over interleavings; composition with C01–C03, C33, C54, C56 |
| C68 | `Model/DebugStats.lean` | simulation of the search with and without cache; induction over the combinations |
| C69 | `Model/FileCompare.lean` | induction over the portions read and over the directory tree |
| C70 | `Model/DebugEndian.lean` | composition of C37, C26, C49 without decorrelation, C69; the chain of states of one test |
| C71 | `Model/Bc1Bench.lean`, `Bc2Bench`, `Bc3Bench`, `SplitBench`, lists in `BenchApi` | as C01–C03, C15: symbolic execution of one turn, induction over the turns |
| C72 | `Model/Presets.lean` | composition of C20, C36, C42 in memory, then C37 and C39 |
| C73 | `Model/DebugBench.lean` | invariant "the cache is faithful" through all steps; extraction with any callback from C33, C54; C01–C03, C17–C19, C22, C50 |
| C74, C75 | `Model/DebugBench.lean` | sums over the groups, permutation by sorting; case analysis |
| C76 | `Model/Commands.lean` | trees of directories kept by every step; C39, C60, C72 on the worlds before and after each process |
| C77 | `Model/EndianCommand.lean` | programs confined to one directory (`Confined`), programs that change nothing (`Quiet`); C39, C54, C70, C31 |
| C78, C79 | `Model/Alloc.lean` | allocator as a machine with live blocks, drops written out; refinement to `Auto` and `NormTransform`; what a fault is in `Props/AllocFaults.lean`; C50 |
| C80 | `Model/Dds.lean` | exact conditions for each panic; exact versions of C30 and C31 on every platform (`Props/DdsPanics.lean`) |
| C81 | `Model/Dds.lean`, `Model/FileFormats.lean` | the set of transformed files; transforming a restored file gives it back (`Props/DdsImage.lean`) |
| C82 | `Model/Fuzz.lean` | all thirteen fuzz targets; the skip of blocks with `color0 <= color1` is needed only by the colour comparison (`Props/Fuzz.lean`) |
| C83 | layouts of C05–C07 | a byte belongs to one section and block; `block` of the inverse layout against the fields of the block (`Props/Locality.lean`) |
| C84 | `Model/Auto.lean` | two runs of the search side by side; the measured slice is a group of sections of the layout (`Props/AutoBlind.lean`); files in `Props/AutoBlindFiles.lean` |
| C85 | `Model/Checked.lean` | the scalar code again with arithmetic that fails on overflow; C56, C53, C19 for the release builds (`Props/Checked.lean`) |
| C86 | `Model/StatsCommand.lean` | interleavings of the accesses of the threads of the command compression-stats, each thread a function of what it sees of the cache; `tape_faithful` (C68 for any view of the cache) (`Props/StatsCommand.lean`); the end of every execution: what a thread does next depends on what it has seen (`Causal`), with a bound on its accesses (`Props/StatsProgress.lean`) |
| C87 | `Model/DdsDebug.lean` | the handler as a function of the dispatch (`untransformWith`), which both builds share; exact conditions (`Props/DdsDebug.lean`); round trips between builds that differ in overflow checks in `Props/DdsBuilds.lean` |
| C88 | `Model/NormDebug.lean` | buffers have addresses here; each debug version equals the release version or `none` (`Props/NormDebug.lean`, `Props/NormDebugEmpty.lean`) |
| C89 | `Model/Auto.lean`, `Model/NormTransform.lean` | two runs of the search side by side, their sizes related by a relation that keeps the order (`Props/AutoScale.lean`) |
| C90 | `Model/CacheLock.lean` | the critical sections of `Model/Caches` taken apart; invariant (who is inside has the lock) and refinement to the steps of `Model/Caches` (`Props/CacheLock.lean`) |
| C91 | `Model/FileIo.lean` | a program that does not look at a file does the same whatever it contains (`Props/HugeFiles.lean`) |
| C92 | `Model/Auto.lean`, `Model/NormTransform.lean` | an estimator that records its questions; the searches commute with maps of the estimator state (`Hom`), the questions come from C22 (`Props/AutoQuestions.lean`) |
| C93 | `Model/Dds.lean` | C83 inside the file (`Props/DdsDamage.lean`): the parser sees only the header, the dispatch only the tag; wrong settings in the tag by C94 (`Props/WrongTag.lean`) |
| C94 | the core models, `Model/Dds.lean` | the sections are in the order of the bytes in the block (`Props/Rearrange.lean`); permutation by exchanging the two traversals |
| C95 | the core models | a column of a concatenation is the concatenation of the columns; sections determine a string (`Props/Pieces.lean`) |
| C96 | `Model/Normalize.lean` | the normal forms of C43 and C44 determine the bytes (`Props/NormCanon.lean`) |
| C97 | `Model/Auto.lean`, `Model/FileFormats.lean`, `Model/Dds.lean`, `Model/Commands.lean` | the handlers for two CPUs are equal as functions; the search sees the same (C84) and the settings determine the bytes (`Props/Reproducible.lean`) |
| C98 | `Model/Bc1.lean`, `Model/Bc2.lean`, `Model/Bc3.lean` | uniform textures tell the layouts of C05-C07 apart (`Props/WrongSettings.lean`) |
| C99 | `Model/Cli.lean`, `Model/FileIo.lean`, `Model/Dds.lean` | every job ends in an error of the operating system or in what the handler makes of the bytes (`Fate`); C97 for the buffer and the CPU, C39 for the schedule (`Props/Again.lean`) |
| C100 | `Model/Dds.lean`, `Model/Cli.lean` | one untransform restores both (C26), on a platform made for the purpose; C99 for the commands (`Props/Distinct.lean`) |
| C101 | `Model/DdsWork.lean` | the parser with a counter, proved to give the parser's results; levels 32 and later are never empty; a family of 128-byte headers (`Props/DdsWork.lean`) |
| C102 | `Model/Isa.lean` | the dispatchers with the extensions each kernel needs; a CPU is a set of extensions obeying VBMI → BW → F → AVX2 → SSE2; a kernel without its extensions fails (`Props/Isa.lean`) |
| C103 | `Model/Dds.lean` | spec of the fields that describe a surface and of the number of surfaces announced; two-file comparison of parser and handler; a cube map with six equal faces (`Props/Surfaces.lean`) |
| C104 | `Model/Color565.lean`, `Model/Bc1.lean`, `Model/Bc2.lean`, `Model/Bc3.lean` | greys as a condition on the 16 bits; the place of each colour in the output by its own formula; the lifting steps over the integers (`Props/Grey.lean`); files in `Props/GreyFiles.lean` |
| C105 | `Model/CApi.lean` | pointers handed out and given back read off from the calls and replies alone and counted; live objects from the state (`Props/COwnership.lean`) |
| C106 | `Model/DryRun.lean` with `Model/Caches.lean` | each thread is a function from the ends of its calls to its calls; executions interleave single steps of the calls; the cache is judged by decompressing its files (`Props/DryRun.lean`, `Props/DryRunCommands.lean`) |
| C107 | `Model/Zstd.lean` | the calls of the wrappers one by one on a set of live contexts with parameters; a call with a dead context is undefined (`Props/Zstd.lean`) |
| C108 | `Model/NormCalls.lean` | assertions on addresses against the set of bytes of two buffers (`Props/NormCalls.lean`) |
| C109 | `Model/Dds.lean` | `WrappedTexture`: a file has given texture data behind a header of its own (`Props/Container.lean`) |
| C110 | `Model/Bc1.lean` … `Model/Bc3.lean`, `Model/Auto.lean` | comparison of the three crates over `coloursOf` (`Props/ColourPart.lean`) |
| C111 | `Model/Bc1.lean` … `Model/Bc3.lean`, `Model/Batch.lean`, `Model/SplitEndpoints.lean` | the transforms against each other and the functions for single steps (`Props/Stages.lean`) |
| C112 | `Model/Normalize.lean` | composition law of the normal forms, comparison of BC2 and BC3 over `coloursOf` (`Props/NormSteps.lean`) |
| C113 | `Model/Cli.lean`, `Model/Commands.lean` | what holds at every moment of a program (`Always`), over the programs that can be told apart (`Props/InPlace.lean`) |
| C114 | `Model/Cli.lean` | any reachable state with arbitrary outputs as the start of a second execution (`Props/Restart.lean`) |
| C115 | `Model/CApi.lean` | for every event the places it reads and those it may change; schedules with the same events for each thread (`Props/CApiThreads.lean`) |
| C116 | `Model/CApi.lean` | histories of events (`Props/CApiAuto.lean`) |
| C117 | `Model/DryRun.lean` | a part of a thread stops with an error (`Lemmas/Stops.lean`); C106 (`Props/DryRunErrors.lean`) |
| C118 | as C104 | modular arithmetic on the channels; the place of each colour from C104 (`Props/Brightness.lean`); files in `Props/GreyFiles.lean` |
| C119 | as C104; `bitPos` gives the places | bits of the fields of a colour (`Nat.testBit_two_pow_mul_add`), and the columns before and after the colours (`Props/VariantBits.lean`); files in `Props/VariantFiles.lean` |
| C120 | `colourIn` and `colourAfter` give the two bytes of an end point before and after | as C104; the decoding of a colour undoes its encoding, so the encoding is injective (`Props/Repeats.lean`); files in `Props/RepeatsFiles.lean` |
| C121 | `StoredAlike` compares the bytes in the sections of C83 | as C83, for two numbers of blocks (`Props/StoredAlike.lean`); files in `Props/StoredFiles.lean` |
| C122 | as C121; pixels by `SpecDecode.lean` | C96 and C121 (`Props/LookAlike.lean`) |
| C53 | `Model/Bc7.lean` | bitwise, for all bytes and ranges |
| C55 | `Model/DebugAsserts.lean` | fails for empty input: negation plus partial; exact condition |
| C56 | `Model/Decode.lean` against `SpecDecode.lean` | unrolling of the pixel loop |

## Findings made while reading

1. `DdsHandler::transform_bundle`/`untransform` copy trailing data with `output[leftover..].copy_from_slice(&input[leftover..])`,
   which panics if the output buffer is longer than the input and there is trailing data (C27).
2. `calculate_data_length_for_block_compression` multiplies in `u32` without overflow check: panic in debug builds, wrapped
   (too small) length in release builds (C32, C30_panics). A mip count of up to 2^32-1 is looped over.
3. The file functions create the output file before the handler can fail and leave it behind (C38). The CLI presets have no BC2
   builder, so every BC2 DDS file gives an error and an output file with the header only (C38_violated, C72_bc2_refused).
4. `normalize_blocks_all_modes` (BC1) rewrites transparent blocks in the buffer of mode `None` (C45) and with that buffer as the
   input corrupts solid blocks: `write_normalized_solid_color_block` stores the colour before it looks at the mode. Its result
   `any_normalized` counts blocks that were already normal.
5. The automatic BC1 transform with normalization measures mode `None` on the data changed by finding 4 (C58).
6. On big endian hosts the decorrelation works on byte swapped colours, so its files differ from little endian ones (C49).
7. `CompressedDataCache::save_compressed_data` writes in place; a crash leaves a truncated entry that is later served as valid (C52), and a
   concurrent reader may see an incomplete file (C64_reader_during_write).
8. `compress_data_cached` stores compressor results under the keys of the size estimates (C51_mixed_witness).
9. Several kernels have `debug_assert!`s that fail on empty input although the safe API accepts it (C55), in the
   automatic search as well (C55_auto_empty_panics, C55_bc3_auto_empty_panics);
   split endpoint kernels compute `end - 64` before the start of the buffer for short inputs.
10. In-place decorrelation passes the same memory as `&[Color565]` and `&mut [Color565]` and against the documented
    no-overlap rule; `&*src_ptr.add(x)` needs 2-byte alignment that the callers do not guarantee.
11. The sum of the two BC3 section estimates can wrap for absurd estimates (C20_bc3_total_wraps), and panics with overflow checks (C85_search_panics).
12. `options(preserves_flags)` on assembly with `cmp`/`sub` (BC1 standard/transform/avx512f.rs:98, BC2
    standard/transform/avx512.rs:197, split endpoints sse2/avx2).
13. Non-x86 BC1 untransform with split and recorrelation allocates with `.expect`: allocation failure is a panic.
14. The headers of BC1, BC2, BC3 and BC7 ignore reserved bits (C25); on untransform the format in the header is
    not compared with the format of the DDS file (`mislabelledFile` in `Props/DdsImage.lean`).
15. BC3 with_split_alphas/untransform/mod.rs asks for SSE2 at run time regardless of the feature `no-runtime-cpu-detection`.
16. When the handler fails after the size check, the DDS header has already been copied to the output slice.
17. On 32-bit machines the stated size can wrap, which leads to a slice panic (C31_truncated_panics), and file sizes are truncated:
    a file over 4 GiB is transformed without an error, but only its beginning (C91).
18. The file API with equal input and output path destroys the file (C37_same_path_destroys), and so do `transform` and `untransform`
    with equal directories, which nothing checks (C113). The two mappings of one file are undefined behaviour, which counts as a panic here.
19. The CLI with the output directory inside the input directory depends on the schedule (C39_nested_depends_on_order).
20. C API: the comment on the automatic builder promises a null out pointer on error, but null arguments leave it
    untouched; `decorrelation_mode(builder, 1) // Variant1` in the docs contradicts the API's representation (Variant1 = 0) while the core's has
    Variant1 = 1; the codes 6, 7 and 8 of the stable API and 8 (TransformationError) of the core API are never produced; the core maps allocation failure to
    SizeEstimationError; null scratch pointers are passed to estimators whose maximum size is 0.
21. `compress` with the LTU algorithm is `todo!()` (guarded by `validate_compression_algorithm`).
22. The roundtrip debug command compares decoded pixels, not bytes (C66_pixels_only), and fails as soon as the directory holds one
    file that is not a texture of the format. Errors of the callback, such as lack of memory, become `NoSupportedHandler` and are not printed (C66_file).
23. The format analysis counts incomplete textures as well (C67_detect).
24. The length of a texture is capped at 2^32-1 by the size computation, which is not a whole number of blocks; files of 4 GiB and
    more are excluded in C66.
25. The best result of the compression statistics has size 0 if no combination was measured (C68_best); it cannot happen as the list is never empty.
26. `compare_files` reports a difference between equal files if `read` returns short counts at different places (C69_short_reads);
    `compare_directories` ignores empty directories.
27. The endianness test stops at the first combination that succeeds, which is the one without decorrelation and without split, so it
    cannot see that decorrelated data is not portable (C49, C70_passes). It does not compare the restored file with the original, and it
    succeeds if there are no test files (C70_verdict).
28. Benchmark kernels: BC1 portable64.rs compares `input_ptr.add(3) < max_ptr` and others `end.sub(k)`, pointers outside the allocation
    for short inputs (undefined by Rust's rules, without effect on addresses and therefore not seen by the model); BC1
    standard/transform/bench/avx512f.rs and BC2 standard/transform/bench/avx512.rs declare `preserves_flags` although they compare.
29. Benchmark: `--iterations 0` panics at the first texture, a division of a `Duration` by zero, in the benchmark and in the benchmark of
    the search (C73_zero_iterations, C73_determine). A cache file cut short makes the benchmark skip the texture without a message if there is a
    warmup and panic in `unwrap` otherwise, and it stays in the cache (C73_damaged_cache). The benchmark does not check that untransform
    restores the data. With `experimental_normalize` the settings recommended are chosen on normalized data but applied without normalization.
30. `--estimate-compression-level` is not checked when the command starts; an invalid level fails for every texture (C75_levels).
31. A mistyped `--input` is made as an empty directory, and the command says that there are no files and ends with status 0
   (C76_missing_input); the same status if the input is a file or cannot be read (C76_unlisted_input).
32. The exit status of `transform` and `untransform` is 0 even if every file has failed (C76_exit, C76_bc2_hidden).
33. `debug-endian` reports success if `assets/tests` is missing or cannot be read (C77_nothing_tested).
34. `debug-endian` selects test files by their header alone, so that one truncated file makes the command fail although the
   transform is right to refuse it (C77_test_files, C77_verdict).
35. `transform_bc1_auto_with_normalization` takes more memory than documented ("3x … 6x"): the work buffer of half the data and the
   scratch buffer come on top, and when nothing is normalized its own scratch buffer stays live beside the one of `transform_bc1_auto` (C79_documented_exceeded).
36. Finding 9 reaches files: a DDS file of width or height 0 is transformed, but a debug build on an x86-64 machine panics when it
   restores the result (C87_empty_not_restored); with AVX-512 it panics when it transforms it, too.
37. The alignment of finding 10 is checked in debug builds: `transform_bc1_with_normalize_blocks` panics for an output at an odd address,
   and for empty input with split endpoints, both of which its safety section allows (C88_transform, C88_auto).
38. The documentation of the BC3 `normalize_blocks_all_modes` allows the input to be one of the outputs (bc3 normalize.rs:406). A debug
   build panics then (427-431, C108_bc3_in_place). A release build writes normalized colours into outputs which should get them as they are: those of colour
   mode `None` in rows behind the input (C45_bc3_in_place_exact, C45_bc3_in_place_differs). The pixels stay the same.
39. The documentation of `SizeEstimationOperations` promises a scratch buffer that is never null and inputs of one length
    (estimate/mod.rs:45, 53). All automatic transforms pass the null pointer if the size bound is 0, and BC3 asks for two lengths in turn
    (C92_bc3_documentation_violated).
40. The loops that add up the sizes of the mip levels run as often as the header says, before anything is compared with the length of the
    file (parse_dds.rs:316-328, 390-397): a file of 128 bytes can cost 2^32-1 passes in `can_handle` and `can_handle_untransform` (C101_unbounded).
    The passes are those of the source; a compiler may find a shortcut.
41. Three AVX-512 transforms of BC2 load their tables with `_mm_loadu_epi8`, which belongs to AVX512BW and AVX512VL
    (with_recorrelate/transform/avx512bw.rs:36-38, with_split_colour/transform/avx512bw.rs:114-116,
    with_split_colour_and_recorr/transform/avx512bw.rs:116-118). The kernels declare and the dispatchers ask for AVX512BW only; `has_avx512vl` exists
    (cpu_detect.rs:47) and is not asked. A CPU, or a virtual machine, with the one and without the other runs into undefined behaviour
    (C102_bc2_exact, C102_bc2_needs_vl). A compiler may happen to choose an instruction every such CPU has.
42. The DDS handler knows neither cube maps nor texture arrays nor volumes: it never reads the capability bits, the depth, the
    array size or the DX10 flags. Of several surfaces only the first is transformed, the others are copied as they are
    (C103_others_copied, C103_cube_first_face). Nothing is lost, but five sixths of a cube map gain nothing.
43. The search with normalization skips a candidate whose estimate fails (experimental/normalize_blocks/transform.rs:401), the others report
    the error. So `debug-bc1 benchmark --experimental-normalize` goes on with a file whose estimates fail, up to recommending the default
    settings without any estimate; without the flag the file is given up (C117_bc1 and the example after it).
