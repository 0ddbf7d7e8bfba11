import Verif.Model.DebugStats
import Verif.Model.NormTransform
/-!
# The benchmark commands

Models of `/repo/src/tools/dxt-lossless-transform-cli/src` the files `commands/debug_bc{1,2,3}/benchmark.rs`,
`commands/debug_bc{1,2,3}/benchmark_determine_best.rs`, `debug_format/benchmark_common.rs`, `debug_format/compression/mod.rs`,
`debug_format/compression/zstd/mod.rs`, `debug_format/compression/helpers.rs` and the options of `commands/debug_bc{1,2,3}/mod.rs`.

Simplifications.  One thread: the dry run, which fills the cache of compressed data from several threads (benchmark.rs:91-116), is made
here file by file in the order of the list; what several threads do to that cache is the subject of `Model/Caches.lean`, and the parallel dry run is in `Model/DryRun.lean`.
zstd is a pair of arbitrary functions.  Durations are natural numbers of nanoseconds and their sums do not overflow; what a
measurement gives is arbitrary.  The throughput, computed with `f64`, is an arbitrary function of size and duration, except that it is zero
for the duration zero.  Printing is left out.
-/

namespace Dlt.DebugBench

open Dlt.Embed (TransformFormat)
open Dlt.Cache Dlt.DebugIo Dlt.DebugStats Dlt.FileFormats Dlt.FileIo Dlt.FileIo.Prog Dlt.Cli

/-! ## Names and levels of algorithms -/

/-- `CompressionAlgorithm::name`, compression/mod.rs:46-51. -/
def algorithmName : Algorithm → String
  | .zstandard => "ZStandard"
  | .losslessTransformUtils => "lossless-transform-utils"

/-- `CompressionAlgorithm::from_str`, compression/mod.rs:86-96; `lower` is `str::to_lowercase`. -/
def algorithmFromStr (lower : String → String) (s : String) : Except CliError Algorithm :=
  match lower s with
  | "zstd" => .ok .zstandard
  | "zstandard" => .ok .zstandard
  | "ltu" => .ok .losslessTransformUtils
  | "lossless-transform-utils" => .ok .losslessTransformUtils
  | _ => .error (.debug s!"Unknown compression algorithm: {s}. Available: zstd, ltu")

/-- `CompressionAlgorithm::default_compression_level`, compression/mod.rs:54-59. -/
def defaultLevel : Algorithm → BitVec 32
  | .zstandard => 16
  | .losslessTransformUtils => 0

/-- `CompressionAlgorithm::default_estimate_compression_level`, compression/mod.rs:62-67. -/
def defaultEstimateLevel : Algorithm → BitVec 32
  | .zstandard => 3
  | .losslessTransformUtils => 0

/-- The options of the commands `compression-stats` and `benchmark` that concern algorithms, debug_bc1/mod.rs:51-84 and 89-126. -/
structure AlgorithmOptions where
  level : Option (BitVec 32) := none
  estimateLevel : Option (BitVec 32) := none
  algorithm : Algorithm := .zstandard
  estimateAlgorithm : Option Algorithm := none

/-- `get_compression_level`, debug_bc1/mod.rs:166-169 and 188-191. -/
def AlgorithmOptions.getLevel (o : AlgorithmOptions) : BitVec 32 := o.level.getD (defaultLevel o.algorithm)

/-- `get_estimate_compression_algorithm`, debug_bc1/mod.rs:180-183 and 202-205. -/
def AlgorithmOptions.getEstimateAlgorithm (o : AlgorithmOptions) : Algorithm := o.estimateAlgorithm.getD o.algorithm

/-- `get_estimate_compression_level`, debug_bc1/mod.rs:172-177 and 194-199 (also 210-215). -/
def AlgorithmOptions.getEstimateLevel (o : AlgorithmOptions) : BitVec 32 :=
  o.estimateLevel.getD (defaultEstimateLevel o.getEstimateAlgorithm)

/-! ## Compression -/

/-- The functions of `compression/zstd/zstd_raw.rs`. -/
structure Raw where
  /-- `compress` (69-101) with a destination of `max_alloc_for_compress_size` bytes: what it writes; `none` is an error code. -/
  compress : BitVec 32 → Buf → Option Buf
  /-- `decompress` (27-60) with a destination of the given size: what it writes; `none` is an error code. -/
  decompress : Buf → Nat → Option Buf

/-- What becomes of a file of the cache when it is saved. -/
inductive Saved where
  /-- it holds the data -/
  | done
  /-- the directory or the file cannot be created -/
  | unchanged
  /-- the write fails after so many bytes -/
  | cut (n : Nat)
  deriving DecidableEq, Repr

/-- What the environment answers to the `k`-th question. -/
structure Answers where
  /-- `allocate_align_64` -/
  heap : Heap
  /-- `File::open` and `read_to_end` of a cached file, compressed_data_cache.rs:69-74 -/
  canRead : Nat → Bool
  /-- `save_compressed_data`, compressed_data_cache.rs:84-102 -/
  save : Nat → Saved
  /-- `Instant::elapsed` in `measure_time`, benchmark_common.rs:99-100 -/
  elapsed : Nat → Nat

/-- A run of untransform: the scenario, the buffer read and the buffer written. -/
structure Ran where
  scenario : String
  source : Buf
  result : Buf
  deriving DecidableEq, Repr

/-- The state: the two caches, the number of questions asked, and for the statements the runs of untransform, the last one first.
The code has no such record. -/
structure Progress where
  sizes : Sizes
  files : List Char → Option Buf
  asked : Nat
  restored : List Ran

/-- One more question. -/
def Progress.next (st : Progress) : Progress := { st with asked := st.asked + 1 }

/-- `validate_compression_algorithm`, compression/helpers.rs:18-29. -/
def validate (a : Algorithm) : Except CliError Unit :=
  if a.supportsCompress = true then .ok () else .error (.debug "Compression algorithm does not support actual compression.")

/-- `compress_with_algorithm`, compression/mod.rs:146-158, with zstd/mod.rs:12-35; `none` is the panic of `todo!()`. -/
def compressWith (raw : Raw) (d : Buf) (level : BitVec 32) : Algorithm → Option (Except CliError Buf)
  | .zstandard =>
    match raw.compress level d with
    | some out => some (.ok out)
    | none => some (.error (.debug "ZStandard compression failed"))
  | .losslessTransformUtils => none

/-- `decompress_data`, compression/helpers.rs:160-166, with compression/mod.rs:172-183 and zstd/mod.rs:37-48: the
buffer afterwards. -/
def decompressData (raw : Raw) (src dst : Buf) : Algorithm → Option (Except CliError Buf)
  | .zstandard =>
    match raw.decompress src dst.length with
    | some bytes => (Dlt.st dst 0 bytes).map .ok
    | none => some (.error (.debug "ZStandard decompression failed"))
  | .losslessTransformUtils => none

/-- `compress_data_cached`, compression/helpers.rs:43-84: the bytes `[..compressed_size]`. -/
def compressCached (raw : Raw) (hash : Buf → BitVec 128) (env : Answers) (d : Buf) (level : BitVec 32) (a : Algorithm) (st : Progress) :
    Option (Progress × Except CliError Buf) :=
  let key : Key := ⟨hash d, level, a⟩
  match st.files (fileName key) with
  | some b =>
    if env.canRead st.asked then some (st.next, .ok b)
    else some (st.next, .error (.debug "Failed to read cached file"))
  | none =>
    match compressWith raw d level a with
    | none => none
    | some (.error e) => some (st.next, .error e)
    | some (.ok out) =>
      let files := match env.save st.asked with
        | .done => setFile st.files (fileName key) out
        | .unchanged => st.files
        | .cut n => setFile st.files (fileName key) (out.take n)
      some ({ st.next with files := files, sizes := st.sizes.insert key out.length }, .ok out)

/-! ## Results -/

/-- `BenchmarkScenarioResult`, benchmark_common.rs:16-24. -/
structure Scenario where
  name : String
  decompressTime : Nat
  untransformTime : Nat
  combinedTime : Nat
  decompressRate : Nat
  untransformRate : Nat
  combinedRate : Nat
  deriving DecidableEq, Repr

/-- The throughput for a duration, benchmark_common.rs:36-52 and 215-235; `rate` is the division with `round() as u64`. -/
def throughput (rate : Nat → Nat → Nat) (size time : Nat) : Nat := if time = 0 then 0 else rate size time

/-- `BenchmarkScenarioResult::new`, benchmark_common.rs:27-69. -/
def Scenario.new (rate : Nat → Nat → Nat) (name : String) (size decompressTime untransformTime : Nat) : Scenario :=
  { name := name
    decompressTime := decompressTime
    untransformTime := untransformTime
    combinedTime := decompressTime + untransformTime
    decompressRate := throughput rate size decompressTime
    untransformRate := throughput rate size untransformTime
    combinedRate := throughput rate size (decompressTime + untransformTime) }

/-- `BenchmarkResult`, benchmark_common.rs:74-78, without the path. -/
structure Result where
  size : Nat
  scenarios : List Scenario
  deriving DecidableEq, Repr

/-- `Duration / u32`: it panics for zero. -/
def average (time iterations : Nat) : Option Nat := if iterations = 0 then none else some (time / iterations)

/-! ## The benchmark of a texture -/

/-- `BenchmarkConfig`, debug_bc1/benchmark.rs:30-41; the settings of the search are part of the codec. -/
structure Config where
  iterations : Nat
  warmup : Nat
  level : BitVec 32
  estimateLevel : BitVec 32
  algorithm : Algorithm
  estimateAlgorithm : Algorithm
  dryRun : Bool

/-- What differs between the formats. -/
structure BenchCodec (S : Type) extends Codec S where
  /-- `untransform_bcN_with_settings` -/
  untransform : Buf → Buf → Nat → S → Option Buf
  /-- the fixed scenarios, debug_bc1/benchmark.rs:199-227 (bc3: 199-262) -/
  scenarios : List (String × S)

/-- The warmup, debug_bc1/benchmark.rs:297-316: decompress and untransform `n` times. -/
def warmupLoop {S : Type} (c : BenchCodec S) (raw : Raw) (a : Algorithm) (packed : Buf) (len : Nat) (name : String)
    (s : S) : Nat → Buf → Buf → Progress → Option (Progress × Except CliError (Buf × Buf))
  | 0, plain, final, st => some (st, .ok (plain, final))
  | n + 1, plain, final, st =>
    match decompressData raw packed plain a with
    | none => none
    | some (.error e) => some (st, .error e)
    | some (.ok plain) =>
      match c.untransform plain final len s with
      | none => none
      | some final => warmupLoop c raw a packed len name s n plain final { st with restored := ⟨name, plain, final⟩ :: st.restored }

/-- The measured decompression, debug_bc1/benchmark.rs:319-328: an error is a panic (`unwrap`). -/
def decompressLoop (raw : Raw) (a : Algorithm) (packed : Buf) : Nat → Buf → Option Buf
  | 0, plain => some plain
  | n + 1, plain =>
    match decompressData raw packed plain a with
    | some (.ok plain) => decompressLoop raw a packed n plain
    | _ => none

/-- The measured untransform, debug_bc1/benchmark.rs:331-342. -/
def untransformLoop {S : Type} (c : BenchCodec S) (plain : Buf) (len : Nat) (name : String) (s : S) :
    Nat → Buf → Progress → Option (Progress × Buf)
  | 0, final, st => some (st, final)
  | n + 1, final, st =>
    match c.untransform plain final len s with
    | none => none
    | some final => untransformLoop c plain len name s n final { st with restored := ⟨name, plain, final⟩ :: st.restored }

/-- `process_scenario`, debug_bc1/benchmark.rs:257-355. -/
def processScenario {S : Type} (c : BenchCodec S) (raw : Raw) (hash : Buf → BitVec 128) (env : Answers) (rate : Nat → Nat → Nat)
    (cfg : Config) (data : Buf) (name : String) (s : S) (st : Progress) : Option (Progress × Except CliError (Option Scenario)) :=
  match env.heap st.asked data.length with
  | none => some (st.next, .error .allocate)
  | some transformed =>
    match c.transform data transformed data.length s with
    | none => none
    | some transformed =>
      match compressCached raw hash env transformed cfg.level cfg.algorithm st.next with
      | none => none
      | some (st, .error e) => some (st, .error e)
      | some (st, .ok packed) =>
        if cfg.dryRun = true then some (st, .ok none)
        else
          match env.heap st.asked data.length with
          | none => some (st.next, .error .allocate)
          | some plain =>
            match env.heap (st.asked + 1) data.length with
            | none => some (st.next.next, .error .allocate)
            | some final =>
              match warmupLoop c raw cfg.algorithm packed data.length name s cfg.warmup plain final st.next.next with
              | none => none
              | some (st, .error e) => some (st, .error e)
              | some (st, .ok (plain, final)) =>
                match decompressLoop raw cfg.algorithm packed cfg.iterations plain with
                | none => none
                | some plain =>
                  match untransformLoop c plain data.length name s cfg.iterations final st with
                  | none => none
                  | some (st, _) =>
                    match average (env.elapsed st.asked) cfg.iterations, average (env.elapsed (st.asked + 1)) cfg.iterations with
                    | some d, some u => some (st.next.next, .ok (some (Scenario.new rate name data.length d u)))
                    | _, _ => none

/-- The warmup without transform, debug_bc1/benchmark.rs:383-390. -/
def warmupPlain (raw : Raw) (a : Algorithm) (packed : Buf) : Nat → Buf → Option (Except CliError Buf)
  | 0, plain => some (.ok plain)
  | n + 1, plain =>
    match decompressData raw packed plain a with
    | none => none
    | some (.error e) => some (.error e)
    | some (.ok plain) => warmupPlain raw a packed n plain

/-- `process_untransformed_scenario`, debug_bc1/benchmark.rs:357-413. -/
def processUntransformed (raw : Raw) (hash : Buf → BitVec 128) (env : Answers) (rate : Nat → Nat → Nat) (cfg : Config)
    (data : Buf) (name : String) (st : Progress) : Option (Progress × Except CliError (Option Scenario)) :=
  match compressCached raw hash env data cfg.level cfg.algorithm st with
  | none => none
  | some (st, .error e) => some (st, .error e)
  | some (st, .ok packed) =>
    if cfg.dryRun = true then some (st, .ok none)
    else
      match env.heap st.asked data.length with
      | none => some (st.next, .error .allocate)
      | some plain =>
        match warmupPlain raw cfg.algorithm packed cfg.warmup plain with
        | none => none
        | some (.error e) => some (st.next, .error e)
        | some (.ok plain) =>
          match decompressLoop raw cfg.algorithm packed cfg.iterations plain with
          | none => none
          | some _ =>
            match average (env.elapsed st.next.asked) cfg.iterations with
            | none => none
            | some d => some (st.next.next, .ok (some (Scenario.new rate name data.length d 0)))

/-- The loop over the scenarios, debug_bc1/benchmark.rs:231-239; `acc` are those of the result so far. -/
def scenarioLoop {S : Type} (c : BenchCodec S) (raw : Raw) (hash : Buf → BitVec 128) (env : Answers) (rate : Nat → Nat → Nat)
    (cfg : Config) (data : Buf) : List (String × S) → List Scenario → Progress → Option (Progress × Except CliError (List Scenario))
  | [], acc, st => some (st, .ok acc)
  | (name, s) :: rest, acc, st =>
    match processScenario c raw hash env rate cfg data name s st with
    | none => none
    | some (st, .error e) => some (st, .error e)
    | some (st, .ok none) => scenarioLoop c raw hash env rate cfg data rest acc st
    | some (st, .ok (some r)) => scenarioLoop c raw hash env rate cfg data rest (acc ++ [r]) st

/-- The callback of `process_file`, debug_bc1/benchmark.rs:182-251. -/
def processTexture {S : Type} (c : BenchCodec S) (lib : Lib) (raw : Raw) (hash : Buf → BitVec 128) (env : Answers)
    (rate : Nat → Nat → Nat) (cfg : Config) (data : Buf) (st : Progress) : Option (Progress × Except CliError (Option Result)) :=
  match determineBest c.toCodec lib hash cfg.estimateLevel cfg.estimateAlgorithm data (env.heap st.asked data.length) st.sizes with
  | none => none
  | some (sizes, .error e) => some ({ st.next with sizes := sizes }, .error e)
  | some (sizes, .ok best) =>
    match scenarioLoop c raw hash env rate cfg data (("API Recommended", best) :: c.scenarios) [] { st.next with sizes := sizes } with
    | none => none
    | some (st, .error e) => some (st, .error e)
    | some (st, .ok results) =>
      match processUntransformed raw hash env rate cfg data "Untransformed" st with
      | none => none
      | some (st, .error e) => some (st, .error e)
      | some (st, .ok last) =>
        some (st, .ok (if cfg.dryRun = true then none else some ⟨data.length, results ++ last.toList⟩))

/-- What the callback leaves in `file_result`, debug_bc1/benchmark.rs:231-251: `old` if it fails; then the
variable, in which the code leaves the scenarios up to there, is not read any more. -/
def fillResult (old : Option Result) : Progress × Except CliError (Option Result) → (Progress × Option Result) × Except CliError Unit
  | (st, .ok res) => ((st, res), .ok ())
  | (st, .error e) => ((st, old), .error e)

/-- `process_file`, debug_bc1/benchmark.rs:166-255.  The variable `file_result` that the callback fills is the second part of the
state; it is set before (169-173) and read afterwards (254). -/
def processFile {S : Type} (os : Os) (pl : Dds.Platform) (f : Format) (c : BenchCodec S) (lib : Lib) (raw : Raw)
    (hash : Buf → BitVec 128) (env : Answers) (rate : Nat → Nat → Nat) (cfg : Config) (p : Path) :
    Prog (Progress × Option Result) (Except CliError (Option Result)) :=
  .op (.call fun st => some ((st.1, if cfg.dryRun = true then none else some ⟨0, []⟩), ())) fun _ =>
  (extractBlocksFromFile os pl p f.filter fun data _ =>
    .op (.call fun st => (processTexture c lib raw hash env rate cfg data st.1).map (fillResult st.2)) .ret).bind fun r =>
  match r with
  | .error e => .ret (.error e)
  | .ok () => .op (.call fun st => some (st, st.2)) fun res => .ret (.ok res)

/-- The loop of the command over the files, debug_bc1/benchmark.rs:121-152: the results in order. -/
def benchLoop {S : Type} (os : Os) (pl : Dds.Platform) (f : Format) (c : BenchCodec S) (lib : Lib) (raw : Raw)
    (hash : Buf → BitVec 128) (env : Answers) (rate : Nat → Nat → Nat) (cfg : Config) :
    List Path → List Result → Prog (Progress × Option Result) (List Result)
  | [], acc => .ret acc
  | p :: ps, acc =>
    (processFile os pl f c lib raw hash env rate cfg p).bind fun r =>
    match r with
    | .ok (some res) => benchLoop os pl f c lib raw hash env rate cfg ps (acc ++ [res])
    | .ok none => benchLoop os pl f c lib raw hash env rate cfg ps acc
    | .error _ => benchLoop os pl f c lib raw hash env rate cfg ps acc

/-- The part of `handle_benchmark_command` between reading the directory and saving the cache, debug_bc1/benchmark.rs:43-44 and 84-152;
the dry run has no iterations and ignores errors. -/
def benchmark {S : Type} (os : Os) (pl : Dds.Platform) (f : Format) (c : BenchCodec S) (lib : Lib) (raw : Raw)
    (hash : Buf → BitVec 128) (env : Answers) (rate : Nat → Nat → Nat) (opts : AlgorithmOptions) (iterations warmup : Nat)
    (entries : List Path) : Prog (Progress × Option Result) (Except CliError (List Result)) :=
  match validate opts.algorithm with
  | .error e => .ret (.error e)
  | .ok () =>
    let cfg : Config := ⟨iterations, warmup, opts.getLevel, opts.getEstimateLevel, opts.algorithm, opts.getEstimateAlgorithm, false⟩
    (benchLoop os pl f c lib raw hash env rate { cfg with iterations := 0, warmup := 0, dryRun := true } entries []).bind fun _ =>
    (benchLoop os pl f c lib raw hash env rate cfg entries []).bind fun rs => .ret (.ok rs)

/-! ## The formats -/

/-- The scenarios of BC1 and BC2, debug_bc1/benchmark.rs:199-227, debug_bc2/benchmark.rs:196-223. -/
def colourScenarios : List (String × ColourSettings) :=
  [("NoSplit/None", ⟨.none, false⟩), ("NoSplit/YCoCg1", ⟨.v1, false⟩), ("Split/None", ⟨.none, true⟩), ("Split/YCoCg1", ⟨.v1, true⟩)]

/-- The scenarios of BC3, debug_bc3/benchmark.rs:196-260. -/
def bc3Scenarios : List (String × Bc3.Settings) :=
  [("NoSplit/None", { decorr := .none, splitColour := false, splitAlpha := false }),
   ("NoSplit/YCoCg1", { decorr := .v1, splitColour := false, splitAlpha := false }),
   ("Split/None", { decorr := .none, splitColour := true, splitAlpha := false }),
   ("Split/YCoCg1", { decorr := .v1, splitColour := true, splitAlpha := false }),
   ("SplitAlpha/None", { decorr := .none, splitColour := false, splitAlpha := true }),
   ("SplitAlpha/YCoCg1", { decorr := .v1, splitColour := false, splitAlpha := true }),
   ("SplitBoth/None", { decorr := .none, splitColour := true, splitAlpha := true }),
   ("SplitBoth/YCoCg1", { decorr := .v1, splitColour := true, splitAlpha := true })]

/-- `determine_best_transform_details_with_custom_estimator` with `experimental_normalize`, debug_bc1/mod.rs:246-289: the search that
normalizes, and of its result the settings of the transform. -/
def autoNormalized {σ : Type} (h : Norm.Bc1.Heap) (m : Machine) (useAll : Bool) (est : Estimator σ CliError) (data out : Buf)
    (len : Nat) (st : σ) : Option (Buf × σ × Except (DetermineBestError CliError) ColourSettings) :=
  (Norm.Bc1.autoNormalize h m est useAll data out len st).map fun r => (r.1, r.2.1, r.2.2.map fun d => ⟨d.decorr, d.split⟩)

/-- BC1; `norm` is the heap of the search that normalizes, if `experimental_normalize` is given. -/
def bc1 (env : Env) (m : Machine) (useAll : Bool) (norm : Option Norm.Bc1.Heap) : BenchCodec ColourSettings :=
  { DebugStats.bc1 env m useAll with
    auto := match norm with
      | none => (DebugStats.bc1 env m useAll).auto
      | some h => autoNormalized h m useAll
    untransform := Bc1.untransformWithSettings m
    scenarios := colourScenarios }

/-- BC2. -/
def bc2 (env : Env) (m : Machine) (useAll : Bool) : BenchCodec ColourSettings :=
  { DebugStats.bc2 env m useAll with untransform := Bc2.untransformWithSettings m, scenarios := colourScenarios }

/-- BC3. -/
def bc3 (env : Env) (m : Machine) (useAll : Bool) : BenchCodec Bc3.Settings :=
  { DebugStats.bc3 env m useAll with untransform := Bc3.untransformWithSettings m, scenarios := bc3Scenarios }

/-! ## The benchmark of the search -/

/-- `determine_best_transform_details_with_estimator`, debug_bc1/mod.rs:311-325, with a new estimator and no cache; `buf` is the answer of
the allocator.  `auto` is the search of the format. -/
def determineBestPlain {S : Type}
    (auto : Estimator Unit CliError → Buf → Buf → Nat → Unit → Option (Buf × Unit × Except (DetermineBestError CliError) S))
    (lib : Lib) (level : BitVec 32) (a : Algorithm) (data : Buf) (buf : Option Buf) : Option (Except CliError S) :=
  match createSizeEstimator lib a level with
  | .error e => some (.error e)
  | .ok inner =>
    match buf with
    | none => some (.error (.debug "Failed to allocate output buffer"))
    | some buf =>
      match auto inner data buf data.length () with
      | none => none
      | some (_, _, r) => some (r.mapError fun _ => .debug "API recommendation failed")

/-- `n` calls of `run_determine_best_once`, debug_bc1/benchmark_determine_best.rs:126-135 and 139-150; `k` is the number of
allocations so far. -/
def determineLoop {S : Type} (once : Option Buf → Option (Except CliError S)) (heap : Heap) (len : Nat) :
    Nat → Nat → Option (Except CliError Nat)
  | 0, k => some (.ok k)
  | n + 1, k =>
    match once (heap k len) with
    | none => none
    | some (.error e) => some (.error e)
    | some (.ok _) => determineLoop once heap len n (k + 1)

/-- `process_determine_best_scenario`, debug_bc1/benchmark_determine_best.rs:120-165. -/
def determineScenario {S : Type} (once : Option Buf → Option (Except CliError S)) (heap : Heap) (rate : Nat → Nat → Nat)
    (elapsed iterations warmup len : Nat) : Option (Except CliError Scenario) :=
  match determineLoop once heap len warmup 0 with
  | none => none
  | some (.error e) => some (.error e)
  | some (.ok k) =>
    match determineLoop once heap len iterations k with
    | none => none
    | some (.error e) => some (.error e)
    | some (.ok _) =>
      match average elapsed iterations with
      | none => none
      | some t => some (.ok (Scenario.new rate "determine_best_transform_details" len 0 t))

/-- The callback of `process_file`, debug_bc1/benchmark_determine_best.rs:99-113 (bc2 and bc3: 93-107).  The state is the number of
textures so far and the variable `file_result`; `heaps` and `elapsed` tell for each texture what the allocator and the clock answer. -/
def bestTexture {S : Type} (once : Buf → Option Buf → Option (Except CliError S)) (heaps : Nat → Heap) (elapsed : Nat → Nat)
    (rate : Nat → Nat → Nat) (iterations warmup : Nat) (data : Buf) (st : Nat × Option Result) :
    Option ((Nat × Option Result) × Except CliError Unit) :=
  let result := st.2.map fun r => { r with size := data.length }
  match determineScenario (once data) (heaps st.1) rate (elapsed st.1) iterations warmup data.length with
  | none => none
  | some (.error e) => some ((st.1 + 1, result), .error e)
  | some (.ok s) => some ((st.1 + 1, result.map fun r => { r with scenarios := r.scenarios ++ [s] }), .ok ())

/-- `process_file`, debug_bc1/benchmark_determine_best.rs:90-118 (bc2 and bc3: 84-112). -/
def bestFile {S : Type} (os : Os) (pl : Dds.Platform) (f : Format) (once : Buf → Option Buf → Option (Except CliError S))
    (heaps : Nat → Heap) (elapsed : Nat → Nat) (rate : Nat → Nat → Nat) (iterations warmup : Nat) (p : Path) :
    Prog (Nat × Option Result) (Except CliError (Option Result)) :=
  .op (.call fun st => some ((st.1, some ⟨0, []⟩), ())) fun _ =>
  (extractBlocksFromFile os pl p f.filter fun data _ =>
    .op (.call fun st => bestTexture once heaps elapsed rate iterations warmup data st) .ret).bind fun r =>
  match r with
  | .error e => .ret (.error e)
  | .ok () => .op (.call fun st => some (st, st.2)) fun res => .ret (.ok res)

/-- `handle_benchmark_determine_best_command` after reading the directory, debug_bc1/benchmark_determine_best.rs:49-82 (bc2 and bc3:
48-79): the results whose statistics are printed. -/
def bestLoop {S : Type} (os : Os) (pl : Dds.Platform) (f : Format) (once : Buf → Option Buf → Option (Except CliError S))
    (heaps : Nat → Heap) (elapsed : Nat → Nat) (rate : Nat → Nat → Nat) (iterations warmup : Nat) :
    List Path → List Result → Prog (Nat × Option Result) (List Result)
  | [], acc => .ret acc
  | p :: ps, acc =>
    (bestFile os pl f once heaps elapsed rate iterations warmup p).bind fun r =>
    match r with
    | .ok (some res) => bestLoop os pl f once heaps elapsed rate iterations warmup ps (acc ++ [res])
    | .ok none => bestLoop os pl f once heaps elapsed rate iterations warmup ps acc
    | .error _ => bestLoop os pl f once heaps elapsed rate iterations warmup ps acc

/-- The options of the command, debug_bc1/mod.rs:130-158 (bc2 and bc3 do not have `experimental_normalize`). -/
structure BestOptions where
  iterations : Nat := 2
  warmup : Nat := 1
  level : Option (BitVec 32) := none
  algorithm : Algorithm := .zstandard

/-- `get_estimate_compression_level`, debug_bc1/mod.rs:210-215. -/
def BestOptions.getLevel (o : BestOptions) : BitVec 32 := o.level.getD (defaultEstimateLevel o.algorithm)

/-- `handle_benchmark_determine_best_command`, debug_bc1/benchmark_determine_best.rs:29-88, on the entries of the directory; `auto` is the
search that the format makes with an estimator. -/
def bestCommand {S : Type} (os : Os) (pl : Dds.Platform) (f : Format)
    (auto : Estimator Unit CliError → Buf → Buf → Nat → Unit → Option (Buf × Unit × Except (DetermineBestError CliError) S))
    (lib : Lib) (heaps : Nat → Heap) (elapsed : Nat → Nat) (rate : Nat → Nat → Nat) (o : BestOptions) (entries : List Path) :
    Prog (Nat × Option Result) (List Result) :=
  bestLoop os pl f (fun data buf => determineBestPlain auto lib o.getLevel o.algorithm data buf) heaps elapsed rate o.iterations o.warmup
    entries []

/-! ## Statistics -/

/-- `ScenarioStats`, benchmark_common.rs:177-185. -/
structure Stats where
  name : String
  decompressRate : Nat
  untransformRate : Nat
  combinedRate : Nat
  decompressTime : Nat
  untransformTime : Nat
  combinedTime : Nat
  deriving DecidableEq, Repr

/-- All scenarios with the size of their file, benchmark_common.rs:160-165. -/
def allScenarios (results : List Result) : List (Scenario × Nat) :=
  results.flatMap fun r => r.scenarios.map fun s => (s, r.size)

/-- The group of a name, benchmark_common.rs:168-174. -/
def group (results : List Result) (name : String) : List (Scenario × Nat) :=
  (allScenarios results).filter fun e => e.1.name = name

/-- The statistics of a group, benchmark_common.rs:189-245. -/
def groupStats (rate : Nat → Nat → Nat) (name : String) (g : List (Scenario × Nat)) : Stats :=
  let size := (g.map fun e => e.2).sum
  let d := (g.map fun e => e.1.decompressTime).sum
  let u := (g.map fun e => e.1.untransformTime).sum
  let t := (g.map fun e => e.1.combinedTime).sum
  ⟨name, throughput rate size d, throughput rate size u, throughput rate size t, d, u, t⟩

/-- `print_overall_statistics`, benchmark_common.rs:137-277: the lines printed, in order.  `names` are the keys of the `HashMap` in
its iteration order; `sort_by` is stable. -/
def overall (rate : Nat → Nat → Nat) (names : List String) (results : List Result) : List Stats :=
  (names.map fun n => groupStats rate n (group results n)).mergeSort fun a b => decide (b.combinedRate ≤ a.combinedRate)

end Dlt.DebugBench
