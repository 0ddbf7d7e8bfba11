import Verif.Model.DebugIo
import Verif.Model.Caches
import Verif.Model.CApi
/-!
# Size estimation and compression statistics of the debug commands

Models `/repo/src/extensions/compressors/dxt-lossless-transform-zstd/src/lib.rs` (`ZStandardSizeEstimation`) and of
`/repo/src/tools/dxt-lossless-transform-cli/src` the files `debug_format/estimation/mod.rs`,
`debug_format/compression/helpers.rs` (the size calculations), `debug_format/calc_compression_stats_common.rs`,
`commands/debug_bc{1,2,3}/mod.rs` (`determine_best_transform_details_*`) and
`commands/debug_bc{1,2,3}/calc_compression_stats.rs`.

The size cache is in a `Mutex`; one access to it, `get` or `insert`, is one step.  `SharedCache` has these two accesses, so that the
analysis can be run with a cache that nobody else uses (`Sizes`) and with one that other threads change between the accesses
(`Model/StatsCommand.lean`).

Simplifications.  The compressor zstd and the match finder of lossless-transform-utils are arbitrary functions of
their arguments.  Printing, ratios and the names of methods are left out.
-/

namespace Dlt.DebugStats

open Dlt.Cache Dlt.DebugIo

/-! ## Estimators -/

/-- `ZStandardSizeEstimation::new`, zstd lib.rs:62-69: the level, if it is valid. -/
def zstdNew (level : BitVec 32) : Option (BitVec 32) := if 1 ≤ level.toInt ∧ level.toInt ≤ 22 then some level else none

/-- `ZStandardSizeEstimation::new_fast`, zstd lib.rs:72-76. -/
def zstdFast : BitVec 32 := 1

/-- `ZStandardSizeEstimation::new_default`, zstd lib.rs:79-83; also `Default`, zstd lib.rs:93-97. -/
def zstdDefault : BitVec 32 := 3

/-- `ZStandardSizeEstimation::new_best`, zstd lib.rs:86-90. -/
def zstdBest : BitVec 32 := 22

/-- `impl SizeEstimationOperations for ZStandardSizeEstimation`, zstd lib.rs:99-136.  `bound` is `ZSTD_compressBound`, `compress`
the function of zstd lib.rs:146-181 for data and the size of the destination. -/
def zstd {σ E : Type} (bound : Nat → Nat) (compress : BitVec 32 → Buf → Nat → Except E Nat) (level : BitVec 32) : Estimator σ E where
  maxSize st len := (st, .ok (if len = 0 then 0 else bound len))
  estimate st data n := (st, if data.length = 0 then .ok 0 else compress level data n)

/-- The external functions. -/
structure Lib where
  /-- `ZSTD_compressBound` -/
  bound : Nat → Nat
  /-- `ZSTD_compress2` with these parameters; the error is its code. -/
  compress : BitVec 32 → Buf → Nat → Except Nat Nat
  /-- `estimate_num_lz_matches_fast` -/
  lz : Buf → Nat

/-- A `map_err` around an estimator. -/
def mapErr {σ E F : Type} (f : E → F) (e : Estimator σ E) : Estimator σ F where
  maxSize st len := let r := e.maxSize st len; (r.1, r.2.mapError f)
  estimate st data n := let r := e.estimate st data n; (r.1, r.2.mapError f)

/-- `create_size_estimator` with the wrappers, estimation/mod.rs:20-99. -/
def createSizeEstimator {σ : Type} (lib : Lib) (a : Algorithm) (level : BitVec 32) : Except CliError (Estimator σ CliError) :=
  match a with
  | .zstandard =>
    match zstdNew level with
    | none => .error (.debug "Failed to create ZStandard estimator")
    | some level => .ok (mapErr (fun _ => .debug "ZStandard estimation failed") (zstd lib.bound lib.compress level))
  | .losslessTransformUtils =>
    .ok (mapErr (fun _ : Unit => .debug "LosslessTransformUtils estimation failed") (CApi.ltu lib.lz))

/-- `calc_size_with_estimation_algorithm`, compression/helpers.rs:86-114. -/
def calcSize (env : Env) (lib : Lib) (d : Buf) (level : BitVec 32) (a : Algorithm) : Except CliError Nat := do
  let e ← createSizeEstimator (σ := Unit) lib a level
  let max ← (e.maxSize () d.length).2
  if max = 0 then (e.estimate () d 0).2
  else if env.canAlloc max then (e.estimate () d max).2
  else .error .allocate

/-- The two accesses to a `Mutex<CompressionSizeCache>`, with what one thread sees as the state. -/
class SharedCache (σ : Type) where
  /-- `cache.lock().unwrap().get(…)` -/
  get : σ → Key → σ × Option Nat
  /-- `cache.lock().unwrap().insert(…)` -/
  insert : σ → Key → Nat → σ

/-- A cache that no other thread uses. -/
instance : SharedCache Sizes := ⟨fun cache k => (cache, cache.get k), Sizes.insert⟩

/-- `calc_size_with_cache_and_estimation_algorithm`, compression/helpers.rs:120-155. -/
def calcSizeCached {σ : Type} [SharedCache σ] (env : Env) (lib : Lib) (hash : Buf → BitVec 128) (level : BitVec 32) (a : Algorithm)
    (cache : σ) (d : Buf) : σ × Except CliError Nat :=
  match SharedCache.get cache ⟨hash d, level, a⟩ with
  | (cache, some n) => (cache, .ok n)
  | (cache, none) =>
    match calcSize env lib d level a with
    | .error e => (cache, .error e)
    | .ok n => (SharedCache.insert cache ⟨hash d, level, a⟩ n, .ok n)

/-- `CachedSizeEstimator`, estimation/mod.rs:105-183; the state is the cache. -/
def cachedEstimator {σ : Type} [SharedCache σ] (hash : Buf → BitVec 128) (level : BitVec 32) (a : Algorithm)
    (inner : Estimator Unit CliError) : Estimator σ CliError where
  maxSize cache len := (cache, (inner.maxSize () len).2)
  estimate cache d n :=
    match SharedCache.get cache ⟨hash d, level, a⟩ with
    | (cache, some size) => (cache, .ok size)
    | (cache, none) =>
      match (inner.estimate () d n).2 with
      | .error e => (cache, .error e)
      | .ok size => (SharedCache.insert cache ⟨hash d, level, a⟩ size, .ok size)

/-! ## Results -/

/-- `TransformResult`, calc_compression_stats_common.rs:65-72. -/
structure TransformResult (S : Type) where
  options : S
  size : Nat
  deriving DecidableEq, Repr

/-- `CompressionStatsResult`, calc_compression_stats_common.rs:15-25, without the path. -/
structure StatsResult (S : Type) where
  originalUncompressed : Nat
  originalCompressed : Nat
  allResults : List (TransformResult S)
  api : TransformResult S
  deriving DecidableEq

/-- The loop of `find_best_result`, calc_compression_stats_common.rs:38-43. -/
def findBestLoop {S : Type} : List (TransformResult S) → TransformResult S → Nat → TransformResult S
  | [], best, _ => best
  | r :: rs, best, bestSize => if r.size < bestSize then findBestLoop rs r r.size else findBestLoop rs best bestSize

/-- `find_best_result`, calc_compression_stats_common.rs:34-46; `dflt` is `T::default()`. -/
def findBest {S : Type} (usizeMax : Nat) (dflt : S) (rs : List (TransformResult S)) : TransformResult S :=
  findBestLoop rs ⟨dflt, 0⟩ usizeMax

/-- `find_default_result`, calc_compression_stats_common.rs:50-57; `none` is the panic of `expect`. -/
def findDefault {S : Type} [DecidableEq S] (dflt : S) (rs : List (TransformResult S)) : Option (TransformResult S) :=
  rs.find? fun r => r.options = dflt

/-! ## The analysis of one texture -/

/-- What differs between the formats. -/
structure Codec (S : Type) where
  /-- `transform_bcN_with_settings` -/
  transform : Buf → Buf → Nat → S → Option Buf
  /-- `transform_bcN_auto` on input, output and length -/
  auto : {σ : Type} → Estimator σ CliError → Buf → Buf → Nat → σ → Option (Buf × σ × Except (DetermineBestError CliError) S)
  /-- `all_combinations` -/
  all : List S

/-- The loop of `analyze_bcN_compression_transforms`, debug_bc1/calc_compression_stats.rs:206-225 (the others: the same). -/
def analyzeTransforms {S σ : Type} (c : Codec S) (size : σ → Buf → σ × Except CliError Nat) (data : Buf) :
    List S → Buf → σ → Option (σ × Except CliError (List (TransformResult S)))
  | [], _, cache => some (cache, .ok [])
  | s :: rest, buf, cache => do
    let buf ← c.transform data buf data.length s
    match size cache buf with
    | (cache, .error e) => pure (cache, .error e)
    | (cache, .ok n) =>
      match ← analyzeTransforms c size data rest buf cache with
      | (cache, .error e) => pure (cache, .error e)
      | (cache, .ok rs) => pure (cache, .ok (⟨s, n⟩ :: rs))

/-- `determine_best_transform_details_with_estimator_cached` with `…_with_custom_estimator`, debug_bc3/mod.rs:231-320 (bc2: the same;
bc1: the same; its `experimental_normalize` is `DebugBench.autoNormalized`); `buf` is the answer of the allocator. -/
def determineBest {S σ : Type} [SharedCache σ] (c : Codec S) (lib : Lib) (hash : Buf → BitVec 128) (level : BitVec 32) (a : Algorithm)
    (data : Buf) (buf : Option Buf) (cache : σ) : Option (σ × Except CliError S) :=
  match createSizeEstimator lib a level with
  | .error e => some (cache, .error e)
  | .ok inner =>
    match buf with
    | none => some (cache, .error (.debug "Failed to allocate output buffer"))
    | some buf => do
      let (_, cache, r) ← c.auto (cachedEstimator hash level a inner) data buf data.length cache
      pure (cache, r.mapError fun _ => .debug "API recommendation failed")

/-- The callback of `analyze_bcN_compression_file`, debug_bc1/calc_compression_stats.rs:159-188, with
`analyze_bc1_compression_transforms` (194-229) and `analyze_bc1_api_recommendation` (232-274); the other formats: the same. -/
def analyzeTexture {S σ : Type} [SharedCache σ] (c : Codec S) (env : Env) (heap : Heap) (lib : Lib) (hash : Buf → BitVec 128)
    (level : BitVec 32) (a : Algorithm) (estLevel : BitVec 32) (estAlg : Algorithm) (data : Buf) (cache : σ) :
    Option (σ × Except CliError (StatsResult S)) :=
  let size := calcSizeCached env lib hash level a
  match heap 0 data.length with
  | none => some (cache, .error .allocate)
  | some buf => do
    match ← analyzeTransforms c size data c.all buf cache with
    | (cache, .error e) => pure (cache, .error e)
    | (cache, .ok results) =>
      match size cache data with
      | (cache, .error e) => pure (cache, .error e)
      | (cache, .ok original) =>
        match ← determineBest c lib hash estLevel estAlg data (heap 1 data.length) cache with
        | (cache, .error e) => pure (cache, .error e)
        | (cache, .ok best) =>
          match heap 2 data.length with
          | none => pure (cache, .error .allocate)
          | some buf => do
            let buf ← c.transform data buf data.length best
            match size cache buf with
            | (cache, .error e) => pure (cache, .error e)
            | (cache, .ok n) => pure (cache, .ok ⟨data.length, original, results, ⟨best, n⟩⟩)

/-- The format BC1; `env` and `useAll` are those of the search. -/
def bc1 (env : Env) (m : Machine) (useAll : Bool) : Codec ColourSettings :=
  ⟨Bc1.transformWithSettings m, fun est data out len st => Bc1.transformAuto env m est useAll data out len st, allColour⟩

/-- The format BC2. -/
def bc2 (env : Env) (m : Machine) (useAll : Bool) : Codec ColourSettings :=
  ⟨Bc2.transformWithSettings m, fun est data out len st => Bc2.transformAuto env m est useAll data out len st, allColour⟩

/-- The format BC3. -/
def bc3 (env : Env) (m : Machine) (useAll : Bool) : Codec Bc3.Settings :=
  ⟨Bc3.transformWithSettings m, fun est data out len st => Bc3.transformAuto env m est useAll data out len st, allBc3⟩

end Dlt.DebugStats
