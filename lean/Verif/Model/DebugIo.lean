import Verif.Model.Cli
import Verif.Model.Auto
import Verif.Model.Decode
/-!
# Block extraction from files and the round trip test of the debug commands

Models `/repo/src/core/dxt-lossless-transform-file-formats-debug/src/file_io.rs` and
`block_extraction.rs`, and of `/repo/src/tools/dxt-lossless-transform-cli/src` the files
`debug_format/mod.rs`, `commands/debug_bc{1,2,3}/roundtrip.rs` and `commands/debug_format_analysis.rs`.

Simplifications.  The same as in `Model/FileIo.lean` and `Model/Cli.lean`.  Messages on the console are left out, except for
whether `handle_debug_error` prints one.  The work on one block list between two system calls is one step.
-/

namespace Dlt.DebugIo

open Dlt.Embed (TransformFormat)
open Dlt.FileFormats Dlt.FileIo Dlt.FileIo.Prog Dlt.Cli

/-- `TransformFormatFilter::from_str`, block_extraction.rs:81-101; `lower` is `str::to_lowercase`.  The text of the error is
left out. -/
def filterFromStr (lower : String → String) (s : String) : Option Dds.Filter :=
  match lower s with
  | "bc1" => some .bc1
  | "bc2" => some .bc2
  | "bc3" => some .bc3
  | "bc4" => some .bc4
  | "bc5" => some .bc5
  | "bc7" => some .bc7
  | "bc6h" => some .bc6h
  | "rgba8888" => some .rgba8888
  | "bgra8888" => some .bgra8888
  | "bgr888" => some .bgr888
  | "all" => some .all
  | _ => none

/-- A handler with the traits `FileFormatDetection`, `FileFormatBlockExtraction` (block_extraction.rs:152-183) and
`TransformFormatCheck` (format_detection.rs:54-76) as arbitrary functions. -/
structure Handler (σ : Type) where
  /-- `can_handle` -/
  canHandle : Buf → Option String → σ → Option (σ × Bool)
  /-- `extract_blocks` -/
  extractBlocks : Buf → Dds.Filter → σ → Option (σ × Except TransformError (Option (Buf × TransformFormat)))
  /-- `get_transform_format` -/
  getTransformFormat : Buf → Dds.Filter → σ → Option (σ × Except TransformError (Option TransformFormat))

/-- `DdsHandler`; it has no state. -/
def ddsHandler {σ : Type} (p : Dds.Platform) : Handler σ where
  canHandle data ext st := (Dds.canHandle p data ext).map fun b => (st, b)
  extractBlocks data filter st := (Dds.extractBlocks p data filter).map fun r => (st, r)
  getTransformFormat data filter st := (Dds.getTransformFormat p data filter).map fun r => (st, r)

/-- `all_handlers`, util/handlers.rs:8-10. -/
def allHandlers {σ : Type} (p : Dds.Platform) : List (Handler σ) := [ddsHandler p]

/-- The loop of `extract_blocks_from_file_format`, file_io.rs:91-115, and the end, file_io.rs:117-120. -/
def extractLoop {σ : Type} (data : Buf) (ext : Option String) (filter : Dds.Filter)
    (test : Buf → TransformFormat → Prog σ (Except TransformError Unit)) : List (Handler σ) → Prog σ (Except FileError Unit)
  | [] => .ret (.error (.transform .noSupportedHandler))
  | h :: hs =>
    .op (.call (h.canHandle data ext)) fun yes =>
    if yes then
      .op (.call (h.extractBlocks data filter)) fun r =>
      match r with
      | .ok (some (blocks, format)) => (test blocks format).bind fun r => .ret (r.mapError .transform)
      | .ok none => .ret (.error (.transform .noSupportedHandler))
      | .error e => .ret (.error (.transform e))
    else extractLoop data ext filter test hs

/-- `extract_blocks_from_file_format`, file_io.rs:71-121. -/
def extractBlocksFromFileFormat {σ : Type} (os : Os) (p : Path) (hs : List (Handler σ)) (filter : Dds.Filter)
    (test : Buf → TransformFormat → Prog σ (Except TransformError Unit)) : Prog σ (Except FileError Unit) :=
  withInput os p fun data => extractLoop data (extractLowercaseExtension os p) filter test hs

/-- The loop of `get_transform_format`, file_io.rs:187-198, and the end, file_io.rs:200-201. -/
def formatLoop {σ : Type} (data : Buf) (ext : Option String) (filter : Dds.Filter) :
    List (Handler σ) → Prog σ (Except FileError (Option TransformFormat))
  | [] => .ret (.ok none)
  | h :: hs =>
    .op (.call (h.canHandle data ext)) fun yes =>
    if yes then .op (.call (h.getTransformFormat data filter)) fun r => .ret (r.mapError .transform)
    else formatLoop data ext filter hs

/-- `get_transform_format`, file_io.rs:168-202. -/
def getTransformFormat {σ : Type} (os : Os) (p : Path) (hs : List (Handler σ)) (filter : Dds.Filter) :
    Prog σ (Except FileError (Option TransformFormat)) :=
  withInput os p fun data => formatLoop data (extractLowercaseExtension os p) filter hs

/-! ## The debug commands -/

/-- `TransformError` of the tool, error.rs:4-16. -/
inductive CliError where
  | io
  | allocate
  | fileOperation (e : FileError)
  | debug (message : String)
  deriving DecidableEq, Repr

/-- `extract_blocks_from_file`, debug_format/mod.rs:21-40: an error of the callback becomes `NoSupportedHandler`. -/
def extractBlocksFromFile {σ : Type} (os : Os) (pl : Dds.Platform) (p : Path) (filter : Dds.Filter)
    (test : Buf → TransformFormat → Prog σ (Except CliError Unit)) : Prog σ (Except CliError Unit) :=
  (extractBlocksFromFileFormat os p (allHandlers pl) filter fun data format =>
    (test data format).bind fun r => .ret (r.mapError fun _ => .noSupportedHandler)).bind fun r =>
  .ret (r.mapError .fileOperation)

/-- `handle_debug_error`, debug_format/mod.rs:44-69: is a message printed? -/
def debugErrorPrinted : Except CliError Unit → Bool
  | .ok () => false
  | .error (.fileOperation (.transform .noSupportedHandler)) => false
  | .error _ => true

/-- The heap: the `k`-th call of `allocate_align_64`, for `n` bytes; `none` if it fails.  The contents are arbitrary
(`/repo/src/core/dxt-lossless-transform-common/src/allocate.rs:97-100`). -/
abbrev Heap := Nat → Nat → Option Buf

/-- An allocation has the size requested. -/
def Heap.Wf (heap : Heap) : Prop := ∀ k n b, heap k n = some b → b.length = n

/-- The comparison of the decoded blocks, debug_bc1/roundtrip.rs:84-102 (bc2: 84-102, bc3: the same): the index of the
first of the blocks `i`, `i + 1`, …, `n - 1` with different pixels. -/
def firstMismatch (decode : Buf → Nat → Option Pixels) (size : Nat) (original restored : Buf) :
    (left : Nat) → (i : Nat) → Option (Option Nat)
  | 0, _ => some none
  | left + 1, i => do
    let a ← decode original (i * size)
    let b ← decode restored (i * size)
    if a ≠ b then pure (some i) else firstMismatch decode size original restored left (i + 1)

/-- `test_bc1_roundtrip`, debug_bc1/roundtrip.rs:54-125 (debug_bc2/roundtrip.rs:54-125, debug_bc3/roundtrip.rs: the same
with the functions of the format): the loop over the settings; `k` counts the allocations.  The message names the block and
the settings; here only the block. -/
def testRoundtrip {S : Type} (heap : Heap) (transform untransform : Buf → Buf → Nat → S → Option Buf)
    (decode : Buf → Nat → Option Pixels) (size : Nat) (data : Buf) : (k : Nat) → List S → Option (Except CliError Unit)
  | _, [] => some (.ok ())
  | k, s :: rest =>
    match heap k data.length with
    | none => some (.error .allocate)
    | some transformed =>
      match heap (k + 1) data.length with
      | none => some (.error .allocate)
      | some restored => do
        let transformed ← transform data transformed data.length s
        let restored ← untransform transformed restored data.length s
        match ← firstMismatch decode size data restored (data.length / size) 0 with
        | some i => pure (.error (.debug s!"Pixel mismatch in block {i}"))
        | none => testRoundtrip heap transform untransform decode size data (k + 2) rest

/-- `YCoCgVariant::all_values()`: the derive macro lists the variants in the order of the declaration, common/src/color_565/decorrelate.rs:74-84. -/
def allVariants : List Variant := [.none, .v1, .v2, .v3]

/-- `Bc1TransformSettings::all_combinations` and `Bc2TransformSettings::all_combinations`, settings.rs:68-77 in both crates. -/
def allColour : List ColourSettings := allVariants.flatMap fun v => [true, false].map fun split => ⟨v, split⟩

/-- `Bc3TransformSettings::all_combinations`, bc3 settings.rs:74-86. -/
def allBc3 : List Bc3.Settings :=
  allVariants.flatMap fun v => [true, false].flatMap fun alphas => [true, false].map fun colours =>
    { decorr := v, splitAlpha := alphas, splitColour := colours }

/-- The formats of the debug commands. -/
inductive Format where
  | bc1 | bc2 | bc3
  deriving DecidableEq, Repr

/-- The filter of the round trip test, debug_bc1/roundtrip.rs:130 and the others. -/
def Format.filter : Format → Dds.Filter
  | .bc1 => .bc1
  | .bc2 => .bc2
  | .bc3 => .bc3

/-- `test_bc1_roundtrip`, `test_bc2_roundtrip` or `test_bc3_roundtrip`. -/
def Format.testRoundtrip (m : Machine) (heap : Heap) (data : Buf) : Format → Option (Except CliError Unit)
  | .bc1 => DebugIo.testRoundtrip heap (Bc1.transformWithSettings m) (Bc1.untransformWithSettings m) Decode.bc1 8 data 0 allColour
  | .bc2 => DebugIo.testRoundtrip heap (Bc2.transformWithSettings m) (Bc2.untransformWithSettings m) Decode.bc2 16 data 0 allColour
  | .bc3 => DebugIo.testRoundtrip heap (Bc3.transformWithSettings m) (Bc3.untransformWithSettings m) Decode.bc3 16 data 0 allBc3

/-- `test_bc1_roundtrip_file`, debug_bc1/roundtrip.rs:127-135, and the others. -/
def testRoundtripFile {σ : Type} (os : Os) (pl : Dds.Platform) (heap : Heap) (f : Format) (p : Path) :
    Prog σ (Except CliError Unit) :=
  extractBlocksFromFile os pl p f.filter fun data _ =>
    .op (.call fun st => (f.testRoundtrip pl.m heap data).map fun r => (st, r)) .ret

/-- The counters `files_tested` and `files_passed` of the command. -/
structure Counters where
  tested : BitVec 64
  passed : BitVec 64
  deriving DecidableEq, Repr

/-- `files_tested.fetch_add(1, Relaxed)` -/
def addTested : Sys Counters Unit := .call fun c => some ({ c with tested := c.tested + 1 }, ())

/-- `files_passed.fetch_add(1, Relaxed)` -/
def addPassed : Sys Counters Unit := .call fun c => some ({ c with passed := c.passed + 1 }, ())

/-- The closure of `for_each` in `handle_roundtrip_command`, debug_bc1/roundtrip.rs:27-39 (bc2, bc3: the same); `heap` is what
the allocator answers to this thread. -/
def roundtripJob (os : Os) (pl : Dds.Platform) (heap : Heap) (f : Format) (p : Path) : Prog Counters Unit :=
  .op addTested fun _ =>
  (testRoundtripFile os pl heap f p).bind fun r =>
  match r with
  | .ok () => .op addPassed fun _ => .ret ()
  | .error _ => .ret ()

/-- The end of `handle_roundtrip_command`, debug_bc1/roundtrip.rs:41-51. -/
def roundtripVerdict (c : Counters) : Except CliError Unit :=
  if c.passed ≠ c.tested then .error (.debug "Some roundtrip tests failed") else .ok ()

/-! ## Format analysis -/

/-- `detect_file_format`, commands/debug_format_analysis.rs:204-211. -/
def detectFileFormat {σ : Type} (os : Os) (pl : Dds.Platform) (p : Path) : Prog σ (Option TransformFormat) :=
  (getTransformFormat os p (allHandlers pl) .all).bind fun r =>
  match r with
  | .ok (some format) => .ret (some format)
  | .ok none => .ret none
  | .error _ => .ret none

/-- `FormatStats`, commands/debug_format_analysis.rs:24-28. -/
structure FormatStats where
  count : Nat
  totalSize : Nat
  deriving DecidableEq, Repr

/-- The loop of `handle_debug_format_analysis_command`, commands/debug_format_analysis.rs:125-162.  The `HashMap` is the
function that maps a missing key to zero.  The key `FormatKey` (commands/debug_format_analysis.rs:33-79) has one value for every
value of `Option<TransformFormat>`, which is used here instead.  The sums do not overflow. -/
def analyzeLoop {σ : Type} (os : Os) (pl : Dds.Platform) :
    List Path → (Option TransformFormat → FormatStats) → Prog σ (Option TransformFormat → FormatStats)
  | [], stats => .ret stats
  | p :: ps, stats =>
    (detectFileFormat os pl p).bind fun format =>
    .op (.fileLen p) fun len =>
    analyzeLoop os pl ps fun k =>
      if k = format then ⟨(stats k).count + 1, (stats k).totalSize + len.getD 0⟩ else stats k

end Dlt.DebugIo
