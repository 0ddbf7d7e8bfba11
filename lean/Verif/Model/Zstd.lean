import Verif.Model.DebugBench
/-!
# The two wrappers around zstd

Models `compress` of `/repo/src/extensions/compressors/dxt-lossless-transform-zstd/src/lib.rs` (for the size estimator) and
`/repo/src/tools/dxt-lossless-transform-cli/src/debug_format/compression/zstd/zstd_raw.rs` and `mod.rs` (for the debug commands), call by
call.  Elsewhere (`Model/DebugStats`, `Model/DebugBench`) these functions are arbitrary; `lib` and `raw` below put them in.

The C library is a set of live contexts with their parameters, and two arbitrary functions for the work itself.  A call with a
pointer that is not a live context of the right kind (null, freed) is undefined behaviour: `none`.  A parameter that is out
of its range stays as it was, and the code ignores the error that the library returns.

Simplifications.  What the destination held before does not matter to zstd.  The size of a context is not counted.
-/

namespace Dlt.Zstd

open Dlt.Cache Dlt.DebugIo Dlt.DebugStats Dlt.DebugBench

/-! ## The C library (`zstd.h`) -/

/-- The parameters of a compression context that the code sets; the values at first are those of `zstd.h`. -/
structure Params where
  level : BitVec 32 := 3
  magicless : Bool := false
  contentSize : Bool := true
  checksum : Bool := false
  dictId : Bool := true
  deriving DecidableEq, Repr

/-- `ZSTD_cParameter`: those that the code uses.  `experimentalParam2` is the format. -/
inductive CParam where
  | compressionLevel
  | experimentalParam2
  | contentSizeFlag
  | checksumFlag
  | dictIdFlag
  deriving DecidableEq, Repr

/-- `ZSTD_f_zstd1_magicless`. -/
def magiclessFormat : BitVec 32 := 1

/-- A flag or format: one of two values. -/
def flag (old : Bool) (v : BitVec 32) : Bool := if v = 0 then false else if v = 1 then true else old

/-- What `ZSTD_CCtx_setParameter` does to the parameters. -/
def Params.set (p : Params) : CParam → BitVec 32 → Params
  | .compressionLevel, v => { p with level := v }
  | .experimentalParam2, v => { p with magicless := flag p.magicless v }
  | .contentSizeFlag, v => { p with contentSize := flag p.contentSize v }
  | .checksumFlag, v => { p with checksum := flag p.checksum v }
  | .dictIdFlag, v => { p with dictId := flag p.dictId v }

/-- A context: for compression with its parameters, or for decompression with its format. -/
inductive Context where
  | compression (p : Params)
  | decompression (magicless : Bool)
  deriving DecidableEq, Repr

/-- The live contexts with their addresses, and the number of contexts created so far. -/
structure Contexts where
  live : List (Nat × Context)
  created : Nat
  deriving DecidableEq, Repr

/-- The library. -/
structure Library where
  /-- `ZSTD_compressBound` -/
  bound : Nat → Nat
  /-- where a new context is put; `none` is a null pointer -/
  address : Contexts → Option Nat
  /-- `ZSTD_compress2` for parameters, source and size of the destination: the value returned and the destination afterwards -/
  compress : Params → Buf → Nat → Nat × Buf
  /-- `ZSTD_decompressDCtx` for a format (is it magicless?), source and size of the destination, in the same way -/
  decompress : Bool → Buf → Nat → Nat × Buf
  /-- `ZSTD_isError` -/
  isError : Nat → Bool
  /-- `ZSTD_getErrorCode` -/
  errorCode : Nat → Nat

/-- The context at an address. -/
def Contexts.at (s : Contexts) (a : Nat) : Option Context := (s.live.find? fun x => x.1 = a).map (·.2)

/-- The context at an address becomes another one. -/
def Contexts.put (s : Contexts) (a : Nat) (c : Context) : Contexts :=
  { s with live := s.live.map fun x => if x.1 = a then (a, c) else x }

/-- `ZSTD_createCCtx` and `ZSTD_createDCtx`. -/
def create (z : Library) (c : Context) (s : Contexts) : Option Nat × Contexts :=
  match z.address s with
  | none => (none, s)
  | some a => (some a, { live := (a, c) :: s.live, created := s.created + 1 })

/-- `ZSTD_CCtx_setParameter`. -/
def setC (a : Nat) (q : CParam) (v : BitVec 32) (s : Contexts) : Option Contexts :=
  match s.at a with
  | some (.compression p) => some (s.put a (.compression (p.set q v)))
  | _ => none

/-- `ZSTD_DCtx_setParameter` with `ZSTD_d_experimentalParam1`, the format. -/
def setD (a : Nat) (v : BitVec 32) (s : Contexts) : Option Contexts :=
  match s.at a with
  | some (.decompression f) => some (s.put a (.decompression (flag f v)))
  | _ => none

/-- `ZSTD_compress2`. -/
def compress2 (z : Library) (a : Nat) (capacity : Nat) (source : Buf) (s : Contexts) : Option (Nat × Buf) :=
  match s.at a with
  | some (.compression p) => some (z.compress p source capacity)
  | _ => none

/-- `ZSTD_decompressDCtx`. -/
def decompressDCtx (z : Library) (a : Nat) (capacity : Nat) (source : Buf) (s : Contexts) : Option (Nat × Buf) :=
  match s.at a with
  | some (.decompression f) => some (z.decompress f source capacity)
  | _ => none

/-- `ZSTD_freeCCtx`. -/
def freeC (a : Nat) (s : Contexts) : Option Contexts :=
  match s.at a with
  | some (.compression _) => some { s with live := s.live.filter fun x => x.1 ≠ a }
  | _ => none

/-- `ZSTD_freeDCtx`. -/
def freeD (a : Nat) (s : Contexts) : Option Contexts :=
  match s.at a with
  | some (.decompression _) => some { s with live := s.live.filter fun x => x.1 ≠ a }
  | _ => none

/-- `ZSTD_error_GENERIC`. -/
def errorGeneric : Nat := 1

/-! ## The size estimator: zstd lib.rs -/

/-- `zstd_setcommoncompressparams`, zstd lib.rs:184-199. -/
def estimatorParams (a : Nat) (level : Option (BitVec 32)) (s : Contexts) : Option Contexts := do
  let s ← match level with
    | some lv => setC a .compressionLevel lv s
    | none => some s
  let s ← setC a .experimentalParam2 magiclessFormat s
  let s ← setC a .contentSizeFlag 0 s
  let s ← setC a .checksumFlag 0 s
  setC a .dictIdFlag 0 s

/-- `compress`, zstd lib.rs:146-181: the result, the destination and the contexts afterwards. -/
def estimatorCompress (z : Library) (level : BitVec 32) (source destination : Buf) (s : Contexts) : Option (Except Nat Nat × Buf × Contexts) :=
  match create z (.compression {}) s with
  | (none, s) => some (.error errorGeneric, destination, s)
  | (some a, s) => do
    let s ← estimatorParams a (some level) s
    let (result, destination) ← compress2 z a destination.length source s
    let s ← freeC a s
    if z.isError result = false then pure (.ok result, destination, s)
    else pure (.error (z.errorCode result), destination, s)

/-! ## The debug commands: zstd_raw.rs -/

/-- `max_alloc_for_compress_size`, zstd_raw.rs:15-17. -/
def maxAlloc (z : Library) (n : Nat) : Nat := z.bound n

/-- `zstd_setcommoncompressparams`, zstd_raw.rs:106-121. -/
def rawParams (a : Nat) (level : Option (BitVec 32)) (s : Contexts) : Option Contexts := do
  let s ← match level with
    | some lv => setC a .compressionLevel lv s
    | none => some s
  let s ← setC a .experimentalParam2 magiclessFormat s
  let s ← setC a .contentSizeFlag 0 s
  let s ← setC a .checksumFlag 0 s
  setC a .dictIdFlag 0 s

/-- `zstd_setcommondecompressionparams`, zstd_raw.rs:123-131. -/
def rawDecompressionParams (a : Nat) (s : Contexts) : Option Contexts := setD a magiclessFormat s

/-- `compress`, zstd_raw.rs:69-104. -/
def rawCompress (z : Library) (level : BitVec 32) (source destination : Buf) (s : Contexts) : Option (Except Nat Nat × Buf × Contexts) :=
  match create z (.compression {}) s with
  | (none, s) => some (.error errorGeneric, destination, s)
  | (some a, s) => do
    let s ← rawParams a (some level) s
    let (result, destination) ← compress2 z a destination.length source s
    let s ← freeC a s
    if z.isError result = false then pure (.ok result, destination, s)
    else pure (.error (z.errorCode result), destination, s)

/-- `decompress`, zstd_raw.rs:25-59. -/
def rawDecompress (z : Library) (source destination : Buf) (s : Contexts) : Option (Except Nat Nat × Buf × Contexts) :=
  match create z (.decompression false) s with
  | (none, s) => some (.error errorGeneric, destination, s)
  | (some a, s) => do
    let s ← rawDecompressionParams a s
    let (result, destination) ← decompressDCtx z a destination.length source s
    let s ← freeD a s
    if z.isError result = true then pure (.error (z.errorCode result), destination, s)
    else pure (.ok result, destination, s)

/-- `ZStandardCompression::compress_data`, zstd/mod.rs:12-35: the buffer and the size; `memory` is what the new buffer contains. -/
def compressData (z : Library) (memory : Nat → Buf) (data : Buf) (level : BitVec 32) (s : Contexts) :
    Option (Except CliError (Buf × Nat) × Contexts) := do
  let (r, buffer, s) ← rawCompress z level data (memory (maxAlloc z data.length)) s
  match r with
  | .ok size => pure (.ok (buffer, size), s)
  | .error _ => pure (.error (.debug "ZStandard compression failed"), s)

/-- `ZStandardCompression::decompress_data`, zstd/mod.rs:37-48. -/
def decompressData (z : Library) (compressed output : Buf) (s : Contexts) : Option (Except CliError Nat × Buf × Contexts) := do
  let (r, output, s) ← rawDecompress z compressed output s
  match r with
  | .ok size => pure (.ok size, output, s)
  | .error _ => pure (.error (.debug "ZStandard decompression failed"), output, s)

/-! ## The functions in the other models -/

/-- No contexts. -/
def idle : Contexts := ⟨[], 0⟩

/-- The functions that the estimators use, with the match finder `lz`. -/
def lib (z : Library) (lz : Buf → Nat) : Lib where
  bound := z.bound
  compress level data n := match estimatorCompress z level data (List.replicate n 0) idle with
    | some (r, _, _) => r
    | none => .error 0
  lz := lz

/-- The functions that the benchmark uses: the bytes `[..compressed_size]` and the bytes that are written. -/
def raw (z : Library) : Raw where
  compress level data := match rawCompress z level data (List.replicate (maxAlloc z data.length) 0) idle with
    | some (.ok n, destination, _) => some (destination.take n)
    | _ => none
  decompress data n := match rawDecompress z data (List.replicate n 0) idle with
    | some (.ok k, destination, _) => some (destination.take k)
    | _ => none

end Dlt.Zstd
