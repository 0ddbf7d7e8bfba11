import Verif.Model.FileFormats
/-!
# DDS files

Models `/repo/src/extensions/file-formats/dxt-lossless-transform-dds/src`: dds/constants.rs, dds/likely_dds.rs,
dds/parse_dds.rs, dds/exports.rs and handler/, and the format filter of
`/repo/src/core/dxt-lossless-transform-file-formats-debug/src/block_extraction.rs`.

`none` is a panic (or an out-of-bounds read).  Integer overflow is modelled for both kinds of build: it panics when the
build checks overflow (`Platform.overflowChecks`, on in debug builds) and wraps otherwise (release builds).
-/

namespace Dlt.Dds

open Dlt.Embed Dlt.FileFormats

/-- What the code runs on. -/
structure Platform where
  /-- allocator and `usize::MAX` -/
  env : Env
  /-- CPU -/
  m : Machine
  /-- `-C overflow-checks` -/
  overflowChecks : Bool

/-- `u32` multiplication. -/
def Platform.mul32 (p : Platform) (a b : U32) : Option U32 :=
  if p.overflowChecks = true ∧ 2 ^ 32 ≤ a.toNat * b.toNat then none else some (a * b)

/-- `usize` addition. -/
def Platform.addUsize (p : Platform) (a b : Nat) : Option Nat :=
  if p.overflowChecks = true ∧ p.env.usizeMax < a + b then none else some ((a + b) % (p.env.usizeMax + 1))

/-- `u32::saturating_add` -/
def satAdd (a b : U32) : U32 := if 2 ^ 32 ≤ a.toNat + b.toNat then 0xFFFFFFFF#32 else a + b

/-- `w.div_ceil(4)` -/
def divCeil4 (w : U32) : U32 := if w % 4#32 ≠ 0 then w / 4#32 + 1#32 else w / 4#32

/-- `(w / 2).max(1)`, parse_dds.rs:326-327, 395-396. -/
def halve (w : U32) : U32 := if w / 2#32 = 0 then 1#32 else w / 2#32

/-- `DdsFormat`, parse_dds.rs:8-32. -/
inductive DdsFormat where
  | notADds | unknown | bc1 | bc2 | bc3 | bc6h | bc7 | rgba8888 | bgra8888 | bgr888 | bc4 | bc5
  deriving DecidableEq, Repr

/-- `DdsInfo`, parse_dds.rs:37-41. -/
structure DdsInfo where
  format : DdsFormat
  dataOffset : Byte
  dataLength : U32
  deriving DecidableEq, Repr

/-- `likely_dds`, likely_dds.rs:9-13; `DDS_MAGIC`, `DDS_HEADER_SIZE`: constants.rs:5,72. -/
def likelyDds (data : Buf) : Option Bool :=
  if 128 ≤ data.length then do
    let w ← ld32 .little data 0
    pure (w = 0x20534444#32)
  else some false

/-- The DX10 format numbers, parse_dds.rs:98-130, constants.rs:31-69. -/
def dxgiFormat (dxgi : U32) : DdsFormat :=
  match dxgi.toNat with
  | 70 | 71 | 72 => .bc1
  | 73 | 74 | 75 => .bc2
  | 76 | 77 | 78 => .bc3
  | 79 | 80 | 81 => .bc4
  | 82 | 83 | 84 => .bc5
  | 94 | 95 | 96 => .bc6h
  | 97 | 98 | 99 => .bc7
  | 27 | 28 | 29 | 30 | 31 | 32 => .rgba8888
  | 87 | 90 | 91 => .bgra8888
  | _ => .unknown

/-- The four character codes, parse_dds.rs:140-147, constants.rs:11-24. -/
def fourccFormat (fourcc : U32) : DdsFormat :=
  if fourcc = 0x31545844#32 then .bc1
  else if fourcc = 0x32545844#32 ∨ fourcc = 0x33545844#32 then .bc2
  else if fourcc = 0x34545844#32 ∨ fourcc = 0x35545844#32 then .bc3
  else if fourcc = 0x55344342#32 ∨ fourcc = 0x53344342#32 ∨ fourcc = 0x31495441#32 then .bc4
  else if fourcc = 0x55354342#32 ∨ fourcc = 0x53354342#32 ∨ fourcc = 0x32495441#32 then .bc5
  else .unknown

/-- `detect_uncompressed_format`, parse_dds.rs:175-232; masks: constants.rs:111-125. -/
def detectUncompressedFormat (data : Buf) : Option DdsFormat := do
  let pixelFlags ← ld32 .little data 0x50
  let bitCount ← ld32 .little data 0x58
  let r ← ld32 .little data 0x5C
  let g ← ld32 .little data 0x60
  let b ← ld32 .little data 0x64
  let a ← ld32 .little data 0x68
  if bitCount = 24#32 then
    if r = 0x00FF0000#32 ∧ g = 0x0000FF00#32 ∧ b = 0x000000FF#32 ∧ a = 0#32 then pure .bgr888 else pure .unknown
  else if bitCount = 32#32 then
    if pixelFlags &&& 1#32 ≠ 0 then
      if r = 0x000000FF#32 ∧ g = 0x0000FF00#32 ∧ b = 0x00FF0000#32 ∧ a = 0xFF000000#32 then pure .rgba8888
      else if r = 0x00FF0000#32 ∧ g = 0x0000FF00#32 ∧ b = 0x000000FF#32 ∧ a = 0xFF000000#32 then pure .bgra8888
      else pure .unknown
    else pure .unknown
  else pure .unknown

/-- The loop over the mip levels, parse_dds.rs:316-328; the first argument after the block size is the number of levels
left. -/
def blockLevels (p : Platform) (blockSize : U32) : Nat → U32 → U32 → U32 → Option U32
  | 0, total, _, _ => some total
  | n + 1, total, w, h => do
    let blocks ← p.mul32 (divCeil4 w) (divCeil4 h)
    let level ← p.mul32 blocks blockSize
    blockLevels p blockSize n (satAdd total level) (halve w) (halve h)

/-- The loop over the mip levels, parse_dds.rs:390-397. -/
def pixelLevels (p : Platform) (bpp : U32) : Nat → U32 → U32 → U32 → Option U32
  | 0, total, _, _ => some total
  | n + 1, total, w, h => do
    let pixels ← p.mul32 w h
    let level ← p.mul32 pixels bpp
    pixelLevels p bpp n (satAdd total level) (halve w) (halve h)

/-- `calculate_data_length_for_pixel_formats`, parse_dds.rs:376-400. -/
def dataLengthPixels (p : Platform) (width height mips bpp : U32) : Option (Option U32) :=
  if bpp = 0 then some none
  else do
    let total ← pixelLevels p bpp mips.toNat 0 width height
    pure (some total)

/-- `calculate_uncompressed_data_length`, parse_dds.rs:349-373. -/
def dataLengthUncompressed (p : Platform) (data : Buf) (width height mips : U32) : Option (Option U32) := do
  let pixelFlags ← ld32 .little data 0x50
  let bitCount ← ld32 .little data 0x58
  if pixelFlags &&& (0x40#32 ||| 0x20000#32 ||| 0x200#32 ||| 0x2#32) = 0 then pure none
  else if bitCount % 8#32 ≠ 0 then pure none
  else dataLengthPixels p width height mips (bitCount / 8#32)

/-- `calculate_data_length_for_block_compression`, parse_dds.rs:285-346. -/
def dataLengthBlocks (p : Platform) (format : DdsFormat) (width height mips : U32) : Option (Option U32) :=
  let go (blockSize : U32) : Option (Option U32) := do
    let total ← blockLevels p blockSize mips.toNat 0 width height
    pure (some total)
  match format with
  | .bc1 => go 8#32
  | .bc2 => go 16#32
  | .bc3 => go 16#32
  | .bc4 => go 8#32
  | .bc5 => go 16#32
  | .bc6h => go 16#32
  | .bc7 => go 16#32
  | .rgba8888 | .bgra8888 => dataLengthPixels p width height mips 4#32
  | .bgr888 => dataLengthPixels p width height mips 3#32
  | .unknown => some (some 0)
  | .notADds => some none

/-- `calculate_data_length`, parse_dds.rs:236-278. -/
def dataLength (p : Platform) (format : DdsFormat) (data : Buf) : Option (Option U32) := do
  let flags ← ld32 .little data 0x08
  let height ← ld32 .little data 0x0C
  let width ← ld32 .little data 0x10
  let rawMips ← ld32 .little data 0x1C
  let mips := if flags &&& 0x20000#32 ≠ 0 then (if rawMips = 0 then 1#32 else rawMips) else 1#32
  match format with
  | .bc1 | .bc2 | .bc3 | .bc4 | .bc5 | .bc6h | .bc7 => dataLengthBlocks p format width height mips
  | .rgba8888 | .bgra8888 => dataLengthPixels p width height mips 4#32
  | .bgr888 => dataLengthPixels p width height mips 3#32
  | .unknown => dataLengthUncompressed p data width height mips
  | .notADds => pure none

/-- The part of `parse_dds_ignore_magic` that follows the choice of format and offset, parse_dds.rs:160-167. -/
def finish (p : Platform) (data : Buf) (format : DdsFormat) (dataOffset : Nat) : Option (Option DdsInfo) := do
  let len ← dataLength p format data
  pure (some ⟨format, BitVec.ofNat 8 dataOffset, len.getD 0⟩)

/-- `parse_dds_ignore_magic`, parse_dds.rs:79-168. -/
def parseIgnoreMagic (p : Platform) (data : Buf) : Option (Option DdsInfo) :=
  if data.length < 128 then some none
  else do
    let fourcc ← ld32 .little data 0x54
    if fourcc = 0x30315844#32 then
      if data.length < 128 + 20 then pure none
      else
        let dxgi ← ld32 .little data 0x80
        finish p data (dxgiFormat dxgi) (128 + 20)
    else
      let pixelFlags ← ld32 .little data 0x50
      if pixelFlags &&& 0x4#32 ≠ 0 then finish p data (fourccFormat fourcc) 128
      else if pixelFlags &&& 0x40#32 ≠ 0 then
        let format ← detectUncompressedFormat data
        finish p data format 128
      else finish p data .unknown 128

/-- `parse_dds`, parse_dds.rs:58-64. -/
def parseDds (p : Platform) (data : Buf) : Option (Option DdsInfo) := do
  if ← likelyDds data then parseIgnoreMagic p data else pure none

/-- The exported `is_dds`, exports.rs:12-20; a pointer is null or points to the bytes. -/
def isDdsC (ptr : Option Buf) : Option Bool :=
  match ptr with
  | none => some false
  | some data => if data.length = 0 then some false else likelyDds data

/-- The exported `parse_dds`, exports.rs:39-64. -/
def parseDdsC (p : Platform) (ptr : Option Buf) : Option DdsInfo :=
  match ptr with
  | none => some ⟨.notADds, 0, 0⟩
  | some data =>
    if data.length = 0 then some ⟨.notADds, 0, 0⟩
    else do
      match ← parseDds p data with
      | some info => pure ⟨info.format, info.dataOffset, info.dataLength⟩
      | none => pure ⟨.notADds, 0, 0⟩

/-- `dds_format_to_transform_format`, handler/format_conversion.rs:43-102. -/
def toTransformFormat (f : DdsFormat) (allowUnimplemented : Bool) : Except TransformError TransformFormat :=
  let unimplemented (t : TransformFormat) : Except TransformError TransformFormat :=
    if allowUnimplemented then .ok t else .error (.formatHandler (.formatNotImplemented t))
  match f with
  | .bc1 => .ok .bc1
  | .bc2 => .ok .bc2
  | .bc3 => unimplemented .bc3
  | .bc4 => unimplemented .bc4
  | .bc5 => unimplemented .bc5
  | .bc6h => unimplemented .bc6h
  | .bc7 => unimplemented .bc7
  | .rgba8888 => .ok .rgba8888
  | .bgra8888 => .ok .bgra8888
  | .bgr888 => .ok .bgr888
  | .notADds | .unknown => .error (.formatHandler .unknownFileFormat)

/-- `&b[start..stop]` -/
def subslice (b : Buf) (start stop : Nat) : Option Buf :=
  if start ≤ stop ∧ stop ≤ b.length then some (slice b start (stop - start)) else none

/-- `dst[start..stop].copy_from_slice(src)` -/
def copyFromSlice (dst : Buf) (start stop : Nat) (src : Buf) : Option Buf := do
  let d ← subslice dst start stop
  if d.length = src.length then st dst start src else none

/-- The copy of the data after the texture, handler/file_format_handler.rs:62-66, 132-136. -/
def copyLeftover (input output : Buf) (leftoverStart : Nat) : Option Buf :=
  if leftoverStart < input.length then do
    let src ← subslice input leftoverStart input.length
    copyFromSlice output leftoverStart output.length src
  else some output

/-- `DdsHandler::transform_bundle`, handler/file_format_handler.rs:16-78. -/
def transformBundle {σ E : Type} (p : Platform) (dbg : E → String) (bundle : Bundle σ E) (input output : Buf) (st : σ) :
    Option (Res σ Unit) :=
  if output.length < input.length then
    some (output, st, .error (.formatHandler (.outputBufferTooSmall input.length output.length)))
  else do
    match ← parseDds p input with
    | none => pure (output, st, .error (.formatHandler .invalidInputFileHeader))
    | some info =>
      let dataOffset := info.dataOffset.toNat
      let dataLength := info.dataLength.toNat
      let total ← p.addUsize dataOffset dataLength
      if input.length < total then
        pure (output, st, .error (.formatHandler (.inputTooShortForStatedTextureSize total input.length)))
      else
        let hdr ← subslice input 0 dataOffset
        let output ← copyFromSlice output 0 dataOffset hdr
        match toTransformFormat info.format false with
        | .error e => pure (output, st, .error e)
        | .ok format =>
          let stop ← p.addUsize dataOffset dataLength
          let texIn ← subslice input dataOffset stop
          let texOut ← subslice output dataOffset stop
          let (texOut, st, r) ← bundle.dispatchTransform p.env p.m dbg format texIn texOut st
          let output ← Dlt.st output dataOffset texOut
          match r with
          | .error e => pure (output, st, .error e)
          | .ok header =>
            let leftoverStart ← p.addUsize dataOffset dataLength
            let output ← copyLeftover input output leftoverStart
            let output ← header.write p.m.endian output 0
            pure (output, st, .ok ())

/-- `DdsHandler::untransform`, handler/file_format_handler.rs:80-139. -/
def untransform (p : Platform) (input output : Buf) : Option (Buf × Except TransformError Unit) :=
  if input.length < 4 then some (output, .error (.formatHandler (.inputTooShort 4 input.length)))
  else if output.length < input.length then
    some (output, .error (.formatHandler (.outputBufferTooSmall input.length output.length)))
  else do
    let header ← TransformHeader.read p.m.endian input 0
    match ← parseIgnoreMagic p input with
    | none => pure (output, .error (.formatHandler .invalidRestoredFileHeader))
    | some info =>
      let dataOffset := info.dataOffset.toNat
      let dataLength := info.dataLength.toNat
      let total ← p.addUsize dataOffset dataLength
      if input.length < total then
        pure (output, .error (.formatHandler (.inputTooShortForStatedTextureSize total input.length)))
      else
        let output ← copyFromSlice output 0 4 (to32 .little 0x20534444#32)
        let hdr ← subslice input 4 dataOffset
        let output ← copyFromSlice output 4 dataOffset hdr
        let stop ← p.addUsize dataOffset dataLength
        let texIn ← subslice input dataOffset stop
        let texOut ← subslice output dataOffset stop
        let (texOut, r) ← dispatchUntransform p.m header texIn texOut
        let output ← Dlt.st output dataOffset texOut
        match r with
        | .error e => pure (output, .error e)
        | .ok () =>
          let leftoverStart ← p.addUsize dataOffset dataLength
          let output ← copyLeftover input output leftoverStart
          pure (output, .ok ())

/-- `can_handle`, handler/file_format_detection.rs:7-17. -/
def canHandle (p : Platform) (input : Buf) (ext : Option String) : Option Bool :=
  match ext with
  | some e => if e ≠ "dds" then some false else (parseDds p input).map Option.isSome
  | none => (parseDds p input).map Option.isSome

/-- `can_handle_untransform`, handler/file_format_untransform_detection.rs:7-21. -/
def canHandleUntransform (p : Platform) (input : Buf) (ext : Option String) : Option Bool :=
  let go : Option Bool := if input.length < 4 then some false else (parseIgnoreMagic p input).map Option.isSome
  match ext with
  | some e => if e ≠ "dds" then some false else go
  | none => go

/-- `DdsHandler` as a file format handler; it has no state of its own. -/
def handler {σ E : Type} (p : Platform) (dbg : E → String) : Handler σ E where
  transformBundle bundle input output st := transformBundle p dbg bundle input output st
  untransform input output st := (untransform p input output).map fun (o, r) => (o, st, r)
  canHandle input ext st := (canHandle p input ext).map fun b => (st, b)
  canHandleUntransform input ext st := (canHandleUntransform p input ext).map fun b => (st, b)

/-- `TransformFormatFilter`, file-formats-debug block_extraction.rs:36-59. -/
inductive Filter where
  | bc1 | bc2 | bc3 | bc4 | bc5 | bc7 | bc6h | rgba8888 | bgra8888 | bgr888 | all
  deriving DecidableEq, Repr

/-- `TransformFormatFilter::accepts`, file-formats-debug block_extraction.rs:63-78. -/
def Filter.accepts (self : Filter) (format : TransformFormat) : Bool :=
  match self, format with
  | .bc1, .bc1 => true
  | .bc2, .bc2 => true
  | .bc3, .bc3 => true
  | .bc4, .bc4 => true
  | .bc5, .bc5 => true
  | .bc7, .bc7 => true
  | .bc6h, .bc6h => true
  | .rgba8888, .rgba8888 => true
  | .bgra8888, .bgra8888 => true
  | .bgr888, .bgr888 => true
  | .all, _ => true
  | _, _ => false

/-- `get_transform_format`, handler/file_format_check.rs:11-32. -/
def getTransformFormat (p : Platform) (data : Buf) (filter : Filter) :
    Option (Except TransformError (Option TransformFormat)) := do
  match ← parseDds p data with
  | none => pure (.error (.formatHandler .unknownFileFormat))
  | some info =>
    match toTransformFormat info.format true with
    | .error e => pure (.error e)
    | .ok format => if filter.accepts format then pure (.ok (some format)) else pure (.ok none)

/-- `extract_blocks`, handler/file_format_block_extraction.rs:11-53; the result pairs the bytes with the format. -/
def extractBlocks (p : Platform) (data : Buf) (filter : Filter) :
    Option (Except TransformError (Option (Buf × TransformFormat))) := do
  match ← parseDds p data with
  | none => pure (.error (.formatHandler .unknownFileFormat))
  | some info =>
    match toTransformFormat info.format true with
    | .error e => pure (.error e)
    | .ok format =>
      if filter.accepts format then
        let dataOffset := info.dataOffset.toNat
        let dataLength := info.dataLength.toNat
        let total ← p.addUsize dataOffset dataLength
        if data.length < total then
          pure (.error (.formatHandler (.inputTooShortForStatedTextureSize total data.length)))
        else
          let stop ← p.addUsize dataOffset dataLength
          let block ← subslice data dataOffset stop
          pure (.ok (some (block, format)))
      else pure (.ok none)

end Dlt.Dds
