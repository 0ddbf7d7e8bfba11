import Verif.Model.Dds
/-!
# The work of reading a DDS header

The functions of `Model/Dds.lean` that contain or call the loops over the mip levels, once more with a count of the passes through these loops
(`/repo/src/extensions/file-formats/dxt-lossless-transform-dds/src/dds/parse_dds.rs:316-328, 390-397`).  Everything else in these functions takes a fixed
number of operations.  `Props/DdsWork.lean` proves that the results are those of `Model/Dds.lean`.
-/

namespace Dlt.Dds

/-- A computation with the number of passes made so far; `none` is a panic. -/
structure Work (α : Type) where
  passes : Nat
  value : Option α

namespace Work

/-- No passes. -/
def of {α : Type} (x : Option α) : Work α := ⟨0, x⟩

/-- One after the other. -/
def andThen {α β : Type} (x : Work α) (f : α → Work β) : Work β :=
  match x.value with
  | none => ⟨x.passes, none⟩
  | some a => ⟨x.passes + (f a).passes, (f a).value⟩

instance : Monad Work where
  pure a := ⟨0, some a⟩
  bind := andThen

/-- One pass begins. -/
def pass : Work Unit := ⟨1, some ()⟩

end Work

/-- `blockLevels`, parse_dds.rs:316-328. -/
def blockLevelsWork (p : Platform) (blockSize : U32) : Nat → U32 → U32 → U32 → Work U32
  | 0, total, _, _ => pure total
  | n + 1, total, w, h => do
    Work.pass
    let blocks ← .of (p.mul32 (divCeil4 w) (divCeil4 h))
    let level ← .of (p.mul32 blocks blockSize)
    blockLevelsWork p blockSize n (satAdd total level) (halve w) (halve h)

/-- `pixelLevels`, parse_dds.rs:390-397. -/
def pixelLevelsWork (p : Platform) (bpp : U32) : Nat → U32 → U32 → U32 → Work U32
  | 0, total, _, _ => pure total
  | n + 1, total, w, h => do
    Work.pass
    let pixels ← .of (p.mul32 w h)
    let level ← .of (p.mul32 pixels bpp)
    pixelLevelsWork p bpp n (satAdd total level) (halve w) (halve h)

/-- `calculate_data_length_for_pixel_formats`, parse_dds.rs:376-400. -/
def dataLengthPixelsWork (p : Platform) (width height mips bpp : U32) : Work (Option U32) :=
  if bpp = 0 then pure none
  else do
    let total ← pixelLevelsWork p bpp mips.toNat 0 width height
    pure (some total)

/-- `calculate_uncompressed_data_length`, parse_dds.rs:349-373. -/
def dataLengthUncompressedWork (p : Platform) (data : Buf) (width height mips : U32) : Work (Option U32) := do
  let pixelFlags ← .of (ld32 .little data 0x50)
  let bitCount ← .of (ld32 .little data 0x58)
  if pixelFlags &&& (0x40#32 ||| 0x20000#32 ||| 0x200#32 ||| 0x2#32) = 0 then pure none
  else if bitCount % 8#32 ≠ 0 then pure none
  else dataLengthPixelsWork p width height mips (bitCount / 8#32)

/-- `calculate_data_length_for_block_compression`, parse_dds.rs:285-346. -/
def dataLengthBlocksWork (p : Platform) (format : DdsFormat) (width height mips : U32) : Work (Option U32) :=
  let go (blockSize : U32) : Work (Option U32) := do
    let total ← blockLevelsWork p blockSize mips.toNat 0 width height
    pure (some total)
  match format with
  | .bc1 => go 8#32
  | .bc2 => go 16#32
  | .bc3 => go 16#32
  | .bc4 => go 8#32
  | .bc5 => go 16#32
  | .bc6h => go 16#32
  | .bc7 => go 16#32
  | .rgba8888 | .bgra8888 => dataLengthPixelsWork p width height mips 4#32
  | .bgr888 => dataLengthPixelsWork p width height mips 3#32
  | .unknown => pure (some 0)
  | .notADds => pure none

/-- `calculate_data_length`, parse_dds.rs:236-278. -/
def dataLengthWork (p : Platform) (format : DdsFormat) (data : Buf) : Work (Option U32) := do
  let flags ← .of (ld32 .little data 0x08)
  let height ← .of (ld32 .little data 0x0C)
  let width ← .of (ld32 .little data 0x10)
  let rawMips ← .of (ld32 .little data 0x1C)
  let mips := if flags &&& 0x20000#32 ≠ 0 then (if rawMips = 0 then 1#32 else rawMips) else 1#32
  match format with
  | .bc1 | .bc2 | .bc3 | .bc4 | .bc5 | .bc6h | .bc7 => dataLengthBlocksWork p format width height mips
  | .rgba8888 | .bgra8888 => dataLengthPixelsWork p width height mips 4#32
  | .bgr888 => dataLengthPixelsWork p width height mips 3#32
  | .unknown => dataLengthUncompressedWork p data width height mips
  | .notADds => pure none

/-- The end of `parse_dds_ignore_magic`, parse_dds.rs:160-167. -/
def finishWork (p : Platform) (data : Buf) (format : DdsFormat) (dataOffset : Nat) : Work (Option DdsInfo) := do
  let len ← dataLengthWork p format data
  pure (some ⟨format, BitVec.ofNat 8 dataOffset, len.getD 0⟩)

/-- `parse_dds_ignore_magic`, parse_dds.rs:79-168. -/
def parseIgnoreMagicWork (p : Platform) (data : Buf) : Work (Option DdsInfo) :=
  if data.length < 128 then pure none
  else do
    let fourcc ← .of (ld32 .little data 0x54)
    if fourcc = 0x30315844#32 then
      if data.length < 128 + 20 then pure none
      else
        let dxgi ← .of (ld32 .little data 0x80)
        finishWork p data (dxgiFormat dxgi) (128 + 20)
    else
      let pixelFlags ← .of (ld32 .little data 0x50)
      if pixelFlags &&& 0x4#32 ≠ 0 then finishWork p data (fourccFormat fourcc) 128
      else if pixelFlags &&& 0x40#32 ≠ 0 then
        let format ← .of (detectUncompressedFormat data)
        finishWork p data format 128
      else finishWork p data .unknown 128

/-- `parse_dds`, parse_dds.rs:58-64. -/
def parseDdsWork (p : Platform) (data : Buf) : Work (Option DdsInfo) := do
  let likely ← .of (likelyDds data)
  if likely then parseIgnoreMagicWork p data else pure none

/-- `can_handle`, handler/file_format_detection.rs:7-17. -/
def canHandleWork (p : Platform) (input : Buf) (ext : Option String) : Work Bool :=
  let go : Work Bool := do
    let r ← parseDdsWork p input
    pure r.isSome
  match ext with
  | some e => if e ≠ "dds" then pure false else go
  | none => go

/-- `can_handle_untransform`, handler/file_format_untransform_detection.rs:7-21. -/
def canHandleUntransformWork (p : Platform) (input : Buf) (ext : Option String) : Work Bool :=
  let go : Work Bool :=
    if input.length < 4 then pure false
    else do
      let r ← parseIgnoreMagicWork p input
      pure r.isSome
  match ext with
  | some e => if e ≠ "dds" then pure false else go
  | none => go

end Dlt.Dds
