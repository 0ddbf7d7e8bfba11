import Verif.Model.Machine
/-!
# The embedded transform header

Models `/repo/src/api/dxt-lossless-transform-file-formats-api/src/embed/`: the 4-byte header that replaces the
magic of a transformed file, and the packing of the settings of each format into it.

The accessors are generated by the macro of the crate `bitfield`; that crate is not part of the
repository.  `getBits` and `setBits` state what its documentation says: field `hi, lo` consists of the bits
`lo` to `hi`, a setter drops the excess bits of the value and leaves the other bits alone.
-/

namespace Dlt.Embed

/-- `bitfield` getter of a field `hi, lo`. -/
def getBits (w : U32) (hi lo : Nat) : U32 := (w <<< (31 - hi)) >>> (31 - hi + lo)

/-- The bits `lo` to `hi`. -/
def fieldMask (hi lo : Nat) : U32 := ((BitVec.allOnes 32 <<< (31 - hi)) >>> (31 - hi + lo)) <<< lo

/-- `bitfield` setter of a field `hi, lo`. -/
def setBits (w : U32) (hi lo : Nat) (v : U32) : U32 :=
  (w &&& ~~~(fieldMask hi lo)) ||| ((v <<< lo) &&& fieldMask hi lo)

/-- `bitfield` getter of a one-bit field. -/
def getBit (w : U32) (i : Nat) : Bool := w.getLsbD i

/-- `bitfield` setter of a one-bit field. -/
def setBit (w : U32) (i : Nat) (b : Bool) : U32 := setBits w i i (if b then 1 else 0)

/-- `TransformFormat`, transform_format.rs:10-31. -/
inductive TransformFormat where
  | bc1 | bc2 | bc3 | bc7 | bc6h | rgba8888 | bgra8888 | bgr888 | bc4 | bc5
  deriving DecidableEq, Repr

/-- `TransformFormat::from_u8`, transform_format.rs:38-53. -/
def TransformFormat.fromU8 (v : Byte) : Option TransformFormat :=
  match (v &&& 0x0F#8).toNat with
  | 0 => some .bc1
  | 1 => some .bc2
  | 2 => some .bc3
  | 3 => some .bc7
  | 4 => some .bc6h
  | 5 => some .rgba8888
  | 6 => some .bgra8888
  | 7 => some .bgr888
  | 8 => some .bc4
  | 9 => some .bc5
  | _ => none

/-- `TransformFormat::to_u8`, transform_format.rs:56-69. -/
def TransformFormat.toU8 : TransformFormat → Byte
  | .bc1 => 0x00
  | .bc2 => 0x01
  | .bc3 => 0x02
  | .bc7 => 0x03
  | .bc6h => 0x04
  | .rgba8888 => 0x05
  | .bgra8888 => 0x06
  | .bgr888 => 0x07
  | .bc4 => 0x08
  | .bc5 => 0x09

/-- `EmbedError`, embed_error.rs:7-15. -/
inductive EmbedError where
  | corruptedEmbeddedData
  | unknownFormat
  deriving DecidableEq, Repr

/-- `TransformHeader`, mod.rs:104-120. -/
structure TransformHeader where
  /-- the wrapped `u32` -/
  word : U32
  deriving DecidableEq, Repr

/-- `TransformHeader::new`, mod.rs:124-129. -/
def TransformHeader.new (format : TransformFormat) (data : U32) : TransformHeader :=
  let header : U32 := 0
  let header := setBits header 3 0 (format.toU8.setWidth 32)
  let header := setBits header 31 4 data
  ⟨header⟩

/-- `format_data`, mod.rs:119. -/
def TransformHeader.formatData (h : TransformHeader) : U32 := getBits h.word 31 4

/-- `TransformHeader::format`, mod.rs:136-138. -/
def TransformHeader.format (h : TransformHeader) : Option TransformFormat :=
  TransformFormat.fromU8 ((getBits h.word 3 0).setWidth 8)

/-- `u32::from_le` and `u32::to_le` on a host with byte order `e`. -/
def le (e : Endian) (w : U32) : U32 :=
  match e with
  | .little => w
  | .big => of32 .little (to32 .big w)

/-- `TransformHeader::read_from_ptr`, mod.rs:147-150. -/
def TransformHeader.read (e : Endian) (b : Buf) (off : Nat) : Option TransformHeader := do
  let value ← ld32 e b off
  pure ⟨le e value⟩

/-- `TransformHeader::write_to_ptr`, mod.rs:159-161. -/
def TransformHeader.write (e : Endian) (h : TransformHeader) (b : Buf) (off : Nat) : Option Buf :=
  st32 e b off (le e h.word)

/-- The trait `EmbeddableTransformDetails`, formats/mod.rs:34-52. -/
structure Embeddable (α : Type) where
  /-- `FORMAT` -/
  format : TransformFormat
  /-- `pack` -/
  pack : α → U32
  /-- `unpack` -/
  unpack : U32 → Except EmbedError α

/-- `to_header`, formats/bc1.rs:123-125, bc2.rs:121-123, bc4.rs:148-150, bc5.rs:148-150, rgba8888.rs:76-78,
bgra8888.rs:76-78, bgr888.rs:76-78.  BC3 and BC7 have no such function yet; the same definition stands for the header
they would get. -/
def Embeddable.toHeader {α : Type} (D : Embeddable α) (a : α) : TransformHeader :=
  .new D.format (D.pack a)

/-- `from_header`, formats/mod.rs:45-51. -/
def Embeddable.fromHeader {α : Type} (D : Embeddable α) (h : TransformHeader) : Except EmbedError α :=
  match h.format with
  | some f => if f = D.format then D.unpack h.formatData else .error .unknownFormat
  | none => .error .unknownFormat

/-- `Bc1HeaderVersion::from_u32`, formats/bc1.rs:21-26; the other formats have their own copy:
bc2.rs:18-23, bc3.rs:16-21, bc4.rs:59-64, bc5.rs:59-64, bc7.rs:23-28, rgba8888.rs, bgra8888.rs, bgr888.rs:21-26. -/
def versionFromU32 (v : U32) : Except EmbedError Unit :=
  if v = 0 then .ok () else .error .corruptedEmbeddedData

/-- `variant_to_u32`, formats/bc1.rs:59-67, bc2.rs:61-69. -/
def variantToU32 : Variant → U32
  | .v1 => 0
  | .v2 => 1
  | .v3 => 2
  | .none => 3

/-- `u32_to_variant`, formats/bc1.rs:70-78, bc2.rs:72-80. -/
def u32ToVariant (v : U32) : Except EmbedError Variant :=
  match v.toNat with
  | 0 => .ok .v1
  | 1 => .ok .v2
  | 2 => .ok .v3
  | 3 => .ok .none
  | _ => .error .corruptedEmbeddedData

/-- `EmbeddableBc1Details`, formats/bc1.rs:80-117. -/
def bc1 : Embeddable ColourSettings where
  format := .bc1
  pack s :=
    let header : U32 := 0
    let header := setBits header 1 0 0
    let header := setBit header 2 s.split
    let header := setBits header 4 3 (variantToU32 s.decorr)
    setBits header 27 5 0
  unpack data := do
    versionFromU32 (getBits data 1 0)
    let decorr ← u32ToVariant (getBits data 4 3)
    pure ⟨decorr, getBit data 2⟩

/-- `EmbeddableBc2Details`, formats/bc2.rs:82-115. -/
def bc2 : Embeddable ColourSettings where
  format := .bc2
  pack s :=
    let header : U32 := 0
    let header := setBits header 1 0 0
    let header := setBits header 4 3 (variantToU32 s.decorr)
    let header := setBit header 2 s.split
    setBits header 27 5 0
  unpack data := do
    versionFromU32 (getBits data 1 0)
    let decorr ← u32ToVariant (getBits data 4 3)
    pure ⟨decorr, getBit data 2⟩

/-- `EmbeddableBc3Details`, formats/bc3.rs:51-70. -/
def bc3 : Embeddable Unit where
  format := .bc3
  pack _ := setBits (setBits 0 1 0 0) 27 2 0
  unpack data := versionFromU32 (getBits data 1 0)

/-- `EmbeddableBc7Details`, formats/bc7.rs:68-87. -/
def bc7 : Embeddable Unit where
  format := .bc7
  pack _ := setBits (setBits 0 1 0 0) 27 2 0
  unpack data := versionFromU32 (getBits data 1 0)

/-- `EmbeddableBc4Details` (format BC4; the settings are `split_endpoints`), formats/bc4.rs:92-134, and
`EmbeddableBc5Details` (format BC5), formats/bc5.rs:92-134. -/
def endpoints (f : TransformFormat) : Embeddable Bool where
  format := f
  pack split :=
    let header : U32 := 0
    let header := setBits header 1 0 0
    let header := setBit header 2 split
    setBits header 27 3 0
  unpack data := do
    versionFromU32 (getBits data 1 0)
    if getBits data 27 3 ≠ 0 then .error .corruptedEmbeddedData
    else pure (getBit data 2)

/-- `with_decorrelation`, formats/rgba8888.rs:67-73, bgra8888.rs:67-73, bgr888.rs:67-73: these details are
the packed word itself. -/
def withDecorrelation (b : Bool) : U32 :=
  let data : U32 := 0
  let data := setBits data 1 0 0
  let data := setBit data 2 b
  setBits data 27 3 0

/-- `EmbeddableRgba8888Details`, `EmbeddableBgra8888Details`, `EmbeddableBgr888Details`, formats/rgba8888.rs:87-107,
bgra8888.rs:87-107, bgr888.rs:87-107. -/
def pixels (f : TransformFormat) : Embeddable U32 where
  format := f
  pack w := w
  unpack data := do
    versionFromU32 (getBits data 1 0)
    if getBits data 27 3 ≠ 0 then .error .corruptedEmbeddedData
    else pure data

end Dlt.Embed
