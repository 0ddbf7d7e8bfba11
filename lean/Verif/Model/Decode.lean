import Verif.Model.Color565
/-!
# Block decoders

Models `/repo/src/core/dxt-lossless-transform-common/src/{color_8888,decoded_4x4_block}.rs` and
`/repo/src/core/dxt-lossless-transform-bc{1,2,3}/src/util/bc{1,2,3}_decode.rs`.

The decoders read one block through a raw pointer: here the block is at offset `src` of the region
`b`, and a read outside the region is `none`.  `u16::from_le_bytes([*p, *p.add(1)])` is
`ld16 .little`, on every machine.  Interpolation is computed in `u32`/`u16` in Rust; the sums are at
most `3 * 255` and `7 * 255`, so the model computes in `Nat` (proved to make no difference: C85).
-/

namespace Dlt

/-- `struct Color8888`, color_8888.rs:30-39. -/
structure Color8888 where
  /-- red -/
  r : Byte
  /-- green -/
  g : Byte
  /-- blue -/
  b : Byte
  /-- alpha -/
  a : Byte
  deriving DecidableEq, Repr

namespace Color8888

/-- `to_565_lossy`, color_8888.rs:77-79. -/
def to565Lossy (c : Color8888) : U16 := Color565.fromRgb c.r c.g c.b

/-- `without_alpha`, color_8888.rs:92-94. -/
def withoutAlpha (c : Color8888) : Color8888 := ⟨c.r, c.g, c.b, 0⟩

end Color8888

namespace Color565

/-- `to_8888_lossy`, color_565/mod.rs:224-226. -/
def to8888Lossy (c : U16) : Color8888 := ⟨red c, green c, blue c, 255⟩

/-- `to_8888_with_alpha_lossy`, color_565/mod.rs:250-252. -/
def to8888WithAlphaLossy (c : U16) (alpha : Byte) : Color8888 := ⟨red c, green c, blue c, alpha⟩

end Color565

/-- `Decoded4x4Block`, decoded_4x4_block.rs:56-60: the sixteen pixels in row-major order. -/
abbrev Pixels := List Color8888

namespace Pixels

/-- `Decoded4x4Block::new`, decoded_4x4_block.rs:76-80. -/
def new (p : Color8888) : Pixels := List.replicate 16 p

/-- `get_pixel_unchecked`, decoded_4x4_block.rs:88-90. -/
def get (px : Pixels) (x y : Nat) : Option Color8888 := px[y * 4 + x]?

/-- `set_pixel_unchecked`, decoded_4x4_block.rs:98-100. -/
def set (px : Pixels) (x y : Nat) (p : Color8888) : Option Pixels :=
  if y * 4 + x < px.length then some (List.set px (y * 4 + x) p) else none

/-- `has_identical_pixels`, decoded_4x4_block.rs:107-119.  The comparison of the transmuted `u32`
values is the comparison of the four bytes. -/
def identical (px : Pixels) : Option Bool := do
  let first ← px[0]?
  pure (px.all (fun p => p = first))

/-- `has_identical_pixels_ignore_alpha`, decoded_4x4_block.rs:127-135. -/
def identicalIgnoreAlpha (px : Pixels) : Option Bool := do
  let first ← px[0]?
  pure (px.all (fun p => p.withoutAlpha = first.withoutAlpha))

/-- `has_identical_alpha`, decoded_4x4_block.rs:139-142. -/
def identicalAlpha (px : Pixels) : Option Bool := do
  let first ← px[0]?
  pure (px.all (fun p => p.a = first.a))

end Pixels

/-- `for y in 0..4 { for x in 0..4 { body } }`. -/
def forXY {σ : Type} (body : Nat → Nat → σ → Option σ) (s : σ) : Option σ :=
  [0, 1, 2, 3].foldlM (fun s y => [0, 1, 2, 3].foldlM (fun s x => body x y s) s) s

namespace Decode

/-- `((2 * a as u32) + b as u32) / 3` (as `u8`) -/
def third (a b : Byte) : Byte := BitVec.ofNat 8 ((2 * a.toNat + b.toNat) / 3)

/-- `(a as u32 + 2 * b as u32) / 3` (as `u8`) -/
def third' (a b : Byte) : Byte := BitVec.ofNat 8 ((a.toNat + 2 * b.toNat) / 3)

/-- `(a as u32 + b as u32) / 2` (as `u8`) -/
def half (a b : Byte) : Byte := BitVec.ofNat 8 ((a.toNat + b.toNat) / 2)

/-- The dictionary of the four-colour mode, bc1_decode.rs:53-77, bc2_decode.rs:62-84,
bc3_decode.rs:61-84. -/
def dict4 (c0 c1 : U16) : List Color8888 :=
  let (r0, g0, b0) := (Color565.red c0, Color565.green c0, Color565.blue c0)
  let (r1, g1, b1) := (Color565.red c1, Color565.green c1, Color565.blue c1)
  [⟨r0, g0, b0, 255⟩, ⟨r1, g1, b1, 255⟩,
   ⟨third r0 r1, third g0 g1, third b0 b1, 255⟩,
   ⟨third' r0 r1, third' g0 g1, third' b0 b1, 255⟩]

/-- The dictionary of the three-colour mode, bc1_decode.rs:53-65 and 78-85. -/
def dict3 (c0 c1 : U16) : List Color8888 :=
  let (r0, g0, b0) := (Color565.red c0, Color565.green c0, Color565.blue c0)
  let (r1, g1, b1) := (Color565.red c1, Color565.green c1, Color565.blue c1)
  [⟨r0, g0, b0, 255⟩, ⟨r1, g1, b1, 255⟩, ⟨half r0 r1, half g0 g1, half b0 b1, 255⟩, ⟨0, 0, 0, 0⟩]

/-- `decode_bc1_block`, bc1_decode.rs:42-101. -/
def bc1 (b : Buf) (src : Nat) : Option Pixels := do
  let c0 ← ld16 .little b src
  let c1 ← ld16 .little b (src + 2)
  let idx ← ld32 .little b (src + 4)
  let dict := if Color565.greaterThan c0 c1 then dict4 c0 c1 else dict3 c0 c1
  let (px, _) ← forXY (fun x y (px, indexPos) => do
    let p ← dict[((idx >>> indexPos) &&& 3#32).toNat]?
    let px ← Pixels.set px x y p
    pure (px, indexPos + 2)) (Pixels.new ⟨0, 0, 0, 0⟩, 0)
  pure px

/-- `decode_bc1_block_from_slice`, bc1_decode.rs:109-114.  The outer `Option` is the memory model's,
the inner one is the Rust result. -/
def bc1FromSlice (src : Buf) : Option (Option Pixels) :=
  if src.length < 8 then some none else (bc1 src 0).map some

/-- `decode_bc2_block`, bc2_decode.rs:44-122. -/
def bc2 (b : Buf) (src : Nat) : Option Pixels := do
  let c0 ← ld16 .little b (src + 8)
  let c1 ← ld16 .little b (src + 10)
  let idx ← ld32 .little b (src + 12)
  let dict := dict4 c0 c1
  let alphaBytes ← ld b src 8
  let (px, _, _) ← forXY (fun x y (px, indexPos, alphaBitPos) => do
    let p ← dict[((idx >>> indexPos) &&& 3#32).toNat]?
    let shift := (alphaBitPos % 2) * 4
    let byte ← alphaBytes[alphaBitPos / 2]?
    let alphaValue := (byte >>> shift) &&& 0x0F#8
    let px ← Pixels.set px x y { p with a := alphaValue * 17#8 }
    pure (px, indexPos + 2, alphaBitPos + 1)) (Pixels.new ⟨0, 0, 0, 0⟩, 0, 0)
  pure px

/-- `decode_bc2_block_from_slice`, bc2_decode.rs:130-135. -/
def bc2FromSlice (src : Buf) : Option (Option Pixels) :=
  if src.length < 16 then some none else (bc2 src 0).map some

/-- `((p * a0 as u16 + q * a1 as u16) / d) as u8` -/
def mix (p q d : Nat) (a0 a1 : Byte) : Byte := BitVec.ofNat 8 ((p * a0.toNat + q * a1.toNat) / d)

/-- The alpha lookup table, bc3_decode.rs:97-122. -/
def alphaValues (a0 a1 : Byte) : List Byte :=
  if a1.toNat < a0.toNat then
    [a0, a1, mix 6 1 7 a0 a1, mix 5 2 7 a0 a1, mix 4 3 7 a0 a1, mix 3 4 7 a0 a1, mix 2 5 7 a0 a1,
      mix 1 6 7 a0 a1]
  else
    [a0, a1, mix 4 1 5 a0 a1, mix 3 2 5 a0 a1, mix 2 3 5 a0 a1, mix 1 4 5 a0 a1, 0, 255]

/-- `decode_bc3_block`, bc3_decode.rs:43-173. -/
def bc3 (b : Buf) (src : Nat) : Option Pixels := do
  let c0 ← ld16 .little b (src + 8)
  let c1 ← ld16 .little b (src + 10)
  let idx ← ld32 .little b (src + 12)
  let dict := dict4 c0 c1
  let a0 ← ld8 b src
  let a1 ← ld8 b (src + 1)
  let values := alphaValues a0 a1
  let indices ← ld b (src + 2) 6
  let (px, _, _) ← forXY (fun x y (px, indexPos, alphaBitPos) => do
    let p ← dict[((idx >>> indexPos) &&& 3#32).toNat]?
    let bytePos := alphaBitPos / 8
    let bitShift := alphaBitPos % 8
    let alphaIdx ←
      if bitShift ≤ 5 then do
        let byte ← indices[bytePos]?
        pure ((byte >>> bitShift) &&& 0b111#8)
      else do
        let cur ← indices[bytePos]?
        let next ← indices[bytePos + 1]?
        pure (((cur >>> bitShift) ||| (next <<< (8 - bitShift))) &&& 0b111#8)
    let alpha ← values[alphaIdx.toNat]?
    let px ← Pixels.set px x y { p with a := alpha }
    pure (px, indexPos + 2, alphaBitPos + 3)) (Pixels.new ⟨0, 0, 0, 0⟩, 0, 0)
  pure px

/-- `decode_bc3_block_from_slice`, bc3_decode.rs:181-186. -/
def bc3FromSlice (src : Buf) : Option (Option Pixels) :=
  if src.length < 16 then some none else (bc3 src 0).map some

end Decode
end Dlt
