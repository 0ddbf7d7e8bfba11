import Verif.Model.Normalize
/-!
# The fuzz targets

Models `/repo/src/fuzz/fuzz_targets/*.rs`.  Each target gets one block of 8 or 16 arbitrary bytes.  `none` is a target that stops
(a failed `assert_eq!`, or an access outside of a buffer in the code under test); `some ()` is a target that returns.

The decoders `rgbcx` and `bcdec_rs` are foreign code and appear as functions that take the block and return sixteen pixels.
-/

namespace Dlt.Fuzz
open Norm

/-- `assert_eq!` -/
def assertEq {α : Type} [DecidableEq α] (a b : α) : Option Unit := if a = b then some () else none

/-- `for x in xs { body }` with a body that has no effect but its assertions -/
def each {α : Type} (xs : List α) (body : α → Option Unit) : Option Unit :=
  match xs with
  | [] => some ()
  | x :: xs => do
    body x
    each xs body

/-- The test at the start of the BC2 and BC3 targets, e.g. bc2_normalize.rs:22-28: whether the block is skipped. -/
def skipped (b : Buf) : Option Bool := do
  let c0 ← ld16 .little b 8
  let c1 ← ld16 .little b 10
  pure (!Color565.greaterThan c0 c1)

/-- `if !c0.greater_than(&c1) { return; }` and the rest of the target -/
def unlessSkipped (b : Buf) (rest : Option Unit) : Option Unit := do
  if ← skipped b then some () else rest

/-! ## BC1 -/

/-- bc1_normalize.rs:16-73 -/
def bc1Normalize (b : Buf) : Option Unit := do
  let original ← Decode.bc1 b 0
  let normalized ← Norm.Bc1.normalizeBlocks (some b) (List.replicate 8 0) 8 .color0Only
  let decoded ← Decode.bc1 normalized 0
  assertEq original decoded
  let repeated ← Norm.Bc1.normalizeBlocks (some b) (List.replicate 8 0) 8 .replicate
  let decoded ← Decode.bc1 repeated 0
  assertEq original decoded

/-- bc1_normalize_all_modes.rs:19-64 -/
def bc1AllModes (b : Buf) : Option Unit := do
  let original ← Decode.bc1 b 0
  let (outs, _) ← Norm.Bc1.allModes (.separate b) (List.replicate 3 (List.replicate 8 0)) 8
  each outs fun o => do
    let decoded ← Decode.bc1 o 0
    assertEq original decoded

/-- bc1_normalize_in_place.rs:17-65 -/
def bc1InPlace (b : Buf) : Option Unit := do
  let original ← Decode.bc1 b 0
  each Mode.all fun mode => do
    let colors ← ld b 0 4
    let indices ← ld b 4 4
    let t ← Norm.Bc1.normalizeSplit mode 0 0 1 ⟨colors, some indices⟩
    let colors ← ld t.colors 0 4
    let out ← st (List.replicate 8 0) 0 colors
    let indices ← ld (t.indices.getD t.colors) 0 4
    let out ← st out 4 indices
    let decoded ← Decode.bc1 out 0
    assertEq original decoded

/-- bc1_decode.rs:19-31; `reference` is `rgbcx_decode_bc1_to_block`, lines 34-54. -/
def bc1Decode (reference : Buf → Pixels) (b : Buf) : Option Unit := do
  let ours ← Decode.bc1 b 0
  assertEq ours (reference b)

/-! ## BC2 -/

/-- bc2_normalize.rs:30-86 -/
def bc2NormalizeBody (b : Buf) : Option Unit := do
  let original ← Decode.bc2 b 0
  let normalized ← Norm.Bc2.normalizeBlocks (some b) (List.replicate 16 0) 16 .color0Only
  let decoded ← Decode.bc2 normalized 0
  assertEq original decoded
  let repeated ← Norm.Bc2.normalizeBlocks (some b) (List.replicate 16 0) 16 .replicate
  let decoded ← Decode.bc2 repeated 0
  assertEq original decoded

/-- bc2_normalize.rs:20-86 -/
def bc2Normalize (b : Buf) : Option Unit := unlessSkipped b (bc2NormalizeBody b)

/-- bc2_normalize_all_modes.rs:36-80 -/
def bc2AllModesBody (b : Buf) : Option Unit := do
  let original ← Decode.bc2 b 0
  let outs ← Norm.Bc2.allModes (.separate b) (List.replicate 3 (List.replicate 16 0)) 16
  each outs fun o => do
    let decoded ← Decode.bc2 o 0
    assertEq original decoded

/-- bc2_normalize_all_modes.rs:26-80 -/
def bc2AllModes (b : Buf) : Option Unit := unlessSkipped b (bc2AllModesBody b)

/-- bc2_normalize_in_place.rs:33-84 -/
def bc2InPlaceBody (b : Buf) : Option Unit := do
  let original ← Decode.bc2 b 0
  each Mode.all fun mode => do
    let alpha ← ld b 0 8
    let colors ← ld b 8 4
    let indices ← ld b 12 4
    let (colors, indices) ← Norm.Bc2.normalizeSplit mode alpha 1 colors indices
    let alpha ← ld alpha 0 8
    let out ← st (List.replicate 16 0) 0 alpha
    let colors ← ld colors 0 4
    let out ← st out 8 colors
    let indices ← ld indices 0 4
    let out ← st out 12 indices
    let decoded ← Decode.bc2 out 0
    assertEq original decoded

/-- bc2_normalize_in_place.rs:23-84 -/
def bc2InPlace (b : Buf) : Option Unit := unlessSkipped b (bc2InPlaceBody b)

/-- bc2_decode_color_only.rs:26-53 -/
def bc2ColorOnlyBody (b : Buf) : Option Unit := do
  let px1 ← Decode.bc1 (b.drop 8) 0
  let px2 ← Decode.bc2 b 0
  each (List.range 16) fun x => do
    let p1 ← px1[x]?
    let p2 ← px2[x]?
    assertEq p1.r p2.r
    assertEq p1.g p2.g
    assertEq p1.b p2.b

/-- bc2_decode_color_only.rs:16-53 -/
def bc2ColorOnly (b : Buf) : Option Unit := unlessSkipped b (bc2ColorOnlyBody b)

/-- `hybrid_decode_bc2_to_block`, bc2_decode.rs:42-75: colours from `rgbcx::unpack_bc1` of the last eight bytes, alpha from
`bcdec_rs::bc2`. -/
def hybridBc2 (unpackBc1 bcdec : Buf → Pixels) (b : Buf) : Pixels :=
  List.zipWith (fun (p q : Color8888) => { p with a := q.a }) (unpackBc1 (b.drop 8)) (bcdec b)

/-- bc2_decode.rs:18-39 -/
def bc2Decode (unpackBc1 bcdec : Buf → Pixels) (b : Buf) : Option Unit :=
  unlessSkipped b do
    let ours ← Decode.bc2 b 0
    assertEq ours (hybridBc2 unpackBc1 bcdec b)

/-! ## BC3 -/

/-- bc3_normalize.rs:33-80 -/
def bc3NormalizeBody (b : Buf) : Option Unit := do
  let original ← Decode.bc3 b 0
  each [Norm.Bc3.AlphaMode.uniformAlphaZeroIndices, .opaqueFillAll, .opaqueZeroAlphaMaxIndices] fun am =>
    each [Mode.color0Only, .replicate] fun cm => do
      let normalized ← Norm.Bc3.normalizeBlocks (some b) (List.replicate 16 0) 16 am cm
      let decoded ← Decode.bc3 normalized 0
      assertEq original decoded

/-- bc3_normalize.rs:22-80 -/
def bc3Normalize (b : Buf) : Option Unit := unlessSkipped b (bc3NormalizeBody b)

/-- bc3_normalize_all_modes.rs:37-87.  The buffers `normalized_blocks[a][c]` are listed as number `a * 3 + c`. -/
def bc3AllModesBody (b : Buf) : Option Unit := do
  let original ← Decode.bc3 b 0
  let outs ← Norm.Bc3.allModes (.separate b) (List.replicate 12 (List.replicate 16 0)) 16
  each outs fun o => do
    let decoded ← Decode.bc3 o 0
    assertEq original decoded

/-- bc3_normalize_all_modes.rs:27-87 -/
def bc3AllModes (b : Buf) : Option Unit := unlessSkipped b (bc3AllModesBody b)

/-- bc3_normalize_in_place.rs:22-85; this target skips nothing. -/
def bc3InPlace (b : Buf) : Option Unit := do
  let original ← Decode.bc3 b 0
  each Norm.Bc3.AlphaMode.all fun am =>
    each Mode.all fun cm => do
      let ae ← ld b 0 2
      let ai ← ld b 2 6
      let ce ← ld b 8 4
      let ci ← ld b 12 4
      let t ← Norm.Bc3.normalizeSplit am cm 1 ⟨ae, ai, ce, ci⟩
      let ae ← ld t.ae 0 2
      let out ← st (List.replicate 16 0) 0 ae
      let ai ← ld t.ai 0 6
      let out ← st out 2 ai
      let ce ← ld t.ce 0 4
      let out ← st out 8 ce
      let ci ← ld t.ci 0 4
      let out ← st out 12 ci
      let decoded ← Decode.bc3 out 0
      assertEq original decoded

/-- bc3_decode.rs:19-41; `reference` is `hybrid_decode_bc3_to_block`, lines 44-62. -/
def bc3Decode (reference : Buf → Pixels) (b : Buf) : Option Unit :=
  unlessSkipped b do
    let ours ← Decode.bc3 b 0
    assertEq ours (reference b)

end Dlt.Fuzz
