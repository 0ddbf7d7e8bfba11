import Verif.Model.Normalize
import Verif.Model.SplitEndpoints
import Verif.Model.Bc7
import Verif.Conformance.Basic
/-!
# Unit tests of decoders, splitting and normalization

Unit tests in `/repo/src/core`, run in the model by the kernel.
-/

namespace Dlt.Conformance.Blocks

open Dlt Dlt.Norm

/-! ## Decoders -/

/-- Sixteen pixels given by red, green, blue and alpha. -/
def pixels (l : List (Nat × Nat × Nat × Nat)) : Pixels :=
  l.map fun p => ⟨BitVec.ofNat 8 p.1, BitVec.ofNat 8 p.2.1, BitVec.ofNat 8 p.2.2.1, BitVec.ofNat 8 p.2.2.2⟩

/-- can_decode_bc1_block, bc1_decode.rs:120-138. -/
example : Decode.bc1FromSlice (bytes [0x00, 0xF8, 0x00, 0xF8, 0, 0, 0, 0]) =
    some (some (pixels (List.replicate 16 (255, 0, 0, 255)))) := by decide +kernel

/-- can_decode_bc1_block_with_transparency, bc1_decode.rs:140-158. -/
example : Decode.bc1FromSlice (bytes [0x00, 0xF0, 0x00, 0xF8, 0xFF, 0xFF, 0xFF, 0xFF]) =
    some (some (pixels (List.replicate 16 (0, 0, 0, 0)))) := by decide +kernel

/-- has_identical_pixels, bc1_decode.rs:160-178. -/
example : (Pixels.new ⟨100, 150, 200, 255⟩).identical = some true ∧
    ((Pixels.new ⟨100, 150, 200, 255⟩).set 2 2 ⟨101, 150, 200, 255⟩).bind Pixels.identical = some false := by decide +kernel

/-- can_decode_bc2_block, bc2_decode.rs:143-177. -/
example : Decode.bc2FromSlice (bytes [0x10, 0x32, 0x54, 0x76, 0x98, 0xBA, 0xDC, 0xFE, 0x00, 0xF8, 0x00, 0xF8, 0, 0, 0, 0]) =
    some (some (pixels ([0, 17, 34, 51, 68, 85, 102, 119, 136, 153, 170, 187, 204, 221, 238, 255].map fun a => (255, 0, 0, a)))) := by
  decide +kernel

/-- can_decode_bc2_block_with_zero_alpha, bc2_decode.rs:179-202. -/
example : Decode.bc2FromSlice (bytes [0, 0, 0, 0, 0, 0, 0, 0, 0x00, 0xF8, 0x00, 0xF8, 0, 0, 0, 0]) =
    some (some (pixels (List.replicate 16 (255, 0, 0, 0)))) := by decide +kernel

/-- test_slice_too_small, bc2_decode.rs:204-213 and bc3_decode.rs:319-323. -/
example : Decode.bc2FromSlice (List.replicate 15 0) = some none ∧ Decode.bc3FromSlice (List.replicate 15 0) = some none := by
  decide +kernel

/-- can_decode_bc3_block, bc3_decode.rs:194-235. -/
example : Decode.bc3FromSlice (bytes [0, 0, 0, 255, 255, 255, 255, 255, 255, 255, 18, 0, 0, 0, 0, 250]) =
    some (some (pixels (List.replicate 3 (255, 255, 255, 0) ++ List.replicate 9 (255, 255, 255, 255) ++
      List.replicate 2 (170, 170, 219, 255) ++ List.replicate 2 (85, 85, 183, 255)))) := by decide +kernel

/-- can_decode_bc3_block_with_varying_alpha, bc3_decode.rs:237-276. -/
example : Decode.bc3FromSlice (bytes [41, 1, 253, 178, 0, 0, 0, 0, 10, 0, 0, 0, 0, 0, 77, 0]) =
    some (some (pixels [(0, 0, 82, 18), (0, 0, 82, 6), (0, 0, 82, 29), (0, 0, 82, 1), (0, 0, 82, 29), (0, 0, 82, 1), (0, 0, 82, 41),
      (0, 0, 82, 41), (0, 0, 0, 41), (0, 0, 27, 41), (0, 0, 82, 41), (0, 0, 0, 41), (0, 0, 82, 41), (0, 0, 82, 41), (0, 0, 82, 41),
      (0, 0, 82, 41)])) := by decide +kernel

/-- can_decode_bc3_block_with_fixed_alpha, bc3_decode.rs:278-317. -/
example : Decode.bc3FromSlice (bytes [221, 0, 0, 0, 0, 0, 0, 0, 10, 0, 0, 0, 0, 0, 212, 0]) =
    some (some (pixels (List.replicate 9 (0, 0, 82, 221) ++ [(0, 0, 0, 221), (0, 0, 0, 221), (0, 0, 27, 221)] ++
      List.replicate 4 (0, 0, 82, 221)))) := by decide +kernel

/-! ## Splitting of end points -/

/-- test_reference_implementation, split_565_color_endpoints/tests.rs:128-153. -/
example : ∀ e, Split.portable e
    (bytes [0x00, 0x01, 0x10, 0x11, 0x04, 0x05, 0x14, 0x15, 0x08, 0x09, 0x18, 0x19]) (List.replicate 12 0) 12 =
    some (bytes [0x00, 0x01, 0x04, 0x05, 0x08, 0x09, 0x10, 0x11, 0x14, 0x15, 0x18, 0x19]) := by
  intro e; cases e <;> decide +kernel

/-! ## BC7 -/

open Bc7 in
/-- msb_extract_bits.rs:39-68. -/
example : extractMsbBits 0b10110000 0 0 = some 1 ∧ extractMsbBits 0b10110000 1 1 = some 0 ∧ extractMsbBits 0b10110000 2 2 = some 1 ∧
    extractMsbBits 0b10110000 7 7 = some 0 ∧ extractMsbBits 0b10110001 0 1 = some 0b10 ∧ extractMsbBits 0b10110001 1 3 = some 0b011 ∧
    extractMsbBits 0b10110001 0 3 = some 0b1011 ∧ extractMsbBits 0b10110001 4 7 = some 0b0001 ∧
    extractMsbBits 0b10110000 0 7 = some 0b10110000 ∧ extractMsbBits 0b10111000 0 0 = some 1 ∧
    extractMsbBits 0b10111000 1 4 = some 0b0111 := by decide +kernel

open Bc7 in
/-- msb_insert_bits.rs:47-87. -/
example : insertMsbBits 0 1 0 0 = some 0b10000000 ∧ insertMsbBits 0 1 7 7 = some 0b00000001 ∧
    insertMsbBits 0b11111111 0 3 3 = some 0b11101111 ∧ insertMsbBits 0 0b11 0 1 = some 0b11000000 ∧
    insertMsbBits 0 0b101 1 3 = some 0b01010000 ∧ insertMsbBits 0 0b1111 4 7 = some 0b00001111 ∧
    insertMsbBits 0b11111111 0 2 5 = some 0b11000011 ∧ insertMsbBits 0b11111111 0b10110000 0 7 = some 0b10110000 ∧
    insertMsbBits 0b10101010 0b11 3 4 = some 0b10111010 ∧ extractMsbBits 0b10111010 0 2 = some 0b101 ∧
    extractMsbBits 0b10111010 5 7 = some 0b010 := by decide +kernel

/-! ## Normalization of BC1 -/

/-- A solid red block after normalization. -/
def red : Mode → List Nat
  | .replicate => [0x00, 0xF8, 0x00, 0xF8, 0, 0, 0, 0]
  | _ => [0x00, 0xF8, 0, 0, 0, 0, 0, 0]

/-- The modes of the parametrised tests. -/
def both : List Mode := [.color0Only, .replicate]

/-- can_normalize_solid_color_block, bc1 normalize.rs:507-559. -/
example : ∀ m ∈ both, Norm.Bc1.normalizeBlocks (some (bytes [0x00, 0xF8, 0x01, 0x01, 0, 0, 0, 0])) (List.replicate 8 0) 8 m =
    some (bytes (red m)) := by decide +kernel

/-- can_normalize_transparent_block, bc1 normalize.rs:561-598. -/
example : ∀ m ∈ both, Norm.Bc1.normalizeBlocks (some (bytes [0x00, 0x80, 0x00, 0xF8, 0xFF, 0xFF, 0xFF, 0xFF])) (List.replicate 8 0) 8 m =
    some (List.replicate 8 0xFF) := by decide +kernel

/-- can_preserve_mixed_color_block and can_preserve_non_roundtrippable_color_block, bc1 normalize.rs:600-674. -/
example : ∀ m ∈ both, ∀ b ∈ [bytes [0x00, 0xF8, 0x1F, 0x00, 17, 17, 17, 17], bytes [0x00, 0xF8, 0x1F, 0x00, 0xAA, 0xAA, 0xAA, 0xAA]],
    Norm.Bc1.normalizeBlocks (some b) (List.replicate 8 0) 8 m = some b := by decide +kernel

/-- The source of the two tests with two blocks. -/
def two : Buf := bytes [0x00, 0xF8, 0, 0, 0, 0, 0, 0, 0x00, 0x80, 0x00, 0xF8, 0xFF, 0xFF, 0xFF, 0xFF]

/-- can_normalize_multiple_blocks, bc1 normalize.rs:676-747. -/
example : ∀ m ∈ both, Norm.Bc1.normalizeBlocks (some two) (List.replicate 16 0) 16 m =
    some (bytes (red m) ++ List.replicate 8 0xFF) := by decide +kernel

/-- can_normalize_blocks_all_modes, bc1 normalize.rs:749-849. -/
example : (Norm.Bc1.allModes (.separate two) (List.replicate 3 (List.replicate 16 0)) 16).map Prod.fst =
    some (Mode.all.map fun m => bytes (red m) ++ List.replicate 8 0xFF) := by decide +kernel

/-- can_normalize_in_place, bc1 normalize.rs:851-911. -/
example : Norm.Bc1.normalizeBlocks none (bytes [0x00, 0xF8, 0x00, 0xF8, 0, 0, 0, 0]) 8 .color0Only = some (bytes (red .color0Only)) ∧
    Norm.Bc1.normalizeBlocks none (bytes [0, 0, 1, 0, 0xFF, 0xFF, 0xFF, 0xFF]) 8 .color0Only = some (List.replicate 8 0xFF) := by
  decide +kernel

/-- Colours of three blocks, each red twice. -/
def threeReds : Buf := bytes [0x00, 0xF8, 0x00, 0xF8, 0x00, 0xF8, 0x00, 0xF8, 0x00, 0xF8, 0x00, 0xF8]

/-- can_normalize_split_blocks_in_place and the test with ReplicateColor, bc1 normalize.rs:914-1076. -/
example : (Norm.Bc1.normalizeSplit .color0Only 0 0 2 ⟨threeReds, some (List.replicate 12 0xAA)⟩).map (fun t => (t.colors, t.indices)) =
      some (bytes [0x00, 0xF8, 0, 0, 0x00, 0xF8, 0, 0, 0x00, 0xF8, 0x00, 0xF8], some (List.replicate 8 0 ++ List.replicate 4 0xAA)) ∧
    (Norm.Bc1.normalizeSplit .replicate 0 0 2 ⟨threeReds, some (List.replicate 12 0x55)⟩).map (fun t => (t.colors, t.indices)) =
      some (threeReds, some (List.replicate 8 0 ++ List.replicate 4 0x55)) := by decide +kernel

/-! ## Normalization of BC2 -/

/-- Eight bytes of opaque alpha. -/
def opaqueAlpha : Buf := List.replicate 8 0xFF

/-- can_normalize_solid_color_block, bc2 normalize.rs:484-553. -/
example : ∀ m ∈ both,
    Norm.Bc2.normalizeBlocks (some (opaqueAlpha ++ bytes [0x00, 0xF8, 0x01, 0x01, 0, 0, 0, 0])) (List.replicate 16 0) 16 m =
    some (opaqueAlpha ++ bytes (red m)) := by decide +kernel

/-- can_preserve_mixed_color_block and can_preserve_non_roundtrippable_color_block, bc2 normalize.rs:555-643. -/
example : ∀ m ∈ both, ∀ b ∈ [opaqueAlpha ++ bytes [0x00, 0xF8, 0x1F, 0x00, 17, 17, 17, 17],
      opaqueAlpha ++ bytes [0x00, 0xF8, 0x1F, 0x00, 0xAA, 0xAA, 0xAA, 0xAA]],
    Norm.Bc2.normalizeBlocks (some b) (List.replicate 16 0) 16 m = some b := by decide +kernel

/-- can_preserve_varying_alpha_block, bc2 normalize.rs:645-695. -/
example : ∀ m ∈ both,
    Norm.Bc2.normalizeBlocks (some (bytes [0, 32, 64, 96, 128, 160, 192, 224, 0x00, 0xF8, 0, 0, 0, 0, 0, 0])) (List.replicate 16 0) 16 m =
    some (bytes [0, 32, 64, 96, 128, 160, 192, 224] ++ bytes (red m)) := by decide +kernel

/-- can_normalize_multiple_blocks, bc2 normalize.rs:697-775. -/
example : ∀ m ∈ both,
    Norm.Bc2.normalizeBlocks (some (opaqueAlpha ++ bytes (red .color0Only) ++ opaqueAlpha ++ bytes [0x00, 0xF8, 0x1F, 0x00, 17, 17, 17, 17]))
      (List.replicate 32 0) 32 m =
    some (opaqueAlpha ++ bytes (red m) ++ opaqueAlpha ++ bytes [0x00, 0xF8, 0x1F, 0x00, 17, 17, 17, 17]) := by decide +kernel

/-- The block of the two tests below. -/
def solid2 : Buf := opaqueAlpha ++ bytes [0x00, 0xF8, 0x01, 0x01, 0, 0, 0, 0]

/-- can_normalize_blocks_all_modes, bc2 normalize.rs:777-841. -/
example : Norm.Bc2.allModes (.separate (solid2 ++ solid2)) (List.replicate 3 (List.replicate 32 0)) 32 =
    Mode.all.mapM fun m => Norm.Bc2.normalizeBlocks (some (solid2 ++ solid2)) (List.replicate 32 0) 32 m := by decide +kernel

/-- can_perform_inplace_transformation, bc2 normalize.rs:843-896. -/
example : ∀ m ∈ Mode.all, Norm.Bc2.normalizeBlocks none solid2 16 m = Norm.Bc2.normalizeBlocks (some solid2) (List.replicate 16 0) 16 m := by
  decide +kernel

/-- can_normalize_split_blocks_in_place and the test with ReplicateColor, bc2 normalize.rs:898-1076. -/
example : Norm.Bc2.normalizeSplit .color0Only (List.replicate 24 0xFF) 2 threeReds (List.replicate 12 0xAA) =
      some (bytes [0x00, 0xF8, 0, 0, 0x00, 0xF8, 0, 0, 0x00, 0xF8, 0x00, 0xF8], List.replicate 8 0 ++ List.replicate 4 0xAA) ∧
    Norm.Bc2.normalizeSplit .replicate (List.replicate 24 0xFF) 2 threeReds (List.replicate 12 0x55) =
      some (threeReds, List.replicate 8 0 ++ List.replicate 4 0x55) := by decide +kernel

/-! ## Normalization of BC3 -/

open Norm.Bc3

/-- The alpha half of an opaque block after normalization. -/
def opaque3 : AlphaMode → List Nat
  | .none => [0xFF, 0xFF, 0, 0, 0, 0, 0, 0]
  | .uniformAlphaZeroIndices => [0xFF, 0, 0, 0, 0, 0, 0, 0]
  | .opaqueFillAll => [0xFF, 0xFF, 0xFF, 0xFF, 0xFF, 0xFF, 0xFF, 0xFF]
  | .opaqueZeroAlphaMaxIndices => [0, 0, 0xFF, 0xFF, 0xFF, 0xFF, 0xFF, 0xFF]

/-- The colour half of the block of the first test after normalization. -/
def red3 : Mode → List Nat
  | .none => [0x00, 0xF8, 0x12, 0x34, 0, 0, 0, 0]
  | m => red m

/-- can_normalize_block_opaque_alpha_single_colour, bc3 normalize.rs:702-845; the colours for `None`, which the test does not look at, are
the unchanged ones. -/
example : ∀ m ∈ [(AlphaMode.none, Mode.color0Only), (.none, .replicate), (.uniformAlphaZeroIndices, .color0Only), (.opaqueFillAll, .none),
      (.opaqueZeroAlphaMaxIndices, .none), (.opaqueFillAll, .color0Only), (.opaqueZeroAlphaMaxIndices, .replicate)],
    Norm.Bc3.normalizeBlocks (some (bytes (opaque3 .none ++ red3 .none))) (List.replicate 16 0) 16 m.1 m.2 =
      some (bytes (opaque3 m.1 ++ red3 m.2)) ∧
    Decode.bc3 (bytes (opaque3 m.1 ++ red3 m.2)) 0 = some (pixels (List.replicate 16 (255, 0, 0, 255))) := by decide +kernel

/-- can_normalize_uniform_alpha_mixed_colors, bc3 normalize.rs:847-926. -/
example : ∀ m ∈ [AlphaMode.uniformAlphaZeroIndices, .opaqueFillAll],
    Norm.Bc3.normalizeBlocks (some (bytes (opaque3 .none ++ [0x00, 0xF8, 0xE0, 0x07, 0x55, 0x55, 0x55, 0x55]))) (List.replicate 16 0) 16 m
      .none = some (bytes (opaque3 m ++ [0x00, 0xF8, 0xE0, 0x07, 0x55, 0x55, 0x55, 0x55])) ∧
    ((Decode.bc3 (bytes (opaque3 m ++ [0x00, 0xF8, 0xE0, 0x07, 0x55, 0x55, 0x55, 0x55])) 0).map fun px => px.all fun p => p.a = 255) =
      some true := by decide +kernel

/-- can_normalize_mixed_alpha_solid_color, bc3 normalize.rs:928-1000. -/
example : ∀ m ∈ both,
    Norm.Bc3.normalizeBlocks (some (bytes ([0xFF, 0x80, 0x55, 0x55, 0x55, 0x55, 0x55, 0x55] ++ red3 .none))) (List.replicate 16 0) 16
      .opaqueFillAll m = some (bytes ([0xFF, 0x80, 0x55, 0x55, 0x55, 0x55, 0x55, 0x55] ++ red m)) := by decide +kernel

/-- can_normalize_with_opaque_zero_alpha_max_indices, bc3 normalize.rs:1002-1056. -/
example : Norm.Bc3.normalizeBlocks (some (bytes (opaque3 .none ++ [8, 9, 10, 11, 12, 13, 14, 15]))) (List.replicate 16 0) 16
      .opaqueZeroAlphaMaxIndices .none = some (bytes (opaque3 .opaqueZeroAlphaMaxIndices ++ [8, 9, 10, 11, 12, 13, 14, 15])) ∧
    ((Decode.bc3 (bytes (opaque3 .opaqueZeroAlphaMaxIndices ++ [8, 9, 10, 11, 12, 13, 14, 15])) 0).map fun px =>
      px.all fun p => p.a = 255) = some true := by decide +kernel

/-- can_normalize_non_opaque_uniform_alpha, bc3 normalize.rs:1058-1144. -/
example : (∀ m ∈ [AlphaMode.uniformAlphaZeroIndices, .opaqueFillAll, .opaqueZeroAlphaMaxIndices],
      Norm.Bc3.normalizeBlocks (some (bytes [128, 128, 0, 0, 0, 0, 0, 0, 8, 9, 10, 11, 12, 13, 14, 15])) (List.replicate 16 0) 16 m .none =
        some (bytes [128, 0, 0, 0, 0, 0, 0, 0, 8, 9, 10, 11, 12, 13, 14, 15])) ∧
    Norm.Bc3.normalizeBlocks (some (bytes [128, 128, 0, 0, 0, 0, 0, 0, 8, 9, 10, 11, 12, 13, 14, 15])) (List.replicate 16 0) 16 .none .none =
      some (bytes [128, 128, 0, 0, 0, 0, 0, 0, 8, 9, 10, 11, 12, 13, 14, 15]) ∧
    (∀ b ∈ [0, 128], ((Decode.bc3 (bytes [128, b, 0, 0, 0, 0, 0, 0, 8, 9, 10, 11, 12, 13, 14, 15]) 0).map fun px =>
      px.all fun p => p.a = 128) = some true) := by decide +kernel

/-- The second block of the next test. -/
def mixed3 : List Nat := [0x80, 0x40, 0xAA, 0x55, 0x33, 0xCC, 0x0F, 0xF0, 0xE0, 0x07, 0x1F, 0x00, 0x55, 0xAA, 0x3C, 0x69]

/-- can_normalize_multiple_blocks, bc3 normalize.rs:1146-1247. -/
example : Norm.Bc3.normalizeBlocks (some (bytes (opaque3 .none ++ red3 .none ++ mixed3))) (List.replicate 32 0) 32
      .uniformAlphaZeroIndices .color0Only =
    some (bytes (opaque3 .uniformAlphaZeroIndices ++ red .color0Only ++ mixed3)) := by decide +kernel

/-- can_normalize_blocks_all_modes, bc3 normalize.rs:1249-1323. -/
example : Norm.Bc3.allModes (.separate (bytes (opaque3 .none ++ red3 .none))) (List.replicate 12 (List.replicate 16 0)) 16 =
    (AlphaMode.all.flatMap fun a => Mode.all.map fun c => (a, c)).mapM fun m =>
      Norm.Bc3.normalizeBlocks (some (bytes (opaque3 .none ++ red3 .none))) (List.replicate 16 0) 16 m.1 m.2 := by decide +kernel

/-- The blocks of the next test. -/
def inPlace3 : Buf := bytes ([0xFF, 0xFF] ++ List.replicate 6 0xAA ++ [0x00, 0xF8, 0, 0, 0, 0, 0, 0] ++ [0xFF, 0xFF] ++
  List.replicate 6 0x55 ++ [0xE0, 0x07, 0, 0, 0, 0, 0, 0])

/-- can_normalize_blocks_inplace, bc3 normalize.rs:1325-1405. -/
example : ∀ m ∈ [(AlphaMode.opaqueFillAll, Mode.replicate), (.uniformAlphaZeroIndices, .color0Only), (.opaqueZeroAlphaMaxIndices, .none)],
    Norm.Bc3.normalizeBlocks none inPlace3 32 m.1 m.2 = Norm.Bc3.normalizeBlocks (some inPlace3) inPlace3 32 m.1 m.2 ∧
    (Norm.Bc3.normalizeBlocks none inPlace3 32 m.1 m.2).isSome := by decide +kernel

/-- The four sections. -/
def parts (t : Option Sections) : Option (List Buf) := t.map fun t => [t.ae, t.ai, t.ce, t.ci]

/-- can_normalize_split_blocks_in_place, bc3 normalize.rs:1407-1618. -/
example : ∀ m ∈ AlphaMode.all.flatMap fun a => Mode.all.map fun c => (a, c),
    parts (Norm.Bc3.normalizeSplit m.1 m.2 2 ⟨List.replicate 4 0xFF, List.replicate 12 0, threeReds.take 8, List.replicate 8 0⟩) =
      some ((match m.1 with
          | .none => [List.replicate 4 0xFF, List.replicate 12 0]
          | .uniformAlphaZeroIndices => [bytes [0xFF, 0, 0xFF, 0], List.replicate 12 0]
          | .opaqueFillAll => [List.replicate 4 0xFF, List.replicate 12 0xFF]
          | .opaqueZeroAlphaMaxIndices => [List.replicate 4 0, List.replicate 12 0xFF]) ++
        [match m.2 with
          | .color0Only => bytes [0x00, 0xF8, 0, 0, 0x00, 0xF8, 0, 0]
          | _ => threeReds.take 8, List.replicate 8 0]) := by decide +kernel

/-- can_normalize_split_blocks_in_place_with_replicate_color, bc3 normalize.rs:1620-1681. -/
example : parts (Norm.Bc3.normalizeSplit .uniformAlphaZeroIndices .replicate 1
      ⟨bytes [128, 128], List.replicate 6 0, threeReds.take 4, List.replicate 4 0x55⟩) =
    some [bytes [128, 0], List.replicate 6 0, threeReds.take 4, List.replicate 4 0] := by decide +kernel

/-- can_normalize_split_blocks_no_op_when_modes_are_none, bc3 normalize.rs:1683-1721. -/
example : parts (Norm.Bc3.normalizeSplit .none .none 1
      ⟨List.replicate 2 0xAA, List.replicate 6 0xBB, List.replicate 4 0xCC, List.replicate 4 0xDD⟩) =
    some [List.replicate 2 0xAA, List.replicate 6 0xBB, List.replicate 4 0xCC, List.replicate 4 0xDD] := by decide +kernel

end Dlt.Conformance.Blocks
