import Verif.Model.Dds
import Verif.Conformance.Basic
/-!
# Unit tests of the DDS crate

The unit tests in `/repo/src/extensions/file-formats/dxt-lossless-transform-dds/src`, run in the model by the kernel.

The file builders are those of test_prelude.rs.  The length of the texture data, which they compute with the code under test, is given
here as a literal, or is 0 where only the header is read.
-/

namespace Dlt.Conformance.Dds

open Dlt.Embed Dlt.FileFormats Dlt.Dds

/-- A machine without x86 kernels and one with AVX2; the tests are built with overflow checks. -/
def portable : Platform := ⟨⟨fun _ => true, 2 ^ 64 - 1⟩, .other .little fun _ => 0, true⟩

/-- See `portable`. -/
def avx2 : Platform := ⟨⟨fun _ => true, 2 ^ 64 - 1⟩, .x86 ⟨true, true, true, false, false, false, fun _ => 0⟩, true⟩

/-- `write_u32_at` -/
def put (b : Buf) (off : Nat) (v : U32) : Buf := (st32 .little b off v).getD []

/-- `create_dds_header_base`, test_prelude.rs:32-73. -/
def headerBase (data : Buf) (width height mips : U32) : Buf :=
  let data := put data 0 0x20534444#32
  let data := put data 4 124#32
  let flags := 0x1#32 ||| 0x2#32 ||| 0x4#32 ||| 0x1000#32 ||| 0x80000#32
  let data := put data 8 (if 1 < mips.toNat then flags ||| 0x20000#32 else flags)
  let data := put data 0xC height
  let data := put data 0x10 width
  if 1 < mips.toNat then put data 0x1C mips else data

/-- `write_fourcc_pixel_format`, test_prelude.rs:75-82. -/
def fourcc (cc : U32) (data : Buf) : Buf := put (put data 0x54 cc) 0x50 0x4#32

/-- `write_dx10_format`, test_prelude.rs:84-92. -/
def dx10 (dxgi : U32) (data : Buf) : Buf := put (put (put data 0x54 0x30315844#32) 0x50 0x4#32) 0x80 dxgi

/-- `write_uncompressed_pixel_format` and `write_bgr888_pixel_format`, test_prelude.rs:94-132. -/
def masks (flags bits r g b a : U32) (data : Buf) : Buf :=
  put (put (put (put (put (put (put data 0x54 0) 0x50 flags) 0x58 bits) 0x5C r) 0x60 g) 0x64 b) 0x68 a

/-- The test pattern, test_prelude.rs:268-271. -/
def pattern (n : Nat) : Buf := (List.range n).map fun x => BitVec.ofNat 8 x

/-- `create_valid_dds_with_dimensions`, test_prelude.rs:134-275, with `size` bytes of texture data. -/
def valid (format : DdsFormat) (width height mips : U32) (size : Nat) : Buf :=
  let legacy := headerBase (List.replicate 128 0) width height mips
  let modern := headerBase (List.replicate 148 0) width height mips
  (match format with
    | .bc1 => fourcc 0x31545844#32 legacy
    | .bc2 => fourcc 0x33545844#32 legacy
    | .bc3 => fourcc 0x35545844#32 legacy
    | .bc4 => fourcc 0x55344342#32 legacy
    | .bc5 => fourcc 0x55354342#32 legacy
    | .bc6h => dx10 95#32 modern
    | .bc7 => dx10 98#32 modern
    | .rgba8888 => masks 0x41#32 32#32 0x000000FF#32 0x0000FF00#32 0x00FF0000#32 0xFF000000#32 legacy
    | .bgra8888 => masks 0x41#32 32#32 0x00FF0000#32 0x0000FF00#32 0x000000FF#32 0xFF000000#32 legacy
    | .bgr888 => masks 0x40#32 24#32 0x00FF0000#32 0x0000FF00#32 0x000000FF#32 0#32 legacy
    | .unknown => fourcc 0x4E4B4E55#32 legacy
    | .notADds => legacy) ++ pattern size

/-- `create_incomplete_bc1_dds`, test_prelude.rs:369-379. -/
def incompleteBc1 : Buf := put (headerBase (List.replicate 128 0) 4 4 1) 0x54 0x31545844#32

/-- `create_incomplete_bc7_dds`, test_prelude.rs:403-414. -/
def incompleteBc7 : Buf := put (put (headerBase (List.replicate 148 0) 4 4 1) 0x54 0x30315844#32) 0x80 98#32

/-- `create_truncated_dds`, test_prelude.rs:416-428. -/
def truncated (size : Nat) : Buf := put (List.replicate size 0) 0 0x20534444#32

/-! ## parse_dds.rs -/

/-- The format and the offset found. -/
def found (r : Option (Option DdsInfo)) : Option (DdsFormat × Byte) :=
  match r with
  | some (some i) => some (i.format, i.dataOffset)
  | _ => none

/-- The length found. -/
def lengthFound (r : Option (Option DdsInfo)) : Option U32 :=
  match r with
  | some (some i) => some i.dataLength
  | _ => none

/-- The cases of the two tests of legacy formats. -/
def legacyCases : List (U32 × DdsFormat) :=
  [(0x31545844#32, .bc1), (0x32545844#32, .bc2), (0x33545844#32, .bc2), (0x34545844#32, .bc3), (0x35545844#32, .bc3)]

/-- parse_dds_handles_legacy_formats, parse_dds.rs:410-427. -/
example : ∀ c ∈ legacyCases, found (parseDds portable (put (valid .bc1 4 4 1 8) 0x54 c.1)) = some (c.2, 128) := by decide +kernel

/-- parse_dds_ignore_magic_handles_legacy_formats, parse_dds.rs:429-458. -/
example : ∀ c ∈ legacyCases, let data := put (put (valid .bc1 4 4 1 8) 0 0xDEADBEEF#32) 0x54 c.1
    parseDds portable data = some none ∧ found (parseIgnoreMagic portable data) = some (c.2, 128) := by decide +kernel

/-- parse_dds_handles_dx10_formats, parse_dds.rs:460-489. -/
example : ∀ c ∈ ([(70, .bc1), (71, .bc1), (72, .bc1), (73, .bc2), (74, .bc2), (75, .bc2), (76, .bc3), (77, .bc3), (78, .bc3), (94, .bc6h),
      (95, .bc6h), (96, .bc6h), (97, .bc7), (98, .bc7), (99, .bc7)] : List (U32 × DdsFormat)),
    found (parseDds portable (put incompleteBc7 0x80 c.1)) = some (c.2, 148) := by decide +kernel

/-- parse_dds_detects_unknown_legacy_format, parse_dds.rs:491-497. -/
example : found (parseDds portable (valid .unknown 1 1 1 0)) = some (.unknown, 128) := by decide +kernel

/-- parse_dds_detects_unknown_dx10_format, parse_dds.rs:499-511. -/
example : (found (parseDds portable (put (valid .bc7 4 4 1 16) 0x80 0x12345678#32))).map Prod.fst = some .unknown := by decide +kernel

/-- parse_dds_handles_data_too_short_for_legacy_header, parse_dds.rs:513-518. -/
example : parseDds portable (List.replicate 127 0) = some none := by decide +kernel

/-- parse_dds_handles_data_too_short_for_dx10_header, parse_dds.rs:520-530. -/
example : parseDds portable (put (put (List.replicate 147 0) 0 0x20534444#32) 0x54 0x30315844#32) = some none := by decide +kernel

/-- data_length_bc1_single_level_256x256, parse_dds.rs:553-559. -/
example : lengthFound (parseDds portable (valid .bc1 256 256 1 0)) = some 32768 := by decide +kernel

/-- data_length_bc1_with_mipmaps_256x256, parse_dds.rs:561-567. -/
example : lengthFound (parseDds portable (valid .bc1 256 256 9 0)) = some 43704 := by decide +kernel

/-- data_length_bc1_with_non_multiple_of_4_dimensions, parse_dds.rs:569-576. -/
example : lengthFound (parseDds portable (valid .bc1 17 13 1 160)) = some 160 := by decide +kernel

/-- data_length_zero_dimensions_returns_zero, parse_dds.rs:578-587. -/
example : lengthFound (parseDds portable (put (valid .bc1 256 256 1 0) 0x10 0)) = some 0 := by decide +kernel

/-- data_length_uncompressed_rgba32, parse_dds.rs:589-595. -/
example : lengthFound (parseDds portable (valid .rgba8888 16 16 1 1024)) = some 1024 := by decide +kernel

/-- data_length_uncompressed_with_mipmaps, parse_dds.rs:597-603. -/
example : lengthFound (parseDds portable (valid .rgba8888 4 4 3 84)) = some 84 := by decide +kernel

/-! ## likely_dds.rs -/

/-- The five tests, likely_dds.rs:22-55. -/
example : likelyDds ([0x44, 0x44, 0x53, 0x20] ++ List.replicate 124 0) = some true ∧
    likelyDds ([0x44, 0x44, 0x53, 0x20] ++ List.replicate 123 0) = some false ∧
    likelyDds (List.replicate 128 0) = some false ∧ likelyDds [0x44, 0x44, 0x53, 0x20] = some false ∧ likelyDds [] = some false := by
  decide +kernel

/-! ## handler -/

/-- handler/file_format_detection.rs:26-61. -/
example : canHandle portable (valid .bc1 4 4 1 8) (some "dds") = some true ∧ canHandle portable (valid .bc1 4 4 1 8) none = some true ∧
    canHandle portable (List.replicate 128 0) (some "dds") = some false ∧ canHandle portable (valid .bc1 4 4 1 8) (some "txt") = some false ∧
    canHandle portable (truncated 127) (some "dds") = some false := by decide +kernel

/-- handler/file_format_untransform_detection.rs:30-62. -/
example : let data := put (valid .bc1 4 4 1 8) 0 0x12EFCDAB#32
    canHandleUntransform portable data (some "dds") = some true ∧ canHandleUntransform portable data none = some true ∧
    canHandleUntransform portable data (some "txt") = some false ∧
    canHandleUntransform portable (List.replicate 127 0) (some "dds") = some false := by decide +kernel

/-- handler/file_format_check.rs:40-147. -/
example : getTransformFormat portable (valid .bc1 64 64 1 0) .all = some (.ok (some .bc1)) ∧
    getTransformFormat portable (valid .bc7 4 4 1 16) .all = some (.ok (some .bc7)) ∧
    getTransformFormat portable (valid .bc1 64 64 1 0) .bc1 = some (.ok (some .bc1)) ∧
    getTransformFormat portable (valid .bc1 64 64 1 0) .bc7 = some (.ok none) ∧
    getTransformFormat portable (valid .rgba8888 64 64 1 0) .all = some (.ok (some .rgba8888)) ∧
    getTransformFormat portable (valid .bgra8888 64 64 1 0) .all = some (.ok (some .bgra8888)) ∧
    getTransformFormat portable (valid .bgr888 64 64 1 0) .all = some (.ok (some .bgr888)) ∧
    getTransformFormat portable (valid .bc4 64 64 1 0) .all = some (.ok (some .bc4)) ∧
    getTransformFormat portable (valid .bc5 64 64 1 0) .all = some (.ok (some .bc5)) := by decide +kernel

/-- `b"not a dds file"` -/
def noDds : Buf := [0x6E, 0x6F, 0x74, 0x20, 0x61, 0x20, 0x64, 0x64, 0x73, 0x20, 0x66, 0x69, 0x6C, 0x65]

/-- test_get_transform_format_invalid_dds, handler/file_format_check.rs:84-92, and test_extract_blocks_invalid_dds,
handler/file_format_block_extraction.rs:59-68. -/
example : isErr (getTransformFormat portable noDds .all) ∧ isErr (extractBlocks portable noDds .all) := by decide +kernel

/-- handler/format_conversion.rs:106-223. -/
example : (∀ a, toTransformFormat .bc1 a = .ok .bc1 ∧ toTransformFormat .bc2 a = .ok .bc2 ∧ toTransformFormat .rgba8888 a = .ok .rgba8888 ∧
      toTransformFormat .bgra8888 a = .ok .bgra8888 ∧ toTransformFormat .bgr888 a = .ok .bgr888) ∧
    toTransformFormat .bc3 true = .ok .bc3 ∧ toTransformFormat .bc4 true = .ok .bc4 ∧ toTransformFormat .bc5 true = .ok .bc5 ∧
    toTransformFormat .bc6h true = .ok .bc6h ∧ toTransformFormat .bc7 true = .ok .bc7 ∧
    toTransformFormat .bc3 false = .error (.formatHandler (.formatNotImplemented .bc3)) ∧
    toTransformFormat .bc4 false = .error (.formatHandler (.formatNotImplemented .bc4)) ∧
    toTransformFormat .bc5 false = .error (.formatHandler (.formatNotImplemented .bc5)) ∧
    toTransformFormat .bc6h false = .error (.formatHandler (.formatNotImplemented .bc6h)) ∧
    toTransformFormat .bc7 false = .error (.formatHandler (.formatNotImplemented .bc7)) ∧
    toTransformFormat .unknown false = .error (.formatHandler .unknownFileFormat) ∧
    toTransformFormat .notADds false = .error (.formatHandler .unknownFileFormat) := by decide +kernel

/-- `TransformBundle::<NoEstimation>::default_all()`, `default()` and the result of `transform_bundle`. -/
def transformed (p : Platform) (bundle : Bundle Unit Unit) (input output : Buf) : Option (Buf × Except TransformError Unit) :=
  (transformBundle p (fun _ => "") bundle input output ()).map fun r => (r.1, r.2.2)

/-- The result without the output. -/
def outcome (r : Option (Buf × Except TransformError Unit)) : Option (Except TransformError Unit) := r.map Prod.snd

/-- transform_bundle_rejects_output_buffer_too_small, handler/file_format_handler.rs:155-175. -/
example : outcome (transformed portable .defaultAll incompleteBc1 (List.replicate 127 0)) =
    some (.error (.formatHandler (.outputBufferTooSmall 128 127))) := by decide +kernel

/-- untransform_rejects_output_buffer_too_small, handler/file_format_handler.rs:177-196. -/
example : outcome (untransform portable (List.replicate 128 0) (List.replicate 127 0)) =
    some (.error (.formatHandler (.outputBufferTooSmall 128 127))) := by decide +kernel

/-- untransform_rejects_input_too_small_for_transform_header, handler/file_format_handler.rs:199-218. -/
example : outcome (untransform portable (List.replicate 3 0) (List.replicate 128 0)) =
    some (.error (.formatHandler (.inputTooShort 4 3))) := by decide +kernel

/-- transform_bundle_rejects_invalid_input_file_header, handler/file_format_handler.rs:221-238. -/
example : outcome (transformed portable .defaultAll (List.replicate 128 0) (List.replicate 128 0)) =
    some (.error (.formatHandler .invalidInputFileHeader)) := by decide +kernel

/-- untransform_rejects_invalid_restored_file_header_too_short, handler/file_format_handler.rs:240-259. -/
example : outcome (untransform portable (List.replicate 64 0) (List.replicate 128 0)) =
    some (.error (.formatHandler .invalidRestoredFileHeader)) := by decide +kernel

/-- untransform_rejects_corrupted_header_structure, handler/file_format_handler.rs:261-270. -/
example : isErr (outcome (untransform portable (List.replicate 4 0xFF ++ List.replicate 124 0) (List.replicate 128 0))) := by decide +kernel

/-- transform_bundle_rejects_no_builder_for_bc1_format, handler/file_format_handler.rs:274-291. -/
example : outcome (transformed portable .new (valid .bc1 64 64 1 2048) (List.replicate 2176 0)) =
    some (.error (.formatHandler (.noBuilderForFormat .bc1))) := by decide +kernel

/-- transform_bundle_accepts_bc2_format, handler/file_format_handler.rs:293-302. -/
example : outcome (transformed portable .defaultAll (valid .bc2 4 4 1 16) (List.replicate 144 0)) = some (.ok ()) ∧
    outcome (transformed avx2 .defaultAll (valid .bc2 4 4 1 16) (List.replicate 144 0)) = some (.ok ()) := by decide +kernel

/-- transform_bundle_rejects_bc3_format_not_implemented and the tests for BC6H and BC7, handler/file_format_handler.rs:306-373. -/
example : outcome (transformed portable .defaultAll (valid .bc3 4 4 1 16) (List.replicate 144 0)) =
      some (.error (.formatHandler (.formatNotImplemented .bc3))) ∧
    outcome (transformed portable .defaultAll (valid .bc6h 4 4 1 16) (List.replicate 164 0)) =
      some (.error (.formatHandler (.formatNotImplemented .bc6h))) ∧
    outcome (transformed portable .defaultAll (valid .bc7 4 4 1 16) (List.replicate 164 0)) =
      some (.error (.formatHandler (.formatNotImplemented .bc7))) := by decide +kernel

/-- transform_bundle_rejects_unknown_format, handler/file_format_handler.rs:375-390. -/
example : outcome (transformed portable .defaultAll (valid .unknown 1 1 1 0) (List.replicate 128 0)) =
    some (.error (.formatHandler .unknownFileFormat)) := by decide +kernel

/-- `b"Roundtrip preservation test data 123456!"` -/
def leftover : Buf := [82, 111, 117, 110, 100, 116, 114, 105, 112, 32, 112, 114, 101, 115, 101, 114, 118, 97, 116, 105, 111, 110, 32, 116, 101,
  115, 116, 32, 100, 97, 116, 97, 32, 49, 50, 51, 52, 53, 54, 33]

/-- transform_and_untransform_preserves_leftover_data_roundtrip, handler/file_format_handler.rs:393-418; the texture is 8 by 8 instead of
32 by 32. -/
example : ∀ p ∈ [true, false].map (fun b => if b then portable else avx2),
    ((transformed p .defaultAll (valid .bc1 8 8 1 32 ++ leftover) (List.replicate 200 0)).bind fun r =>
      untransform p r.1 (List.replicate 200 0)) = some (valid .bc1 8 8 1 32 ++ leftover, .ok ()) := by decide +kernel

/-- transform_bundle_rejects_insufficient_data_for_declared_size, handler/file_format_handler.rs:420-446. -/
example : outcome (transformed portable .defaultAll (valid .bc1 64 64 1 1948) (List.replicate 2076 0)) =
    some (.error (.formatHandler (.inputTooShortForStatedTextureSize 2176 2076))) := by decide +kernel

/-- untransform_rejects_insufficient_data_for_declared_size, handler/file_format_handler.rs:448-476. -/
example : outcome (untransform portable (put (valid .bc1 64 64 1 1998) 0 0xFFFFFFFF#32) (List.replicate 2126 0)) =
    some (.error (.formatHandler (.inputTooShortForStatedTextureSize 2176 2126))) := by decide +kernel

end Dlt.Conformance.Dds
