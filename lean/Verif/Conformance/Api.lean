import Verif.Model.FileFormats
import Verif.Model.Safe
import Verif.Model.Dds
import Verif.Model.FileCompare
import Verif.Conformance.Basic
/-!
# Unit tests of headers, of the checked functions and of file comparison

Unit tests in `/repo/src`, run in the model by the kernel.
-/

namespace Dlt.Conformance.Api

open Dlt Dlt.Embed Dlt.FileFormats

/-! ## The embedded header -/

/-- test_transform_format_conversion, embed/mod.rs:168-201. -/
example : ([0, 1, 2, 3, 4, 5, 6, 7, 8, 9, 0xF] : List Byte).map TransformFormat.fromU8 =
      [some .bc1, some .bc2, some .bc3, some .bc7, some .bc6h, some .rgba8888, some .bgra8888, some .bgr888, some .bc4, some .bc5, none] ∧
    [TransformFormat.bc1, .bc2, .bc3, .bc7, .bc6h, .rgba8888, .bgra8888, .bgr888, .bc4, .bc5].map TransformFormat.toU8 =
      [0, 1, 2, 3, 4, 5, 6, 7, 8, 9] := by decide +kernel

/-- test_transform_header_bitfield, embed/mod.rs:203-213. -/
example : (TransformHeader.new .bc1 0x0ABCDEF0).format = some .bc1 ∧ (TransformHeader.new .bc1 0x0ABCDEF0).formatData = 0x0ABCDEF0 ∧
    (TransformHeader.new .bc3 0xFFFFFFFF).format = some .bc3 ∧ (TransformHeader.new .bc3 0xFFFFFFFF).formatData = 0x0FFFFFFF := by
  decide +kernel

/-- test_header_read_write, embed/mod.rs:215-225. -/
example : ∀ e ∈ [Endian.little, .big], ((TransformHeader.new .bc7 0x12345678).write e (List.replicate 4 0) 0).bind
    (fun b => TransformHeader.read e b 0) = some (.new .bc7 0x12345678) := by decide +kernel

/-- test_little_endian_byte_order, embed/mod.rs:227-256. -/
example : ∀ e ∈ [Endian.little, .big],
    (TransformHeader.new .bc7 0x1234567).write e (List.replicate 4 0) 0 = some [0x73, 0x56, 0x34, 0x12] ∧
    TransformHeader.read e [0x73, 0x56, 0x34, 0x12] 0 = some (.new .bc7 0x1234567) ∧
    (TransformHeader.new .bc7 0x1234567).formatData = 0x1234567 := by decide +kernel

/-- The settings of BC1 and BC2. -/
def allSettings : List ColourSettings := [Variant.v1, .v2, .v3, .none].flatMap fun v => [⟨v, true⟩, ⟨v, false⟩]

/-- embed/formats/bc1.rs:139-196 and embed/formats/bc2.rs:143-200: round trips. -/
example : ∀ s ∈ allSettings, bc1.unpack (bc1.pack s) = .ok s ∧ bc2.unpack (bc2.pack s) = .ok s := by decide +kernel

/-- The same tests: the bits of the default settings are the version 0, the flag (bit 2), the variant 0, reserved zeros. -/
example : bc1.pack ⟨.v1, true⟩ = 0b00100 ∧ bc2.pack ⟨.v1, true⟩ = 0b00100 := by decide +kernel

/-- The same tests: the wrong version. -/
example : bc1.unpack (setBits 0 1 0 3) = .error .corruptedEmbeddedData := by decide +kernel

/-- See the previous test. -/
example : bc2.unpack (setBits 0 1 0 3) = .error .corruptedEmbeddedData := by decide +kernel

/-- embed/formats/bc4.rs:170-275 and embed/formats/bc5.rs:170-275. -/
example : ∀ f ∈ [TransformFormat.bc4, .bc5], (endpoints f).pack true ≠ (endpoints f).pack false ∧
    (∀ b, (endpoints f).unpack ((endpoints f).pack b) = .ok b) ∧ ((endpoints f).toHeader true).format = some f ∧
    (endpoints f).fromHeader ((endpoints f).toHeader true) = .ok true ∧ getBits ((endpoints f).pack true) 1 0 = 0 ∧
    getBits ((endpoints f).pack true) 27 3 = 0 ∧ getBit ((endpoints f).pack true) 2 = true ∧
    (endpoints f).unpack (setBits 0 1 0 3) = .error .corruptedEmbeddedData ∧
    (endpoints f).unpack (setBits 0 27 3 1) = .error .corruptedEmbeddedData ∧ (endpoints f).format = f := by decide +kernel

/-- embed/formats/rgba8888.rs:110-150, embed/formats/bgra8888.rs:110-150 and embed/formats/bgr888.rs:110-147. -/
example : withDecorrelation true ≠ withDecorrelation false ∧
    ∀ f ∈ [TransformFormat.rgba8888, .bgra8888, .bgr888],
      (Embed.pixels f).unpack ((Embed.pixels f).pack (withDecorrelation true)) = .ok (withDecorrelation true) ∧
      ((Embed.pixels f).toHeader (withDecorrelation true)).format = some f ∧
      (Embed.pixels f).fromHeader ((Embed.pixels f).toHeader (withDecorrelation true)) = .ok (withDecorrelation true) := by
  decide +kernel

/-! ## Checked functions -/

/-- The machines on which the tests are run here. -/
def machines : List Bool := [true, false]

/-- See `machines`. -/
def machine (b : Bool) : Machine := if b then .x86 ⟨true, true, true, true, true, true, fun _ => 0⟩ else .other .big fun _ => 0

/-- bc1 safe/transform_with_settings.rs:224-338. -/
example : ∀ b ∈ machines,
    isOk ((Bc1.transformSafe (machine b) (bytes [0x00, 0xF8, 0, 0, 0, 0, 0, 0]) (List.replicate 8 0) ⟨.v1, true⟩).map Prod.snd) ∧
    (Bc1.transformSafe (machine b) (List.replicate 7 0) (List.replicate 7 0) ⟨.v1, true⟩).map Prod.snd =
      some (.error (.invalidLength 7)) ∧
    (Bc1.transformSafe (machine b) (List.replicate 8 0) (List.replicate 4 0) ⟨.v1, true⟩).map Prod.snd =
      some (.error (.outputBufferTooSmall 8 4)) ∧
    isOk ((Bc1.untransformSafe (machine b) (bytes [0x00, 0xF8, 0, 0, 0, 0, 0, 0]) (List.replicate 8 0) ⟨.v1, true⟩).map Prod.snd) ∧
    (Bc1.untransformSafe (machine b) (List.replicate 7 0) (List.replicate 7 0) ⟨.v1, true⟩).map Prod.snd =
      some (.error (.invalidLength 7)) ∧
    (Bc1.untransformSafe (machine b) (List.replicate 8 0) (List.replicate 4 0) ⟨.v1, true⟩).map Prod.snd =
      some (.error (.outputBufferTooSmall 8 4)) := by decide +kernel

/-- bc2 safe/transform_with_settings.rs:224-350. -/
example : ∀ b ∈ machines,
    isOk ((Bc2.transformSafe (machine b) (bytes [0, 0x11, 0x22, 0x33, 0x44, 0x55, 0x66, 0x77, 0x00, 0xF8, 0, 0, 0, 0, 0, 0])
      (List.replicate 16 0) ⟨.v1, true⟩).map Prod.snd) ∧
    (Bc2.transformSafe (machine b) (List.replicate 15 0) (List.replicate 15 0) ⟨.v1, true⟩).map Prod.snd =
      some (.error (.invalidLength 15)) ∧
    (Bc2.transformSafe (machine b) (List.replicate 16 0) (List.replicate 8 0) ⟨.v1, true⟩).map Prod.snd =
      some (.error (.outputBufferTooSmall 16 8)) ∧
    isOk ((Bc2.untransformSafe (machine b) (bytes [0, 0x11, 0x22, 0x33, 0x44, 0x55, 0x66, 0x77, 0x00, 0xF8, 0, 0, 0, 0, 0, 0])
      (List.replicate 16 0) ⟨.v1, true⟩).map Prod.snd) ∧
    (Bc2.untransformSafe (machine b) (List.replicate 15 0) (List.replicate 15 0) ⟨.v1, true⟩).map Prod.snd =
      some (.error (.invalidLength 15)) ∧
    (Bc2.untransformSafe (machine b) (List.replicate 16 0) (List.replicate 8 0) ⟨.v1, true⟩).map Prod.snd =
      some (.error (.outputBufferTooSmall 16 8)) := by decide +kernel

/-- bc3 safe/transform_with_settings.rs:228-360 (the tests of a valid block return at once in the repository). -/
example : ∀ b ∈ machines,
    isOk ((Bc3.transformSafe (machine b) (bytes [0xFF, 0, 0, 0x11, 0x22, 0x33, 0x44, 0x55, 0x00, 0xF8, 0, 0, 0, 0, 0, 0])
      (List.replicate 16 0) ⟨.v1, false, true⟩).map Prod.snd) ∧
    (Bc3.transformSafe (machine b) (List.replicate 15 0) (List.replicate 15 0) ⟨.v1, false, true⟩).map Prod.snd =
      some (.error (.invalidLength 15)) ∧
    (Bc3.transformSafe (machine b) (List.replicate 16 0) (List.replicate 8 0) ⟨.v1, false, true⟩).map Prod.snd =
      some (.error (.outputBufferTooSmall 16 8)) ∧
    isOk ((Bc3.untransformSafe (machine b) (bytes [0xFF, 0, 0, 0x11, 0x22, 0x33, 0x44, 0x55, 0x00, 0xF8, 0, 0, 0, 0, 0, 0])
      (List.replicate 16 0) ⟨.v1, false, true⟩).map Prod.snd) ∧
    (Bc3.untransformSafe (machine b) (List.replicate 15 0) (List.replicate 15 0) ⟨.v1, false, true⟩).map Prod.snd =
      some (.error (.invalidLength 15)) ∧
    (Bc3.untransformSafe (machine b) (List.replicate 16 0) (List.replicate 8 0) ⟨.v1, false, true⟩).map Prod.snd =
      some (.error (.outputBufferTooSmall 16 8)) := by decide +kernel

/-- test_dispatch_untransform_invalid_alignment, handlers/dispatch.rs:149-160. -/
example : ∀ b ∈ machines, (dispatchUntransform (machine b) (bc1.toHeader ⟨.v1, true⟩) (List.replicate 15 0) (List.replicate 15 0)).map
    Prod.snd = some (.error (.invalidDataAlignment 15 8)) := by decide +kernel

/-- test_transform_format_filter_accepts, file-formats-debug block_extraction.rs:193-199. -/
example : Dds.Filter.bc1.accepts .bc1 = true ∧ Dds.Filter.bc1.accepts .bc2 = false ∧ Dds.Filter.all.accepts .bc1 = true ∧
    Dds.Filter.all.accepts .bc7 = true := by decide +kernel

/-! ## Comparison of files -/

open Dlt.FileIo Dlt.FileCompare

/-- A disk without errors that returns as many bytes as it is asked for; the names are those of the test of directories. -/
def disk : Disk := ⟨fun _ => some ["file1.txt"], fun _ => true, fun _ => true, fun _ _ => some 100000⟩

/-- The directories of the last test. -/
def world (a b : Buf) : World Unit :=
  { files := fun p => if p = ["dir1", "file1.txt"] then some a else if p = ["dir2", "file1.txt"] then some b else none,
    dirs := fun p => p = ["dir1"] ∨ p = ["dir2"], counter := 0, st := () }

/-- `"content one"`, `"content two"`, `"short"`, `"much longer content"`, `"content"` and `"different"` -/
def text : Nat → Buf
  | 0 => bytes [99, 111, 110, 116, 101, 110, 116, 32, 111, 110, 101]
  | 1 => bytes [99, 111, 110, 116, 101, 110, 116, 32, 116, 119, 111]
  | 2 => bytes [115, 104, 111, 114, 116]
  | 3 => bytes [109, 117, 99, 104, 32, 108, 111, 110, 103, 101, 114, 32, 99, 111, 110, 116, 101, 110, 116]
  | 4 => bytes [99, 111, 110, 116, 101, 110, 116]
  | _ => bytes [100, 105, 102, 102, 101, 114, 101, 110, 116]

/-- The first three tests, debug_endian/file_compare.rs:152-189; the identical contents are `"content one"`. -/
example : (let c := fun a b => compareFiles disk (world a b).files ["dir1", "file1.txt"] ["dir2", "file1.txt"]
    [c (text 0) (text 0), c (text 0) (text 1), c (text 2) (text 3)]) = [some (.ok true), some (.ok false), some (.ok false)] := by
  decide +kernel

/-- test_directory_comparison, debug_endian/file_compare.rs:203-223. -/
example : compareDirectories disk (world (text 4) (text 4)) 5 ["dir1"] ["dir2"] = some (.ok true) ∧
    compareDirectories disk (world (text 4) (text 5)) 5 ["dir1"] ["dir2"] = some (.ok false) := by decide +kernel

end Dlt.Conformance.Api
