import Verif.Model.SplitEndpoints
import Verif.Model.Bc1
import Verif.Model.Bc2
import Verif.Model.Bc3
/-!
# Instruction set extensions: what a CPU has, what a kernel needs

The dispatchers of `Verif.Model.Bc1`, `Bc2`, `Bc3` and `SplitEndpoints` once more, each kernel with the
extensions its instructions belong to.  File names are relative to
`/repo/src/core/dxt-lossless-transform-common/src/transforms/split_565_color_endpoints/` in `Split` and to
`/repo/src/core/dxt-lossless-transform-bc1/src/transform/`, `/repo/src/core/dxt-lossless-transform-bc2/src/transform/`,
`/repo/src/core/dxt-lossless-transform-bc3/src/transform/` in `Bc1`, `Bc2`, `Bc3`.

Taken from the instruction set reference, not from the repository: which extension an intrinsic or an
assembly mnemonic belongs to.  `_mm_loadu_epi8` (bc2: with_recorrelate/transform/avx512bw.rs:36-38,
with_split_colour/transform/avx512bw.rs:114-116, with_split_colour_and_recorr/transform/avx512bw.rs:116-118)
belongs to AVX512BW and AVX512VL; the byte permutation `_mm512_permutex2var_epi8` to AVX512VBMI; operations on
16-bit lanes of 512-bit registers to AVX512BW; other 512-bit operations to AVX512F.  The helpers
`decorrelate_*_avx512bw`, `recorrelate_*_avx512bw` of
`/repo/src/core/dxt-lossless-transform-common/src/intrinsics/color_565/` declare AVX512F and AVX512BW, those
ending in `_avx2` (bc3: with_recorrelate/transform/avx512vbmi.rs:206-211 calls them) AVX2.
-/

namespace Dlt

/-- The extensions the kernels use, `/repo/src/core/dxt-lossless-transform-common/src/cpu_detect.rs:17-116`
(`has_ssse3` is asked for by benchmarks only). -/
inductive Ext where
  | sse2 | avx2 | avx512f | avx512bw | avx512vbmi | avx512vl
  deriving DecidableEq, Repr

/-- Running a kernel on a CPU: calling a function whose target features the CPU lacks is undefined behaviour
(at best an illegal instruction), like every other failure of a kernel `none`.  The attributes are cited at
each use. -/
def on (cpu : Ext → Bool) (needs : List Ext) (kernel : Option Buf) : Option Buf :=
  if needs.all cpu then kernel else none

/-- The flags of `/repo/src/core/dxt-lossless-transform-common/src/cpu_detect.rs:17-116` on a CPU, detection at
run time: each function asks for one extension, but `has_sse2` answers `true` on x86-64 without asking
(lines 105-116). -/
def detect (cpu : Ext → Bool) (x64 : Bool) (undef : Nat → Byte) : Features where
  x64 := x64
  sse2 := x64 || cpu .sse2
  avx2 := cpu .avx2
  avx512f := cpu .avx512f
  avx512bw := cpu .avx512bw
  avx512vbmi := cpu .avx512vbmi
  undef := undef

namespace Split

/-- The x86 branch of `split_color_endpoints`, mod.rs:110-135, with `split_color_endpoints_x86`,
mod.rs:43-88. What each kernel needs is in the `target_feature` attributes of the files beside it,
and in the intrinsics these use. -/
def splitColorEndpointsOn (cpu : Ext → Bool) (f : Features) (inp out : Buf) (len : Nat) : Option Buf :=
  if f.avx512vbmi then on cpu [.avx512vbmi, .avx512f] (avx512 inp out len)
  else if f.avx2 then on cpu [.avx2] (avx2 inp out len)
  else if f.sse2 then on cpu [.sse2] (sse2 inp out len)
  else portable .little inp out len

end Split

namespace Bc1

/-- The x86 branch of `transform`, standard/transform/mod.rs:25-37 and `transform_x86`, lines 77-119.
What each kernel needs is in the `target_feature` attributes of the files beside it, and in the
intrinsics these use. -/
def stdTransformOn (cpu : Ext → Bool) (f : Features) (inp out : Buf) (len : Nat) : Option Buf :=
  if f.avx512f then on cpu [.avx512f] (transformAvx512 inp out len)
  else if f.avx2 then on cpu [.avx2] (transformAvx2 inp out len)
  else if f.sse2 then on cpu [.sse2] (transformSse2 inp out len)
  else transformPortable .little inp out len

/-- The x86 branch of `untransform`, standard/untransform/mod.rs:68-80 and `untransform_x86`, lines
17-56. What each kernel needs is in the `target_feature` attributes of the files beside it, and in
the intrinsics these use. -/
def stdUntransformOn (cpu : Ext → Bool) (f : Features) (inp out : Buf) (len : Nat) : Option Buf :=
  if f.avx512f then on cpu [.avx512f] (untransformAvx512 inp out len)
  else if f.avx2 then on cpu [.avx2] (untransformAvx2 inp out len)
  else if f.sse2 then on cpu [.sse2] (untransformSse2 inp out len)
  else untransformPortable .little inp out len

/-- The x86 branch of `transform_with_decorrelate`, with_recorrelate/transform/mod.rs:20-53 and
`transform_with_decorrelate_x86`, lines 57-147. What each kernel needs is in the `target_feature`
attributes of the files beside it, and in the intrinsics these use. -/
def transformWithDecorrelateOn (cpu : Ext → Bool) (f : Features) (inp out : Buf) (len : Nat)
    (v : Variant) : Option Buf :=
  if f.avx512bw then
    on cpu [.avx512bw, .avx512f] (transformRecorrAvx512 inp 0 out 0 (len / 2) (len / 8) v)
  else if f.avx2 then on cpu [.avx2] (transformRecorrAvx2 inp 0 out 0 (len / 2) (len / 8) v)
  else if f.sse2 then on cpu [.sse2] (transformRecorrSse2 inp 0 out 0 (len / 2) (len / 8) v)
  else transformRecorrGeneric .little inp 0 out 0 (len / 2) (len / 8) v

/-- The x86 branch of `untransform_with_recorrelate`, with_recorrelate/untransform/mod.rs:15-51 and
`untransform_with_recorrelate_x86`, lines 54-146. What each kernel needs is in the
`target_feature` attributes of the files beside it, and in the intrinsics these use. -/
def untransformWithRecorrelateOn (cpu : Ext → Bool) (f : Features) (inp out : Buf) (len : Nat)
    (v : Variant) : Option Buf :=
  if f.avx512bw then
    on cpu [.avx512bw, .avx512f] (untransformRecorrAvx512 inp 0 (len / 2) out 0 (len / 8) v)
  else if f.avx2 then on cpu [.avx2] (untransformRecorrAvx2 inp 0 (len / 2) out 0 (len / 8) v)
  else if f.sse2 then on cpu [.sse2] (untransformRecorrSse2 inp 0 (len / 2) out 0 (len / 8) v)
  else untransformRecorrGeneric .little inp 0 (len / 2) out 0 (len / 8) v

/-- The x86 branch of `transform_with_split_colour`, with_split_colour/transform/mod.rs:25-53 and
`transform_with_split_colour_x86`, lines 57-146. What each kernel needs is in the `target_feature`
attributes of the files beside it, and in the intrinsics these use. -/
def transformWithSplitColourOn (cpu : Ext → Bool) (f : Features) (inp : Buf) (ip : Nat) (out : Buf)
    (c0p c1p xp bc : Nat) : Option Buf :=
  if f.avx512bw then on cpu [.avx512bw, .avx512f] (transformSplitAvx512 inp ip out c0p c1p xp bc)
  else if f.avx2 then on cpu [.avx2] (transformSplitAvx2 inp ip out c0p c1p xp bc)
  else if f.sse2 then on cpu [.sse2] (transformSplitSse2 inp ip out c0p c1p xp bc)
  else transformSplitGeneric .little inp ip out c0p c1p xp bc

/-- The x86 branch of `untransform_with_split_colour`, with_split_colour/untransform/mod.rs:12-40 and
`untransform_with_split_colour_x86`, lines 43-132. What each kernel needs is in the
`target_feature` attributes of the files beside it, and in the intrinsics these use. -/
def untransformWithSplitColourOn (cpu : Ext → Bool) (f : Features) (inp : Buf) (c0p c1p xp : Nat)
    (out : Buf) (op bc : Nat) : Option Buf :=
  if f.avx512bw then on cpu [.avx512bw, .avx512f] (untransformSplitAvx512 inp c0p c1p xp out op bc)
  else if f.avx2 then on cpu [.avx2] (untransformSplitAvx2 inp c0p c1p xp out op bc)
  else if f.sse2 then on cpu [.sse2] (untransformSplitSse2 inp c0p c1p xp out op bc)
  else untransformSplitGeneric .little inp c0p c1p xp out op bc

/-- The x86 branch of `transform_with_split_colour_and_recorr`,
with_split_colour_and_recorr/transform/mod.rs:33-66 and
`transform_with_split_colour_and_recorr_x86`, lines 70-166. What each kernel needs is in the
`target_feature` attributes of the files beside it, and in the intrinsics these use. -/
def transformWithSplitColourAndRecorrOn (cpu : Ext → Bool) (f : Features) (inp : Buf) (ip : Nat)
    (out : Buf) (c0p c1p xp bc : Nat) (v : Variant) : Option Buf :=
  if f.avx512bw then
    on cpu [.avx512bw, .avx512f] (transformSplitRecorrAvx512 inp ip out c0p c1p xp bc v)
  else if f.avx2 then on cpu [.avx2] (transformSplitRecorrAvx2 inp ip out c0p c1p xp bc v)
  else if f.sse2 then on cpu [.sse2] (transformSplitRecorrSse2 inp ip out c0p c1p xp bc v)
  else transformSplitRecorrGeneric .little inp ip out c0p c1p xp bc v

/-- The x86 branch of `untransform_with_split_colour_and_recorr`,
with_split_colour_and_recorr/untransform/mod.rs:14-45 and
`untransform_with_split_colour_and_recorr_x86`, lines 48-145. What each kernel needs is in the
`target_feature` attributes of the files beside it, and in the intrinsics these use. -/
def untransformWithSplitColourAndRecorrOn (cpu : Ext → Bool) (f : Features) (inp : Buf)
    (c0p c1p xp : Nat) (out : Buf) (op bc : Nat) (v : Variant) : Option Buf :=
  if f.avx512bw then
    on cpu [.avx512bw, .avx512f] (untransformSplitRecorrAvx512 inp c0p c1p xp out op bc v)
  else if f.avx2 then on cpu [.avx2] (untransformSplitRecorrAvx2 inp c0p c1p xp out op bc v)
  else if f.sse2 then on cpu [.sse2] (untransformSplitRecorrSse2 inp c0p c1p xp out op bc v)
  else untransformSplitRecorrLoop .little inp c0p c1p xp out op bc v

/-- `transform_bc1_with_settings`, transform_with_settings.rs:31-72, on a given x86 CPU. -/
def transformWithSettingsOn (cpu : Ext → Bool) (f : Features) (inp out : Buf) (len : Nat)
    (s : ColourSettings) : Option Buf :=
  if s.split then
    if s.decorr = .none then
      transformWithSplitColourOn cpu f inp 0 out 0 (len / 4) (len / 2) (len / 8)
    else
      transformWithSplitColourAndRecorrOn cpu f inp 0 out 0 (len / 4) (len / 2) (len / 8) s.decorr
  else if s.decorr = .none then stdTransformOn cpu f inp out len
  else transformWithDecorrelateOn cpu f inp out len s.decorr

/-- `untransform_bc1_with_settings`, transform_with_settings.rs:92-135, on a given x86 CPU. -/
def untransformWithSettingsOn (cpu : Ext → Bool) (f : Features) (inp out : Buf) (len : Nat)
    (s : ColourSettings) : Option Buf :=
  if s.split then
    if s.decorr = .none then
      untransformWithSplitColourOn cpu f inp 0 (len / 4) (len / 2) out 0 (len / 8)
    else
      untransformWithSplitColourAndRecorrOn cpu f inp 0 (len / 4) (len / 2) out 0 (len / 8) s.decorr
  else if s.decorr = .none then stdUntransformOn cpu f inp out len
  else untransformWithRecorrelateOn cpu f inp out len s.decorr

end Bc1

namespace Bc2

/-- The x86 branch of `transform`, standard/transform/mod.rs:25-37 and `transform_x86`, lines 41-97.
What each kernel needs is in the `target_feature` attributes of the files beside it, and in the
intrinsics these use. -/
def stdTransformOn (cpu : Ext → Bool) (f : Features) (inp out : Buf) (len : Nat) : Option Buf :=
  if f.avx512f then on cpu [.avx512f] (transformAvx512 inp out len)
  else if f.avx2 then on cpu [.avx2] (transformAvx2 inp out len)
  else if f.sse2 then
    if f.x64 then on cpu [.sse2] (transformSse2V3 inp out len)
    else on cpu [.sse2] (transformSse2V2 inp out len)
  else transformPortable .little inp out len

/-- The x86 branch of `untransform`, standard/untransform/mod.rs:65-77 and `untransform_x86`, lines
14-53. What each kernel needs is in the `target_feature` attributes of the files beside it, and in
the intrinsics these use. -/
def stdUntransformOn (cpu : Ext → Bool) (f : Features) (inp out : Buf) (len : Nat) : Option Buf :=
  if f.avx512f then on cpu [.avx512f] (untransformAvx512 f.x64 inp out len)
  else if f.avx2 then on cpu [.avx2] (untransformAvx2 inp out len)
  else if f.sse2 then on cpu [.sse2] (untransformSse2 inp out len)
  else untransformPortable .little inp out len

/-- The x86 branch of `transform_with_decorrelate`, with_recorrelate/transform/mod.rs:20-56 and
`transform_with_decorrelate_x86`, lines 60-158. What each kernel needs is in the `target_feature`
attributes of the files beside it, and in the intrinsics these use. -/
def transformWithDecorrelateOn (cpu : Ext → Bool) (f : Features) (inp out : Buf) (len : Nat)
    (v : Variant) : Option Buf :=
  let cp := len / 2
  let xp := len / 2 + len / 4
  if f.avx512bw then
    on cpu [.avx512vl, .avx512bw, .avx512f] (transformRecorrAvx512 inp 0 out 0 cp xp (len / 16) v)
  else if f.avx2 then on cpu [.avx2] (transformRecorrAvx2 inp 0 out 0 cp xp (len / 16) v)
  else if f.sse2 then on cpu [.sse2] (transformRecorrSse2 inp 0 out 0 cp xp (len / 16) v)
  else transformRecorrGeneric .little inp 0 out 0 cp xp (len / 16) v

/-- The x86 branch of `untransform_with_recorrelate`, with_recorrelate/untransform/mod.rs:23-60 and
`untransform_with_recorrelate_x86`, lines 63-163. What each kernel needs is in the
`target_feature` attributes of the files beside it, and in the intrinsics these use. -/
def untransformWithRecorrelateOn (cpu : Ext → Bool) (f : Features) (inp out : Buf) (len : Nat)
    (v : Variant) : Option Buf :=
  let cp := len / 2
  let xp := len / 2 + len / 4
  if f.avx512bw then
    on cpu [.avx512bw, .avx512f] (untransformRecorrAvx512 inp 0 cp xp out 0 (len / 16) v)
  else if f.avx2 then on cpu [.avx2] (untransformRecorrAvx2 inp 0 cp xp out 0 (len / 16) v)
  else if f.sse2 then on cpu [.sse2] (untransformRecorrSse2 inp 0 cp xp out 0 (len / 16) v)
  else untransformRecorrGeneric .little inp 0 cp xp out 0 (len / 16) v

/-- The x86 branch of `transform_with_split_colour`, with_split_colour/transform/mod.rs:26-57 and
`transform_with_split_colour_x86`, lines 61-158. What each kernel needs is in the `target_feature`
attributes of the files beside it, and in the intrinsics these use. -/
def transformWithSplitColourOn (cpu : Ext → Bool) (f : Features) (inp : Buf) (ip : Nat) (out : Buf)
    (ap c0p c1p xp bc : Nat) : Option Buf :=
  if f.avx512bw then
    on cpu [.avx512vl, .avx512bw, .avx512f] (transformSplitAvx512 inp ip out ap c0p c1p xp bc)
  else if f.avx2 then on cpu [.avx2] (transformSplitAvx2 inp ip out ap c0p c1p xp bc)
  else if f.sse2 then on cpu [.sse2] (transformSplitSse2 inp ip out ap c0p c1p xp bc)
  else transformSplitGeneric .little inp ip out ap c0p c1p xp bc

/-- The x86 branch of `untransform_with_split_colour`, with_split_colour/untransform/mod.rs:24-55 and
`untransform_with_split_colour_x86`, lines 59-156. What each kernel needs is in the
`target_feature` attributes of the files beside it, and in the intrinsics these use. -/
def untransformWithSplitColourOn (cpu : Ext → Bool) (f : Features) (inp : Buf) (ap c0p c1p xp : Nat)
    (out : Buf) (op bc : Nat) : Option Buf :=
  if f.avx512bw then on cpu [.avx512bw, .avx512f] (untransformSplitAvx512 inp ap c0p c1p xp out op bc)
  else if f.avx2 then on cpu [.avx2] (untransformSplitAvx2 inp ap c0p c1p xp out op bc)
  else if f.sse2 then on cpu [.sse2] (untransformSplitSse2 inp ap c0p c1p xp out op bc)
  else untransformSplitGeneric .little inp ap c0p c1p xp out op bc

/-- The x86 branch of `transform_with_split_colour_and_recorr`,
with_split_colour_and_recorr/transform/mod.rs:31-65 and
`transform_with_split_colour_and_recorr_x86`, lines 69-174. What each kernel needs is in the
`target_feature` attributes of the files beside it, and in the intrinsics these use. -/
def transformWithSplitColourAndRecorrOn (cpu : Ext → Bool) (f : Features) (inp : Buf) (ip : Nat)
    (out : Buf) (ap c0p c1p xp bc : Nat) (v : Variant) : Option Buf :=
  if f.avx512bw then
    on cpu [.avx512vl, .avx512bw, .avx512f] (transformSplitRecorrAvx512 inp ip out ap c0p c1p xp bc v)
  else if f.avx2 then on cpu [.avx2] (transformSplitRecorrAvx2 inp ip out ap c0p c1p xp bc v)
  else if f.sse2 then on cpu [.sse2] (transformSplitRecorrSse2 inp ip out ap c0p c1p xp bc v)
  else transformSplitRecorrGeneric .little inp ip out ap c0p c1p xp bc v

/-- The x86 branch of `untransform_with_split_colour_and_recorr`,
with_split_colour_and_recorr/untransform/mod.rs:29-63 and
`untransform_with_split_colour_and_recorr_x86`, lines 67-172. What each kernel needs is in the
`target_feature` attributes of the files beside it, and in the intrinsics these use. -/
def untransformWithSplitColourAndRecorrOn (cpu : Ext → Bool) (f : Features) (inp : Buf)
    (ap c0p c1p xp : Nat) (out : Buf) (op bc : Nat) (v : Variant) : Option Buf :=
  if f.avx512bw then
    on cpu [.avx512bw, .avx512f] (untransformSplitRecorrAvx512 inp ap c0p c1p xp out op bc v)
  else if f.avx2 then on cpu [.avx2] (untransformSplitRecorrAvx2 inp ap c0p c1p xp out op bc v)
  else if f.sse2 then on cpu [.sse2] (untransformSplitRecorrSse2 inp ap c0p c1p xp out op bc v)
  else untransformSplitRecorrGeneric .little inp ap c0p c1p xp out op bc v

/-- `transform_bc2_with_settings`, transform_with_settings.rs:30-73, on a given x86 CPU. -/
def transformWithSettingsOn (cpu : Ext → Bool) (f : Features) (inp out : Buf) (len : Nat)
    (s : ColourSettings) : Option Buf :=
  if s.split then
    if s.decorr = .none then
      transformWithSplitColourOn cpu f inp 0 out 0 (len / 2) (len / 2 + len / 8) (len / 2 + len / 4) (len / 16)
    else
      transformWithSplitColourAndRecorrOn cpu f inp 0 out 0 (len / 2) (len / 2 + len / 8) (len / 2 + len / 4)
        (len / 16) s.decorr
  else if s.decorr = .none then stdTransformOn cpu f inp out len
  else transformWithDecorrelateOn cpu f inp out len s.decorr

/-- `untransform_bc2_with_settings`, transform_with_settings.rs:93-138, on a given x86 CPU. -/
def untransformWithSettingsOn (cpu : Ext → Bool) (f : Features) (inp out : Buf) (len : Nat)
    (s : ColourSettings) : Option Buf :=
  if s.split then
    if s.decorr = .none then
      untransformWithSplitColourOn cpu f inp 0 (len / 2) (len / 2 + len / 8) (len / 2 + len / 4) out 0 (len / 16)
    else
      untransformWithSplitColourAndRecorrOn cpu f inp 0 (len / 2) (len / 2 + len / 8) (len / 2 + len / 4) out 0
        (len / 16) s.decorr
  else if s.decorr = .none then stdUntransformOn cpu f inp out len
  else untransformWithRecorrelateOn cpu f inp out len s.decorr

end Bc2

namespace Bc3

/-- The x86 branch of `transform`, standard/transform/mod.rs:53-65 and `transform_x86`, lines 11-41.
What each kernel needs is in the `target_feature` attributes of the files beside it, and in the
intrinsics these use. -/
def stdTransformOn (cpu : Ext → Bool) (f : Features) (inp out : Buf) (len : Nat) : Option Buf :=
  if f.avx512vbmi then on cpu [.avx512vbmi, .avx512f] (transformVbmi inp out len)
  else if f.avx2 then on cpu [.avx2] (transformAvx2 f.x64 inp out len)
  else transformPortable .little inp out len

/-- The x86 branch of `untransform`, standard/untransform/mod.rs:95-106 and `untransform_x86`, lines
20-84. What each kernel needs is in the `target_feature` attributes of the files beside it, and in
the intrinsics these use. -/
def stdUntransformOn (cpu : Ext → Bool) (f : Features) (inp out : Buf) (len : Nat) : Option Buf :=
  if f.avx512vbmi then
    if f.x64 then on cpu [.avx512vbmi, .avx512f] (untransformVbmi64 inp out len)
    else on cpu [.avx512vbmi, .avx512f] (untransformVbmi32 f.undef inp out len)
  else if f.x64 then on cpu [.sse2] (untransformSse2x64 inp out len)
  else if f.sse2 then on cpu [.sse2] (untransformSse2x32 inp out len)
  else untransformV2 .little inp out len

/-- The x86 branch of `transform_with_decorrelate`, with_recorrelate/transform/mod.rs:18-58 and
`transform_with_decorrelate_x86`, lines 62-142. What each kernel needs is in the `target_feature`
attributes of the files beside it, and in the intrinsics these use. -/
def transformWithDecorrelateOn (cpu : Ext → Bool) (f : Features) (inp out : Buf) (len : Nat)
    (v : Variant) : Option Buf :=
  let bp := len / 8
  let cp := len / 2
  let xp := len / 2 + len / 4
  if f.avx512vbmi then
    on cpu [.avx512vbmi, .avx512f, .avx2] (transformRecorrVbmi inp 0 out 0 bp cp xp (len / 16) v)
  else if f.avx2 then on cpu [.avx2] (transformRecorrAvx2 f.x64 inp 0 out 0 bp cp xp (len / 16) v)
  else transformRecorrGeneric .little inp 0 out 0 bp cp xp (len / 16) v

/-- The x86 branch of `untransform_with_recorrelate`, with_recorrelate/untransform/mod.rs:26-66 and
`untransform_with_recorrelate_x86`, lines 69-149. What each kernel needs is in the
`target_feature` attributes of the files beside it, and in the intrinsics these use. -/
def untransformWithRecorrelateOn (cpu : Ext → Bool) (f : Features) (inp out : Buf) (len : Nat)
    (v : Variant) : Option Buf :=
  let bp := len / 8
  let cp := len / 2
  let xp := len / 2 + len / 4
  if f.avx512vbmi then
    if f.x64 then
      on cpu [.avx512vbmi, .avx512bw, .avx512f] (untransformRecorrVbmi64 inp 0 bp cp xp out 0 (len / 16) v)
    else on cpu [.avx512vbmi, .avx512bw, .avx512f] (untransformRecorrVbmi32 f.undef inp 0 bp cp xp out 0 (len / 16) v)
  else if f.sse2 then on cpu [.sse2] (untransformRecorrSse2 inp 0 bp cp xp out 0 (len / 16) v)
  else untransformRecorrGeneric .little inp 0 bp cp xp out 0 (len / 16) v

/-- The x86 branch of `transform_with_split_alphas`, with_split_alphas/transform/mod.rs:107-141 and
`transform_with_split_alphas_x86`, lines 15-92. What each kernel needs is in the `target_feature`
attributes of the files beside it, and in the intrinsics these use. -/
def transformWithSplitAlphasOn (cpu : Ext → Bool) (f : Features) (inp : Buf) (ip : Nat) (out : Buf)
    (a0p a1p bp cp xp bc : Nat) : Option Buf :=
  if f.avx512vbmi then
    on cpu [.avx512vbmi, .avx512f] (transformAlphaVbmi inp ip out a0p a1p bp cp xp bc)
  else if f.avx2 then on cpu [.avx2] (transformAlphaAvx2 f.x64 inp ip out a0p a1p bp cp xp bc)
  else transformAlphaGeneric .little inp ip out a0p a1p bp cp xp bc

/-- The x86 branch of `untransform_with_split_alphas`, with_split_alphas/untransform/mod.rs:58-92 and
`untransform_with_split_alphas_x86`, lines 12-43. What each kernel needs is in the
`target_feature` attributes of the files beside it, and in the intrinsics these use. -/
def untransformWithSplitAlphasOn (cpu : Ext → Bool) (f : Features) (inp : Buf)
    (a0p a1p bp cp xp : Nat) (out : Buf) (op bc : Nat) : Option Buf :=
  if f.sse2 then on cpu [.sse2] (untransformAlphaSse2 inp a0p a1p bp cp xp out op bc)
  else untransformAlphaGeneric .little inp a0p a1p bp cp xp out op bc

/-- `transform_bc3_with_settings`, transform_with_settings.rs:32-142, on a given x86 CPU. -/
def transformWithSettingsOn (cpu : Ext → Bool) (f : Features) (inp out : Buf) (len : Nat)
    (s : Settings) : Option Buf :=
  match s.splitAlpha, s.splitColour, decide (s.decorr ≠ .none) with
  | false, false, false => stdTransformOn cpu f inp out len
  | true, false, false => transformWithSplitAlphasOn cpu f inp 0 out 0 (len / 16) (len / 16 * 2) (len / 16 * 8) (len / 16 * 12)
      (len / 16)
  | false, false, true => transformWithDecorrelateOn cpu f inp out len s.decorr
  | false, true, false => transformColourGeneric .little inp 0 out 0 (len / 16 * 2) (len / 16 * 8) (len / 16 * 10) (len / 16 * 12)
      (len / 16)
  | true, false, true => transformAlphaRecorrGeneric .little inp 0 out 0 (len / 16) (len / 16 * 2) (len / 16 * 8) (len / 16 * 12)
      (len / 16) s.decorr
  | true, true, false => transformBothGeneric .little inp 0 out 0 (len / 16) (len / 16 * 2) (len / 16 * 8) (len / 16 * 10) (len / 16 * 12)
      (len / 16)
  | false, true, true => transformColourRecorrGeneric .little inp 0 out 0 (len / 16 * 2) (len / 16 * 8) (len / 16 * 10) (len / 16 * 12)
      (len / 16) s.decorr
  | true, true, true => transformBothRecorrGeneric .little inp 0 out 0 (len / 16) (len / 16 * 2) (len / 16 * 8) (len / 16 * 10) (len / 16 * 12)
      (len / 16) s.decorr

/-- `untransform_bc3_with_settings`, transform_with_settings.rs:162-272, on a given x86 CPU. -/
def untransformWithSettingsOn (cpu : Ext → Bool) (f : Features) (inp out : Buf) (len : Nat)
    (s : Settings) : Option Buf :=
  match s.splitAlpha, s.splitColour, decide (s.decorr ≠ .none) with
  | false, false, false => stdUntransformOn cpu f inp out len
  | true, false, false => untransformWithSplitAlphasOn cpu f inp 0 (len / 16) (len / 16 * 2) (len / 16 * 8) (len / 16 * 12) out 0 (len / 16)
  | false, false, true => untransformWithRecorrelateOn cpu f inp out len s.decorr
  | false, true, false => untransformColourGeneric .little inp 0 (len / 16 * 2) (len / 16 * 8) (len / 16 * 10) (len / 16 * 12) out 0 (len / 16)
  | true, false, true => untransformAlphaRecorrGeneric .little inp 0 (len / 16) (len / 16 * 2) (len / 16 * 8) (len / 16 * 12) out 0 (len / 16) s.decorr
  | true, true, false => untransformBothGeneric .little inp 0 (len / 16) (len / 16 * 2) (len / 16 * 8) (len / 16 * 10) (len / 16 * 12) out 0 (len / 16)
  | false, true, true => untransformColourRecorrGeneric .little inp 0 (len / 16 * 2) (len / 16 * 8) (len / 16 * 10) (len / 16 * 12) out 0 (len / 16) s.decorr
  | true, true, true => untransformBothRecorrGeneric .little inp 0 (len / 16) (len / 16 * 2) (len / 16 * 8) (len / 16 * 10) (len / 16 * 12) out 0 (len / 16) s.decorr

end Bc3

end Dlt
