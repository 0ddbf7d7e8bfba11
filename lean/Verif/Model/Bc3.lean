import Verif.Model.Bc3Generic
import Verif.Model.Bc3Simd
import Verif.Model.Machine
/-!
# BC3: CPU dispatch and entry points

File names are relative to `/repo/src/core/dxt-lossless-transform-bc3/src/transform/`.
-/

namespace Dlt.Bc3

/-- `Bc3TransformSettings`, settings.rs; `Bc3UntransformSettings` is an alias. -/
structure Settings where
  /-- `decorrelation_mode` -/
  decorr : Variant
  /-- `split_alpha_endpoints` -/
  splitAlpha : Bool
  /-- `split_colour_endpoints` -/
  splitColour : Bool
  deriving DecidableEq, Repr

/-- `transform`, standard/transform/mod.rs:53-65 and `transform_x86`, lines 11-41. -/
def stdTransform (m : Machine) (inp out : Buf) (len : Nat) : Option Buf :=
  match m with
  | .x86 f =>
    if f.avx512vbmi then transformVbmi inp out len
    else if f.avx2 then transformAvx2 f.x64 inp out len
    else transformPortable .little inp out len
  | .other e _ => transformPortable e inp out len

/-- `untransform`, standard/untransform/mod.rs:95-106 and `untransform_x86`, lines 20-84.  On x86-64 SSE2 is
not asked for. -/
def stdUntransform (m : Machine) (inp out : Buf) (len : Nat) : Option Buf :=
  match m with
  | .x86 f =>
    if f.avx512vbmi then
      if f.x64 then untransformVbmi64 inp out len else untransformVbmi32 f.undef inp out len
    else if f.x64 then untransformSse2x64 inp out len
    else if f.sse2 then untransformSse2x32 inp out len
    else untransformV2 .little inp out len
  | .other e _ => untransformV2 e inp out len

/-- `transform_with_decorrelate`, with_recorrelate/transform/mod.rs:18-58 and
`transform_with_decorrelate_x86`, lines 62-142. -/
def transformWithDecorrelate (m : Machine) (inp out : Buf) (len : Nat) (v : Variant) : Option Buf :=
  let bp := len / 8
  let cp := len / 2
  let xp := len / 2 + len / 4
  match m with
  | .x86 f =>
    if f.avx512vbmi then transformRecorrVbmi inp 0 out 0 bp cp xp (len / 16) v
    else if f.avx2 then transformRecorrAvx2 f.x64 inp 0 out 0 bp cp xp (len / 16) v
    else transformRecorrGeneric .little inp 0 out 0 bp cp xp (len / 16) v
  | .other e _ => transformRecorrGeneric e inp 0 out 0 bp cp xp (len / 16) v

/-- `untransform_with_recorrelate`, with_recorrelate/untransform/mod.rs:26-66 and
`untransform_with_recorrelate_x86`, lines 69-149. -/
def untransformWithRecorrelate (m : Machine) (inp out : Buf) (len : Nat) (v : Variant) : Option Buf :=
  let bp := len / 8
  let cp := len / 2
  let xp := len / 2 + len / 4
  match m with
  | .x86 f =>
    if f.avx512vbmi then
      if f.x64 then untransformRecorrVbmi64 inp 0 bp cp xp out 0 (len / 16) v
      else untransformRecorrVbmi32 f.undef inp 0 bp cp xp out 0 (len / 16) v
    else if f.sse2 then untransformRecorrSse2 inp 0 bp cp xp out 0 (len / 16) v
    else untransformRecorrGeneric .little inp 0 bp cp xp out 0 (len / 16) v
  | .other e _ => untransformRecorrGeneric e inp 0 bp cp xp out 0 (len / 16) v

/-- `transform_with_split_alphas`, with_split_alphas/transform/mod.rs:107-141 and
`transform_with_split_alphas_x86`, lines 15-92. -/
def transformWithSplitAlphas (m : Machine) (inp : Buf) (ip : Nat) (out : Buf)
    (a0p a1p bp cp xp bc : Nat) : Option Buf :=
  match m with
  | .x86 f =>
    if f.avx512vbmi then transformAlphaVbmi inp ip out a0p a1p bp cp xp bc
    else if f.avx2 then transformAlphaAvx2 f.x64 inp ip out a0p a1p bp cp xp bc
    else transformAlphaGeneric .little inp ip out a0p a1p bp cp xp bc
  | .other e _ => transformAlphaGeneric e inp ip out a0p a1p bp cp xp bc

/-- `untransform_with_split_alphas`, with_split_alphas/untransform/mod.rs:58-92 and
`untransform_with_split_alphas_x86`, lines 12-43. -/
def untransformWithSplitAlphas (m : Machine) (inp : Buf) (a0p a1p bp cp xp : Nat) (out : Buf)
    (op bc : Nat) : Option Buf :=
  match m with
  | .x86 f =>
    if f.sse2 then untransformAlphaSse2 inp a0p a1p bp cp xp out op bc
    else untransformAlphaGeneric .little inp a0p a1p bp cp xp out op bc
  | .other e _ => untransformAlphaGeneric e inp a0p a1p bp cp xp out op bc

/-- `transform_bc3_with_settings`, transform_with_settings.rs:32-142.  The five combinations without a vector
kernel call the generic one directly (with_split_colour/transform/mod.rs,
with_split_colour_and_recorr/transform/mod.rs, with_split_alphas_and_colour/transform/mod.rs,
with_split_alphas_and_recorr/transform/mod.rs, with_split_alphas_colour_and_recorr/transform/mod.rs). -/
def transformWithSettings (m : Machine) (inp out : Buf) (len : Nat) (s : Settings) : Option Buf :=
  match s.splitAlpha, s.splitColour, decide (s.decorr ≠ .none) with
  | false, false, false => stdTransform m inp out len
  | true, false, false => transformWithSplitAlphas m inp 0 out 0 (len / 16) (len / 16 * 2) (len / 16 * 8) (len / 16 * 12)
      (len / 16)
  | false, false, true => transformWithDecorrelate m inp out len s.decorr
  | false, true, false => transformColourGeneric m.endian inp 0 out 0 (len / 16 * 2) (len / 16 * 8) (len / 16 * 10) (len / 16 * 12)
      (len / 16)
  | true, false, true => transformAlphaRecorrGeneric m.endian inp 0 out 0 (len / 16) (len / 16 * 2) (len / 16 * 8) (len / 16 * 12)
      (len / 16) s.decorr
  | true, true, false => transformBothGeneric m.endian inp 0 out 0 (len / 16) (len / 16 * 2) (len / 16 * 8) (len / 16 * 10) (len / 16 * 12)
      (len / 16)
  | false, true, true => transformColourRecorrGeneric m.endian inp 0 out 0 (len / 16 * 2) (len / 16 * 8) (len / 16 * 10) (len / 16 * 12)
      (len / 16) s.decorr
  | true, true, true => transformBothRecorrGeneric m.endian inp 0 out 0 (len / 16) (len / 16 * 2) (len / 16 * 8) (len / 16 * 10) (len / 16 * 12)
      (len / 16) s.decorr

/-- `untransform_bc3_with_settings`, transform_with_settings.rs:162-272.  The five combinations without a vector
kernel call the generic one directly (with_split_colour/untransform/mod.rs,
with_split_colour_and_recorr/untransform/mod.rs, with_split_alphas_and_colour/untransform/mod.rs,
with_split_alphas_and_recorr/untransform/mod.rs, with_split_alphas_colour_and_recorr/untransform/mod.rs). -/
def untransformWithSettings (m : Machine) (inp out : Buf) (len : Nat) (s : Settings) : Option Buf :=
  match s.splitAlpha, s.splitColour, decide (s.decorr ≠ .none) with
  | false, false, false => stdUntransform m inp out len
  | true, false, false => untransformWithSplitAlphas m inp 0 (len / 16) (len / 16 * 2) (len / 16 * 8) (len / 16 * 12) out 0 (len / 16)
  | false, false, true => untransformWithRecorrelate m inp out len s.decorr
  | false, true, false => untransformColourGeneric m.endian inp 0 (len / 16 * 2) (len / 16 * 8) (len / 16 * 10) (len / 16 * 12) out 0 (len / 16)
  | true, false, true => untransformAlphaRecorrGeneric m.endian inp 0 (len / 16) (len / 16 * 2) (len / 16 * 8) (len / 16 * 12) out 0 (len / 16) s.decorr
  | true, true, false => untransformBothGeneric m.endian inp 0 (len / 16) (len / 16 * 2) (len / 16 * 8) (len / 16 * 10) (len / 16 * 12) out 0 (len / 16)
  | false, true, true => untransformColourRecorrGeneric m.endian inp 0 (len / 16 * 2) (len / 16 * 8) (len / 16 * 10) (len / 16 * 12) out 0 (len / 16) s.decorr
  | true, true, true => untransformBothRecorrGeneric m.endian inp 0 (len / 16) (len / 16 * 2) (len / 16 * 8) (len / 16 * 10) (len / 16 * 12) out 0 (len / 16) s.decorr

end Dlt.Bc3
