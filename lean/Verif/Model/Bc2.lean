import Verif.Model.Bc2Generic
import Verif.Model.Bc2Simd
import Verif.Model.Machine
/-!
# BC2: CPU dispatch and entry points

File names are relative to `/repo/src/core/dxt-lossless-transform-bc2/src/transform/`.
-/

namespace Dlt.Bc2

/-- `transform`, standard/transform/mod.rs:25-37 and `transform_x86`, lines 41-97. -/
def stdTransform (m : Machine) (inp out : Buf) (len : Nat) : Option Buf :=
  match m with
  | .x86 f =>
    if f.avx512f then transformAvx512 inp out len
    else if f.avx2 then transformAvx2 inp out len
    else if f.sse2 then
      if f.x64 then transformSse2V3 inp out len else transformSse2V2 inp out len
    else transformPortable .little inp out len
  | .other e _ => transformPortable e inp out len

/-- `untransform`, standard/untransform/mod.rs:65-77 and `untransform_x86`, lines 14-53. -/
def stdUntransform (m : Machine) (inp out : Buf) (len : Nat) : Option Buf :=
  match m with
  | .x86 f =>
    if f.avx512f then untransformAvx512 f.x64 inp out len
    else if f.avx2 then untransformAvx2 inp out len
    else if f.sse2 then untransformSse2 inp out len
    else untransformPortable .little inp out len
  | .other e _ => untransformPortable e inp out len

/-- `transform_with_decorrelate`, with_recorrelate/transform/mod.rs:20-56 and
`transform_with_decorrelate_x86`, lines 60-158. -/
def transformWithDecorrelate (m : Machine) (inp out : Buf) (len : Nat) (v : Variant) : Option Buf :=
  let cp := len / 2
  let xp := len / 2 + len / 4
  match m with
  | .x86 f =>
    if f.avx512bw then transformRecorrAvx512 inp 0 out 0 cp xp (len / 16) v
    else if f.avx2 then transformRecorrAvx2 inp 0 out 0 cp xp (len / 16) v
    else if f.sse2 then transformRecorrSse2 inp 0 out 0 cp xp (len / 16) v
    else transformRecorrGeneric .little inp 0 out 0 cp xp (len / 16) v
  | .other e _ => transformRecorrGeneric e inp 0 out 0 cp xp (len / 16) v

/-- `untransform_with_recorrelate`, with_recorrelate/untransform/mod.rs:23-60 and
`untransform_with_recorrelate_x86`, lines 63-163. -/
def untransformWithRecorrelate (m : Machine) (inp out : Buf) (len : Nat) (v : Variant) : Option Buf :=
  let cp := len / 2
  let xp := len / 2 + len / 4
  match m with
  | .x86 f =>
    if f.avx512bw then untransformRecorrAvx512 inp 0 cp xp out 0 (len / 16) v
    else if f.avx2 then untransformRecorrAvx2 inp 0 cp xp out 0 (len / 16) v
    else if f.sse2 then untransformRecorrSse2 inp 0 cp xp out 0 (len / 16) v
    else untransformRecorrGeneric .little inp 0 cp xp out 0 (len / 16) v
  | .other e _ => untransformRecorrGeneric e inp 0 cp xp out 0 (len / 16) v

/-- `transform_with_split_colour`, with_split_colour/transform/mod.rs:26-57 and
`transform_with_split_colour_x86`, lines 61-158. -/
def transformWithSplitColour (m : Machine) (inp : Buf) (ip : Nat) (out : Buf)
    (ap c0p c1p xp bc : Nat) : Option Buf :=
  match m with
  | .x86 f =>
    if f.avx512bw then transformSplitAvx512 inp ip out ap c0p c1p xp bc
    else if f.avx2 then transformSplitAvx2 inp ip out ap c0p c1p xp bc
    else if f.sse2 then transformSplitSse2 inp ip out ap c0p c1p xp bc
    else transformSplitGeneric .little inp ip out ap c0p c1p xp bc
  | .other e _ => transformSplitGeneric e inp ip out ap c0p c1p xp bc

/-- `untransform_with_split_colour`, with_split_colour/untransform/mod.rs:24-55 and
`untransform_with_split_colour_x86`, lines 59-156. -/
def untransformWithSplitColour (m : Machine) (inp : Buf) (ap c0p c1p xp : Nat) (out : Buf)
    (op bc : Nat) : Option Buf :=
  match m with
  | .x86 f =>
    if f.avx512bw then untransformSplitAvx512 inp ap c0p c1p xp out op bc
    else if f.avx2 then untransformSplitAvx2 inp ap c0p c1p xp out op bc
    else if f.sse2 then untransformSplitSse2 inp ap c0p c1p xp out op bc
    else untransformSplitGeneric .little inp ap c0p c1p xp out op bc
  | .other e _ => untransformSplitGeneric e inp ap c0p c1p xp out op bc

/-- `transform_with_split_colour_and_recorr`, with_split_colour_and_recorr/transform/mod.rs:31-65 and
`transform_with_split_colour_and_recorr_x86`, lines 69-174. -/
def transformWithSplitColourAndRecorr (m : Machine) (inp : Buf) (ip : Nat) (out : Buf)
    (ap c0p c1p xp bc : Nat) (v : Variant) : Option Buf :=
  match m with
  | .x86 f =>
    if f.avx512bw then transformSplitRecorrAvx512 inp ip out ap c0p c1p xp bc v
    else if f.avx2 then transformSplitRecorrAvx2 inp ip out ap c0p c1p xp bc v
    else if f.sse2 then transformSplitRecorrSse2 inp ip out ap c0p c1p xp bc v
    else transformSplitRecorrGeneric .little inp ip out ap c0p c1p xp bc v
  | .other e _ => transformSplitRecorrGeneric e inp ip out ap c0p c1p xp bc v

/-- `untransform_with_split_colour_and_recorr`, with_split_colour_and_recorr/untransform/mod.rs:29-63
and `untransform_with_split_colour_and_recorr_x86`, lines 67-172. -/
def untransformWithSplitColourAndRecorr (m : Machine) (inp : Buf) (ap c0p c1p xp : Nat) (out : Buf)
    (op bc : Nat) (v : Variant) : Option Buf :=
  match m with
  | .x86 f =>
    if f.avx512bw then untransformSplitRecorrAvx512 inp ap c0p c1p xp out op bc v
    else if f.avx2 then untransformSplitRecorrAvx2 inp ap c0p c1p xp out op bc v
    else if f.sse2 then untransformSplitRecorrSse2 inp ap c0p c1p xp out op bc v
    else untransformSplitRecorrGeneric .little inp ap c0p c1p xp out op bc v
  | .other e _ => untransformSplitRecorrGeneric e inp ap c0p c1p xp out op bc v

/-- `transform_bc2_with_settings`, transform_with_settings.rs:30-73. -/
def transformWithSettings (m : Machine) (inp out : Buf) (len : Nat) (s : ColourSettings) :
    Option Buf :=
  if s.split then
    if s.decorr = .none then
      transformWithSplitColour m inp 0 out 0 (len / 2) (len / 2 + len / 8) (len / 2 + len / 4) (len / 16)
    else
      transformWithSplitColourAndRecorr m inp 0 out 0 (len / 2) (len / 2 + len / 8) (len / 2 + len / 4)
        (len / 16) s.decorr
  else if s.decorr = .none then stdTransform m inp out len
  else transformWithDecorrelate m inp out len s.decorr

/-- `untransform_bc2_with_settings`, transform_with_settings.rs:93-138. -/
def untransformWithSettings (m : Machine) (inp out : Buf) (len : Nat) (s : ColourSettings) :
    Option Buf :=
  if s.split then
    if s.decorr = .none then
      untransformWithSplitColour m inp 0 (len / 2) (len / 2 + len / 8) (len / 2 + len / 4) out 0 (len / 16)
    else
      untransformWithSplitColourAndRecorr m inp 0 (len / 2) (len / 2 + len / 8) (len / 2 + len / 4) out 0
        (len / 16) s.decorr
  else if s.decorr = .none then stdUntransform m inp out len
  else untransformWithRecorrelate m inp out len s.decorr

end Dlt.Bc2
