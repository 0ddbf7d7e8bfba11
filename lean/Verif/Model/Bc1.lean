import Verif.Model.Bc1Generic
import Verif.Model.Bc1Std
import Verif.Model.Bc1Simd
import Verif.Model.Batch
/-!
# BC1: CPU dispatch and entry points

File names are relative to `/repo/src/core/dxt-lossless-transform-bc1/src/transform/`.
-/

namespace Dlt.Bc1

/-- `transform`, standard/transform/mod.rs:25-37 and `transform_x86`, lines 77-119. -/
def stdTransform (m : Machine) (inp out : Buf) (len : Nat) : Option Buf :=
  match m with
  | .x86 f =>
    if f.avx512f then transformAvx512 inp out len
    else if f.avx2 then transformAvx2 inp out len
    else if f.sse2 then transformSse2 inp out len
    else transformPortable .little inp out len
  | .other e _ => transformPortable e inp out len

/-- `untransform`, standard/untransform/mod.rs:68-80 and `untransform_x86`, lines 17-56. -/
def stdUntransform (m : Machine) (inp out : Buf) (len : Nat) : Option Buf :=
  match m with
  | .x86 f =>
    if f.avx512f then untransformAvx512 inp out len
    else if f.avx2 then untransformAvx2 inp out len
    else if f.sse2 then untransformSse2 inp out len
    else untransformPortable .little inp out len
  | .other e _ => untransformPortable e inp out len

/-- `transform_with_decorrelate`, with_recorrelate/transform/mod.rs:20-53 and
`transform_with_decorrelate_x86`, lines 57-147. -/
def transformWithDecorrelate (m : Machine) (inp out : Buf) (len : Nat) (v : Variant) : Option Buf :=
  match m with
  | .x86 f =>
    if f.avx512bw then transformRecorrAvx512 inp 0 out 0 (len / 2) (len / 8) v
    else if f.avx2 then transformRecorrAvx2 inp 0 out 0 (len / 2) (len / 8) v
    else if f.sse2 then transformRecorrSse2 inp 0 out 0 (len / 2) (len / 8) v
    else transformRecorrGeneric .little inp 0 out 0 (len / 2) (len / 8) v
  | .other e _ => transformRecorrGeneric e inp 0 out 0 (len / 2) (len / 8) v

/-- `untransform_with_recorrelate`, with_recorrelate/untransform/mod.rs:15-51 and
`untransform_with_recorrelate_x86`, lines 54-146. -/
def untransformWithRecorrelate (m : Machine) (inp out : Buf) (len : Nat) (v : Variant) : Option Buf :=
  match m with
  | .x86 f =>
    if f.avx512bw then untransformRecorrAvx512 inp 0 (len / 2) out 0 (len / 8) v
    else if f.avx2 then untransformRecorrAvx2 inp 0 (len / 2) out 0 (len / 8) v
    else if f.sse2 then untransformRecorrSse2 inp 0 (len / 2) out 0 (len / 8) v
    else untransformRecorrGeneric .little inp 0 (len / 2) out 0 (len / 8) v
  | .other e _ => untransformRecorrGeneric e inp 0 (len / 2) out 0 (len / 8) v

/-- `transform_with_split_colour`, with_split_colour/transform/mod.rs:25-53 and
`transform_with_split_colour_x86`, lines 57-146. -/
def transformWithSplitColour (m : Machine) (inp : Buf) (ip : Nat) (out : Buf) (c0p c1p xp bc : Nat) :
    Option Buf :=
  match m with
  | .x86 f =>
    if f.avx512bw then transformSplitAvx512 inp ip out c0p c1p xp bc
    else if f.avx2 then transformSplitAvx2 inp ip out c0p c1p xp bc
    else if f.sse2 then transformSplitSse2 inp ip out c0p c1p xp bc
    else transformSplitGeneric .little inp ip out c0p c1p xp bc
  | .other e _ => transformSplitGeneric e inp ip out c0p c1p xp bc

/-- `untransform_with_split_colour`, with_split_colour/untransform/mod.rs:12-40 and
`untransform_with_split_colour_x86`, lines 43-132. -/
def untransformWithSplitColour (m : Machine) (inp : Buf) (c0p c1p xp : Nat) (out : Buf) (op bc : Nat) :
    Option Buf :=
  match m with
  | .x86 f =>
    if f.avx512bw then untransformSplitAvx512 inp c0p c1p xp out op bc
    else if f.avx2 then untransformSplitAvx2 inp c0p c1p xp out op bc
    else if f.sse2 then untransformSplitSse2 inp c0p c1p xp out op bc
    else untransformSplitGeneric .little inp c0p c1p xp out op bc
  | .other e _ => untransformSplitGeneric e inp c0p c1p xp out op bc

/-- `transform_with_split_colour_and_recorr`, with_split_colour_and_recorr/transform/mod.rs:33-66 and
`transform_with_split_colour_and_recorr_x86`, lines 70-166. -/
def transformWithSplitColourAndRecorr (m : Machine) (inp : Buf) (ip : Nat) (out : Buf)
    (c0p c1p xp bc : Nat) (v : Variant) : Option Buf :=
  match m with
  | .x86 f =>
    if f.avx512bw then transformSplitRecorrAvx512 inp ip out c0p c1p xp bc v
    else if f.avx2 then transformSplitRecorrAvx2 inp ip out c0p c1p xp bc v
    else if f.sse2 then transformSplitRecorrSse2 inp ip out c0p c1p xp bc v
    else transformSplitRecorrGeneric .little inp ip out c0p c1p xp bc v
  | .other e _ => transformSplitRecorrGeneric e inp ip out c0p c1p xp bc v

/-- The work-buffer path of `untransform_with_split_colour_and_recorr_generic`,
with_split_colour_and_recorr/untransform/generic.rs:26-51, which exists on other architectures than
x86 only.  `untransform_with_separate_pointers` is the portable kernel there
(standard/untransform/mod.rs:174-191).  Allocation succeeds (the code calls `expect`). -/
def untransformSplitRecorrWork (e : Endian) (fresh : Nat → Byte) (inp : Buf) (c0p c1p xp : Nat)
    (out : Buf) (op bc : Nat) (v : Variant) : Option Buf := do
  let work := (List.range (bc * 8)).map fresh
  let work ← Batch.recorrelatePtrSplit e inp c0p inp c1p work 0 (bc * 2) v
  untransformPtrs e work 0 inp xp out op (bc * 8)

/-- `untransform_with_split_colour_and_recorr`, with_split_colour_and_recorr/untransform/mod.rs:14-45
and `untransform_with_split_colour_and_recorr_x86`, lines 48-145; the generic function
(generic.rs:4-65) takes the work-buffer path for 128 blocks or more unless it runs on x86. -/
def untransformWithSplitColourAndRecorr (m : Machine) (inp : Buf) (c0p c1p xp : Nat) (out : Buf)
    (op bc : Nat) (v : Variant) : Option Buf :=
  match m with
  | .x86 f =>
    if f.avx512bw then untransformSplitRecorrAvx512 inp c0p c1p xp out op bc v
    else if f.avx2 then untransformSplitRecorrAvx2 inp c0p c1p xp out op bc v
    else if f.sse2 then untransformSplitRecorrSse2 inp c0p c1p xp out op bc v
    else untransformSplitRecorrLoop .little inp c0p c1p xp out op bc v
  | .other e fresh =>
    if 128 ≤ bc then untransformSplitRecorrWork e fresh inp c0p c1p xp out op bc v
    else untransformSplitRecorrLoop e inp c0p c1p xp out op bc v

/-- `transform_bc1_with_settings`, transform_with_settings.rs:31-72.  The input region is `inp`, which
has exactly the `len` bytes the caller vouches for. -/
def transformWithSettings (m : Machine) (inp out : Buf) (len : Nat) (s : ColourSettings) : Option Buf :=
  if s.split then
    if s.decorr = .none then
      transformWithSplitColour m inp 0 out 0 (len / 4) (len / 2) (len / 8)
    else
      transformWithSplitColourAndRecorr m inp 0 out 0 (len / 4) (len / 2) (len / 8) s.decorr
  else if s.decorr = .none then stdTransform m inp out len
  else transformWithDecorrelate m inp out len s.decorr

/-- `untransform_bc1_with_settings`, transform_with_settings.rs:92-135. -/
def untransformWithSettings (m : Machine) (inp out : Buf) (len : Nat) (s : ColourSettings) :
    Option Buf :=
  if s.split then
    if s.decorr = .none then
      untransformWithSplitColour m inp 0 (len / 4) (len / 2) out 0 (len / 8)
    else
      untransformWithSplitColourAndRecorr m inp 0 (len / 4) (len / 2) out 0 (len / 8) s.decorr
  else if s.decorr = .none then stdUntransform m inp out len
  else untransformWithRecorrelate m inp out len s.decorr

end Dlt.Bc1
