import Verif.Model.Mem
import Verif.Model.Color565
import Verif.Model.Bc1Generic
/-!
# BC2: portable kernels

Models the scalar kernels below `/repo/src/core/dxt-lossless-transform-bc2/src/transform/`.
File names in the comments are relative to that directory.  `e` is the byte order of the machine.
A pointer of type `*mut u32` is a byte offset; `.add(1)` adds 4 to it.  `Bc1.onColourPair` is the
unpacking and packing of a colour pair, the same code as in the BC1 crate.
-/

namespace Dlt.Bc2
open Bc1 (onColourPair)

/-- `u32_with_separate_pointers`, standard/transform/portable32.rs:28-56. -/
def transformPtrs (e : Endian) (inp : Buf) (ip0 : Nat) (out : Buf) (ap0 cp0 xp0 len : Nat) :
    Option Buf := do
  let maxPtr := ip0 + len
  let (_, _, _, _, out) ← whileM (len + 1) (fun (ip, _, _, _, _) => decide (ip < maxPtr))
    (fun ((ip, ap, cp, xp, out) : Nat × Nat × Nat × Nat × Buf) => do
      let alpha ← ld64 e inp ip
      let color ← ld32 e inp (ip + 8)
      let index ← ld32 e inp (ip + 12)
      let out ← st64 e out ap alpha
      let out ← st32 e out cp color
      let out ← st32 e out xp index
      pure (ip + 16, ap + 8, cp + 4, xp + 4, out)) (ip0, ap0, cp0, xp0, out)
  pure out

/-- `u32`, standard/transform/portable32.rs:6-17. -/
def transformPortable (e : Endian) (inp out : Buf) (len : Nat) : Option Buf :=
  transformPtrs e inp 0 out 0 (len / 2) (len / 2 + len / 4) len

/-- `u32_untransform_with_separate_pointers`, standard/untransform/portable32.rs:26-55. -/
def untransformPtrs (e : Endian) (inp : Buf) (ap0 cp0 xp0 : Nat) (out : Buf) (op0 len : Nat) :
    Option Buf := do
  let maxPtr := ap0 + len / 2
  let (_, _, _, _, out) ← whileM (len + 1) (fun (ap, _, _, _, _) => decide (ap < maxPtr))
    (fun ((ap, cp, xp, op, out) : Nat × Nat × Nat × Nat × Buf) => do
      let alpha ← ld64 e inp ap
      let color ← ld32 e inp cp
      let index ← ld32 e inp xp
      let out ← st64 e out op alpha
      let out ← st32 e out (op + 8) color
      let out ← st32 e out (op + 12) index
      pure (ap + 8, cp + 4, xp + 4, op + 16, out)) (ap0, cp0, xp0, op0, out)
  pure out

/-- `u32_untransform`, standard/untransform/portable32.rs:8-17. -/
def untransformPortable (e : Endian) (inp out : Buf) (len : Nat) : Option Buf :=
  untransformPtrs e inp 0 (len / 2) (len / 2 + len / 4) out 0 len

/-- `transform_with_decorrelate_generic` and `transform_decorr`,
with_recorrelate/transform/generic.rs:18-95.  `YCoCgVariant::None` is `unreachable_unchecked`. -/
def transformRecorrGeneric (e : Endian) (inp : Buf) (ip0 : Nat) (out : Buf)
    (ap0 cp0 xp0 numBlocks : Nat) (v : Variant) : Option Buf := do
  if v = .none then none
  let inputEnd := ip0 + numBlocks * 16
  let (_, _, _, _, out) ← whileM (numBlocks + 1) (fun (ip, _, _, _, _) => decide (ip < inputEnd))
    (fun ((ip, ap, cp, xp, out) : Nat × Nat × Nat × Nat × Buf) => do
      let alpha ← ld64 e inp ip
      let raw ← ld32 e inp (ip + 8)
      let index ← ld32 e inp (ip + 12)
      let out ← st64 e out ap alpha
      let out ← st32 e out cp (onColourPair (Color565.decorr v) raw)
      let out ← st32 e out xp index
      pure (ip + 16, ap + 8, cp + 4, xp + 4, out)) (ip0, ap0, cp0, xp0, out)
  pure out

/-- `untransform_with_recorrelate_generic` and `untransform_recorr`,
with_recorrelate/untransform/generic.rs:18-38 and 71-121. -/
def untransformRecorrGeneric (e : Endian) (inp : Buf) (ap0 cp0 xp0 : Nat) (out : Buf)
    (op0 numBlocks : Nat) (v : Variant) : Option Buf := do
  if v = .none then none
  let alphasEnd := ap0 + numBlocks * 8
  let (_, _, _, _, out) ← whileM (numBlocks + 1) (fun (ap, _, _, _, _) => decide (ap < alphasEnd))
    (fun ((ap, cp, xp, op, out) : Nat × Nat × Nat × Nat × Buf) => do
      let alpha ← ld64 e inp ap
      let raw ← ld32 e inp cp
      let index ← ld32 e inp xp
      let out ← st64 e out op alpha
      let out ← st32 e out (op + 8) (onColourPair (Color565.recorr v) raw)
      let out ← st32 e out (op + 12) index
      pure (ap + 8, cp + 4, xp + 4, op + 16, out)) (ap0, cp0, xp0, op0, out)
  pure out

/-- `transform_with_split_colour` (generic), with_split_colour/transform/generic.rs:12-49. -/
def transformSplitGeneric (e : Endian) (inp : Buf) (ip0 : Nat) (out : Buf)
    (ap0 c0p0 c1p0 xp0 blockCount : Nat) : Option Buf := do
  let inputEnd := ip0 + blockCount * 16
  let (_, _, _, _, _, out) ← whileM (blockCount + 1) (fun (ip, _, _, _, _, _) => decide (ip < inputEnd))
    (fun ((ip, ap, c0p, c1p, xp, out) : Nat × Nat × Nat × Nat × Nat × Buf) => do
      let alpha ← ld64 e inp ip
      let color0 ← ld16 e inp (ip + 8)
      let color1 ← ld16 e inp (ip + 10)
      let indices ← ld32 e inp (ip + 12)
      let out ← st64 e out ap alpha
      let out ← st16 e out c0p color0
      let out ← st16 e out c1p color1
      let out ← st32 e out xp indices
      pure (ip + 16, ap + 8, c0p + 2, c1p + 2, xp + 4, out)) (ip0, ap0, c0p0, c1p0, xp0, out)
  pure out

/-- `untransform_with_split_colour` (generic), with_split_colour/untransform/generic.rs:12-43. -/
def untransformSplitGeneric (e : Endian) (inp : Buf) (ap0 c0p0 c1p0 xp0 : Nat) (out : Buf)
    (op0 blockCount : Nat) : Option Buf := do
  let alphaEnd := ap0 + blockCount * 8
  let (_, _, _, _, _, out) ← whileM (blockCount + 1) (fun (ap, _, _, _, _, _) => decide (ap < alphaEnd))
    (fun ((ap, c0p, c1p, xp, op, out) : Nat × Nat × Nat × Nat × Nat × Buf) => do
      let alpha ← ld64 e inp ap
      let color0 ← ld16 e inp c0p
      let color1 ← ld16 e inp c1p
      let indices ← ld32 e inp xp
      let out ← st64 e out op alpha
      let out ← st16 e out (op + 8) color0
      let out ← st16 e out (op + 10) color1
      let out ← st32 e out (op + 12) indices
      pure (ap + 8, c0p + 2, c1p + 2, xp + 4, op + 16, out)) (ap0, c0p0, c1p0, xp0, op0, out)
  pure out

/-- `transform_with_split_colour_and_recorr`,
with_split_colour_and_recorr/transform/generic.rs:17-73.  The match on the variant is inside the
loop there, so `YCoCgVariant::None` is undefined behaviour only if there is a block; here always. -/
def transformSplitRecorrGeneric (e : Endian) (inp : Buf) (ip0 : Nat) (out : Buf)
    (ap0 c0p0 c1p0 xp0 blockCount : Nat) (v : Variant) : Option Buf := do
  if v = .none then none
  let inputEnd := ip0 + blockCount * 16
  let (_, _, _, _, _, out) ← whileM (blockCount + 1) (fun (ip, _, _, _, _, _) => decide (ip < inputEnd))
    (fun ((ip, ap, c0p, c1p, xp, out) : Nat × Nat × Nat × Nat × Nat × Buf) => do
      let alpha ← ld64 e inp ip
      let color0 ← ld16 e inp (ip + 8)
      let color1 ← ld16 e inp (ip + 10)
      let indices ← ld32 e inp (ip + 12)
      let out ← st64 e out ap alpha
      let out ← st16 e out c0p (Color565.decorr v color0)
      let out ← st16 e out c1p (Color565.decorr v color1)
      let out ← st32 e out xp indices
      pure (ip + 16, ap + 8, c0p + 2, c1p + 2, xp + 4, out)) (ip0, ap0, c0p0, c1p0, xp0, out)
  pure out

/-- `untransform_with_split_colour_and_recorr` (generic) and `untransform_recorr`,
with_split_colour_and_recorr/untransform/generic.rs:17-59 and 129-178. -/
def untransformSplitRecorrGeneric (e : Endian) (inp : Buf) (ap0 c0p0 c1p0 xp0 : Nat) (out : Buf)
    (op0 blockCount : Nat) (v : Variant) : Option Buf := do
  if v = .none then none
  let alphaEnd := ap0 + blockCount * 8
  let (_, _, _, _, _, out) ← whileM (blockCount + 1) (fun (ap, _, _, _, _, _) => decide (ap < alphaEnd))
    (fun ((ap, c0p, c1p, xp, op, out) : Nat × Nat × Nat × Nat × Nat × Buf) => do
      let alpha ← ld64 e inp ap
      let color0 ← ld16 e inp c0p
      let color1 ← ld16 e inp c1p
      let indices ← ld32 e inp xp
      let out ← st64 e out op alpha
      let out ← st16 e out (op + 8) (Color565.recorr v color0)
      let out ← st16 e out (op + 10) (Color565.recorr v color1)
      let out ← st32 e out (op + 12) indices
      pure (ap + 8, c0p + 2, c1p + 2, xp + 4, op + 16, out)) (ap0, c0p0, c1p0, xp0, op0, out)
  pure out

end Dlt.Bc2
