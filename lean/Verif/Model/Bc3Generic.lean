import Verif.Model.Mem
import Verif.Model.Color565
import Verif.Model.Bc1Generic
/-!
# BC3: portable kernels

Models the scalar kernels below `/repo/src/core/dxt-lossless-transform-bc3/src/transform/`.
File names in the comments are relative to that directory.  `e` is the byte order of the machine.
A pointer of type `*mut u16` or `*mut u32` is a byte offset; `.add(1)` adds 2 or 4 to it.
`Bc1.onColourPair` is the unpacking and packing of a colour pair of `with_recorrelate`, the same code
as in the BC1 crate.

Simplifications: the loads of a block come before its stores, where some kernels interleave them
(input and output are different allocations); `unreachable_unchecked` for `YCoCgVariant::None`, inside
the loop in most kernels, is `none` even if there is no block.
-/

namespace Dlt.Bc3
open Bc1 (onColourPair)

/-- `get_first_u16_from_u32`, ../utils.rs:7-12 and 21-26. -/
def getFirst : Endian → U32 → U16
  | .little, w => w.setWidth 16
  | .big, w => (w >>> 16).setWidth 16

/-- `get_second_u16_from_u32`, ../utils.rs:14-19 and 28-33. -/
def getSecond : Endian → U32 → U16
  | .little, w => (w >>> 16).setWidth 16
  | .big, w => w.setWidth 16

/-- `combine_u16_pair_to_u32`, ../utils.rs:35-47. -/
def combine : Endian → U16 → U16 → U32
  | .little, a, b => a.zeroExtend 32 ||| (b.zeroExtend 32 <<< 16)
  | .big, a, b => (a.zeroExtend 32 <<< 16) ||| b.zeroExtend 32

/-- `u32_with_separate_endpoints`, standard/transform/portable32.rs:38-65; `alphaEnd` is
`alpha_byte_end_ptr`. -/
def transformPtrs (e : Endian) (inp : Buf) (ip0 : Nat) (out : Buf)
    (ap0 bp0 cp0 xp0 alphaEnd : Nat) : Option Buf := do
  let (_, _, _, _, _, out) ← whileM (alphaEnd + 1)
    (fun (_, ap, _, _, _, _) => decide (ap < alphaEnd))
    (fun ((ip, ap, bp, cp, xp, out) : Nat × Nat × Nat × Nat × Nat × Buf) => do
      let alphas ← ld16 e inp ip
      let bits1 ← ld16 e inp (ip + 2)
      let bits2 ← ld32 e inp (ip + 4)
      let colors ← ld32 e inp (ip + 8)
      let index ← ld32 e inp (ip + 12)
      let out ← st16 e out ap alphas
      let out ← st16 e out bp bits1
      let out ← st32 e out (bp + 2) bits2
      let out ← st32 e out cp colors
      let out ← st32 e out xp index
      pure (ip + 16, ap + 2, bp + 6, cp + 4, xp + 4,
        out)) (ip0, ap0, bp0, cp0, xp0, out)
  pure out

/-- `u32`, standard/transform/portable32.rs:10-26. -/
def transformPortable (e : Endian) (inp out : Buf) (len : Nat) : Option Buf :=
  transformPtrs e inp 0 out 0 (len / 16 * 2) (len / 16 * 8) (len / 16 * 12) (len / 16 * 2)

/-- `u32_untransform_with_separate_pointers`, standard/untransform/portable32.rs:9-37. -/
def untransformPtrs (e : Endian) (inp : Buf) (ap0 bp0 cp0 xp0 : Nat) (out : Buf)
    (op0 len : Nat) : Option Buf := do
  let alphaEnd := ap0 + len / 16 * 2
  let (_, _, _, _, _, out) ← whileM (len + 1)
    (fun (ap, _, _, _, _, _) => decide (ap < alphaEnd))
    (fun ((ap, bp, cp, xp, op, out) : Nat × Nat × Nat × Nat × Nat × Buf) => do
      let alphas ← ld16 e inp ap
      let bits1 ← ld16 e inp bp
      let bits2 ← ld32 e inp (bp + 2)
      let colors ← ld32 e inp cp
      let index ← ld32 e inp xp
      let out ← st16 e out op alphas
      let out ← st16 e out (op + 2) bits1
      let out ← st32 e out (op + 4) bits2
      let out ← st32 e out (op + 8) colors
      let out ← st32 e out (op + 12) index
      pure (ap + 2, bp + 6, cp + 4, xp + 4, op + 16,
        out)) (ap0, bp0, cp0, xp0, op0, out)
  pure out

/-- `u32_untransform_v2`, standard/untransform/portable32.rs:45-105.  The test `aligned_len > 0` is
left out: without it the loop does nothing. -/
def untransformV2 (e : Endian) (inp out : Buf) (len : Nat) : Option Buf := do
  let alignedLen := len - len % 32
  let alphaAlignedEnd := alignedLen / 16 * 2
  let (ap, bp, cp, xp, op, out) ← whileM (len + 1)
    (fun (ap, _, _, _, _, _) => decide (ap < alphaAlignedEnd))
    (fun ((ap, bp, cp, xp, op, out) : Nat × Nat × Nat × Nat × Nat × Buf) => do
      let alphaBytes ← ld32 e inp ap
      let b0 ← ld16 e inp bp
      let b1 ← ld32 e inp (bp + 2)
      let b2 ← ld16 e inp (bp + 6)
      let b3 ← ld32 e inp (bp + 8)
      let c0 ← ld32 e inp cp
      let c1 ← ld32 e inp (cp + 4)
      let x0 ← ld32 e inp xp
      let x1 ← ld32 e inp (xp + 4)
      let out ← st16 e out op (getFirst e alphaBytes)
      let out ← st16 e out (op + 16) (getSecond e alphaBytes)
      let out ← st16 e out (op + 2) b0
      let out ← st32 e out (op + 4) b1
      let out ← st16 e out (op + 18) b2
      let out ← st32 e out (op + 20) b3
      let out ← st32 e out (op + 8) c0
      let out ← st32 e out (op + 24) c1
      let out ← st32 e out (op + 12) x0
      let out ← st32 e out (op + 28) x1
      pure (ap + 4, bp + 12, cp + 8, xp + 8, op + 32, out))
    (0, len / 16 * 2, len / 16 * 8, len / 16 * 12, 0, out)
  untransformPtrs e inp ap bp cp xp out op (len - alignedLen)

/-- `transform_with_decorrelate_generic` and `transform_decorr`,
with_recorrelate/transform/generic.rs:19-178. -/
def transformRecorrGeneric (e : Endian) (inp : Buf) (ip0 : Nat) (out : Buf)
    (ap0 bp0 cp0 xp0 numBlocks : Nat) (v : Variant) : Option Buf := do
  if v = .none then none
  let inputEnd := ip0 + numBlocks * 16
  let (_, _, _, _, _, out) ← whileM (numBlocks + 1)
    (fun (ip, _, _, _, _, _) => decide (ip < inputEnd))
    (fun ((ip, ap, bp, cp, xp, out) : Nat × Nat × Nat × Nat × Nat × Buf) => do
      let alphas ← ld16 e inp ip
      let bits1 ← ld16 e inp (ip + 2)
      let bits2 ← ld32 e inp (ip + 4)
      let colors ← ld32 e inp (ip + 8)
      let index ← ld32 e inp (ip + 12)
      let out ← st16 e out ap alphas
      let out ← st16 e out bp bits1
      let out ← st32 e out (bp + 2) bits2
      let out ← st32 e out cp (onColourPair (Color565.decorr v) colors)
      let out ← st32 e out xp index
      pure (ip + 16, ap + 2, bp + 6, cp + 4, xp + 4,
        out)) (ip0, ap0, bp0, cp0, xp0, out)
  pure out

/-- `untransform_with_recorrelate_generic` and `untransform_recorr`,
with_recorrelate/untransform/generic.rs:19-174. -/
def untransformRecorrGeneric (e : Endian) (inp : Buf) (ap0 bp0 cp0 xp0 : Nat) (out : Buf)
    (op0 numBlocks : Nat) (v : Variant) : Option Buf := do
  if v = .none then none
  let alphaEnd := ap0 + numBlocks * 2
  let (_, _, _, _, _, out) ← whileM (numBlocks + 1)
    (fun (ap, _, _, _, _, _) => decide (ap < alphaEnd))
    (fun ((ap, bp, cp, xp, op, out) : Nat × Nat × Nat × Nat × Nat × Buf) => do
      let alphas ← ld16 e inp ap
      let bits1 ← ld16 e inp bp
      let bits2 ← ld32 e inp (bp + 2)
      let colors ← ld32 e inp cp
      let index ← ld32 e inp xp
      let out ← st16 e out op alphas
      let out ← st16 e out (op + 2) bits1
      let out ← st32 e out (op + 4) bits2
      let out ← st32 e out (op + 8) (onColourPair (Color565.recorr v) colors)
      let out ← st32 e out (op + 12) index
      pure (ap + 2, bp + 6, cp + 4, xp + 4, op + 16,
        out)) (ap0, bp0, cp0, xp0, op0, out)
  pure out

/-- `transform_with_split_alphas` (generic), with_split_alphas/transform/generic.rs:15-60. -/
def transformAlphaGeneric (e : Endian) (inp : Buf) (ip0 : Nat) (out : Buf)
    (a0p0 a1p0 bp0 cp0 xp0 blockCount : Nat) : Option Buf := do
  let inputEnd := ip0 + blockCount * 16
  let (_, _, _, _, _, _, out) ← whileM (blockCount + 1)
    (fun (ip, _, _, _, _, _, _) => decide (ip < inputEnd))
    (fun ((ip, a0p, a1p, bp, cp, xp, out) : Nat × Nat × Nat × Nat × Nat × Nat × Buf) => do
      let alpha0 ← ld8 inp ip
      let alpha1 ← ld8 inp (ip + 1)
      let bits1 ← ld16 e inp (ip + 2)
      let bits2 ← ld32 e inp (ip + 4)
      let colors ← ld32 e inp (ip + 8)
      let index ← ld32 e inp (ip + 12)
      let out ← st8 out a0p alpha0
      let out ← st8 out a1p alpha1
      let out ← st16 e out bp bits1
      let out ← st32 e out (bp + 2) bits2
      let out ← st32 e out cp colors
      let out ← st32 e out xp index
      pure (ip + 16, a0p + 1, a1p + 1, bp + 6, cp + 4, xp + 4,
        out)) (ip0, a0p0, a1p0, bp0, cp0, xp0, out)
  pure out

/-- `untransform_with_split_alphas` (generic), with_split_alphas/untransform/generic.rs:15-58. -/
def untransformAlphaGeneric (e : Endian) (inp : Buf) (a0p0 a1p0 bp0 cp0 xp0 : Nat) (out : Buf)
    (op0 blockCount : Nat) : Option Buf := do
  let alphaEnd := a0p0 + blockCount
  let (_, _, _, _, _, _, out) ← whileM (blockCount + 1)
    (fun (a0p, _, _, _, _, _, _) => decide (a0p < alphaEnd))
    (fun ((a0p, a1p, bp, cp, xp, op, out) : Nat × Nat × Nat × Nat × Nat × Nat × Buf) => do
      let alpha0 ← ld8 inp a0p
      let alpha1 ← ld8 inp a1p
      let bits1 ← ld16 e inp bp
      let bits2 ← ld32 e inp (bp + 2)
      let colors ← ld32 e inp cp
      let index ← ld32 e inp xp
      let out ← st8 out op alpha0
      let out ← st8 out (op + 1) alpha1
      let out ← st16 e out (op + 2) bits1
      let out ← st32 e out (op + 4) bits2
      let out ← st32 e out (op + 8) colors
      let out ← st32 e out (op + 12) index
      pure (a0p + 1, a1p + 1, bp + 6, cp + 4, xp + 4, op + 16,
        out)) (a0p0, a1p0, bp0, cp0, xp0, op0, out)
  pure out

/-- `transform_with_split_alphas_and_recorr`,
with_split_alphas_and_recorr/transform/generic.rs:21-88. -/
def transformAlphaRecorrGeneric (e : Endian) (inp : Buf) (ip0 : Nat) (out : Buf)
    (a0p0 a1p0 bp0 cp0 xp0 blockCount : Nat) (v : Variant) : Option Buf := do
  if v = .none then none
  let inputEnd := ip0 + blockCount * 16
  let (_, _, _, _, _, _, out) ← whileM (blockCount + 1)
    (fun (ip, _, _, _, _, _, _) => decide (ip < inputEnd))
    (fun ((ip, a0p, a1p, bp, cp, xp, out) : Nat × Nat × Nat × Nat × Nat × Nat × Buf) => do
      let alpha0 ← ld8 inp ip
      let alpha1 ← ld8 inp (ip + 1)
      let bits1 ← ld16 e inp (ip + 2)
      let bits2 ← ld32 e inp (ip + 4)
      let colors ← ld32 e inp (ip + 8)
      let index ← ld32 e inp (ip + 12)
      let out ← st8 out a0p alpha0
      let out ← st8 out a1p alpha1
      let out ← st16 e out bp bits1
      let out ← st32 e out (bp + 2) bits2
      let out ← st32 e out cp (combine e (Color565.decorr v (getFirst e colors)) (Color565.decorr v (getSecond e colors)))
      let out ← st32 e out xp index
      pure (ip + 16, a0p + 1, a1p + 1, bp + 6, cp + 4, xp + 4,
        out)) (ip0, a0p0, a1p0, bp0, cp0, xp0, out)
  pure out

/-- `untransform_with_split_alphas_and_recorr`,
with_split_alphas_and_recorr/untransform/generic.rs:22-88. -/
def untransformAlphaRecorrGeneric (e : Endian) (inp : Buf) (a0p0 a1p0 bp0 cp0 xp0 : Nat) (out : Buf)
    (op0 blockCount : Nat) (v : Variant) : Option Buf := do
  if v = .none then none
  let alphaEnd := a0p0 + blockCount
  let (_, _, _, _, _, _, out) ← whileM (blockCount + 1)
    (fun (a0p, _, _, _, _, _, _) => decide (a0p < alphaEnd))
    (fun ((a0p, a1p, bp, cp, xp, op, out) : Nat × Nat × Nat × Nat × Nat × Nat × Buf) => do
      let alpha0 ← ld8 inp a0p
      let alpha1 ← ld8 inp a1p
      let bits1 ← ld16 e inp bp
      let bits2 ← ld32 e inp (bp + 2)
      let colors ← ld32 e inp cp
      let index ← ld32 e inp xp
      let out ← st8 out op alpha0
      let out ← st8 out (op + 1) alpha1
      let out ← st16 e out (op + 2) bits1
      let out ← st32 e out (op + 4) bits2
      let out ← st32 e out (op + 8) (combine e (Color565.recorr v (getFirst e colors)) (Color565.recorr v (getSecond e colors)))
      let out ← st32 e out (op + 12) index
      pure (a0p + 1, a1p + 1, bp + 6, cp + 4, xp + 4, op + 16,
        out)) (a0p0, a1p0, bp0, cp0, xp0, op0, out)
  pure out

/-- `transform_with_split_colour`, with_split_colour/transform/generic.rs:15-61. -/
def transformColourGeneric (e : Endian) (inp : Buf) (ip0 : Nat) (out : Buf)
    (ap0 bp0 c0p0 c1p0 xp0 blockCount : Nat) : Option Buf := do
  let inputEnd := ip0 + blockCount * 16
  let (_, _, _, _, _, _, out) ← whileM (blockCount + 1)
    (fun (ip, _, _, _, _, _, _) => decide (ip < inputEnd))
    (fun ((ip, ap, bp, c0p, c1p, xp, out) : Nat × Nat × Nat × Nat × Nat × Nat × Buf) => do
      let alphas ← ld16 e inp ip
      let bits1 ← ld16 e inp (ip + 2)
      let bits2 ← ld32 e inp (ip + 4)
      let color0 ← ld16 e inp (ip + 8)
      let color1 ← ld16 e inp (ip + 10)
      let index ← ld32 e inp (ip + 12)
      let out ← st16 e out ap alphas
      let out ← st16 e out bp bits1
      let out ← st32 e out (bp + 2) bits2
      let out ← st16 e out c0p color0
      let out ← st16 e out c1p color1
      let out ← st32 e out xp index
      pure (ip + 16, ap + 2, bp + 6, c0p + 2, c1p + 2, xp + 4,
        out)) (ip0, ap0, bp0, c0p0, c1p0, xp0, out)
  pure out

/-- `untransform_with_split_colour`, with_split_colour/untransform/generic.rs:15-63. -/
def untransformColourGeneric (e : Endian) (inp : Buf) (ap0 bp0 c0p0 c1p0 xp0 : Nat) (out : Buf)
    (op0 blockCount : Nat) : Option Buf := do
  let alphaEnd := ap0 + blockCount * 2
  let (_, _, _, _, _, _, out) ← whileM (blockCount + 1)
    (fun (ap, _, _, _, _, _, _) => decide (ap < alphaEnd))
    (fun ((ap, bp, c0p, c1p, xp, op, out) : Nat × Nat × Nat × Nat × Nat × Nat × Buf) => do
      let alphas ← ld16 e inp ap
      let bits1 ← ld16 e inp bp
      let bits2 ← ld32 e inp (bp + 2)
      let color0 ← ld16 e inp c0p
      let color1 ← ld16 e inp c1p
      let index ← ld32 e inp xp
      let out ← st16 e out op alphas
      let out ← st16 e out (op + 2) bits1
      let out ← st32 e out (op + 4) bits2
      let out ← st16 e out (op + 8) color0
      let out ← st16 e out (op + 10) color1
      let out ← st32 e out (op + 12) index
      pure (ap + 2, bp + 6, c0p + 2, c1p + 2, xp + 4, op + 16,
        out)) (ap0, bp0, c0p0, c1p0, xp0, op0, out)
  pure out

/-- `transform_with_split_colour_and_recorr`,
with_split_colour_and_recorr/transform/generic.rs:22-84. -/
def transformColourRecorrGeneric (e : Endian) (inp : Buf) (ip0 : Nat) (out : Buf)
    (ap0 bp0 c0p0 c1p0 xp0 blockCount : Nat) (v : Variant) : Option Buf := do
  if v = .none then none
  let inputEnd := ip0 + blockCount * 16
  let (_, _, _, _, _, _, out) ← whileM (blockCount + 1)
    (fun (ip, _, _, _, _, _, _) => decide (ip < inputEnd))
    (fun ((ip, ap, bp, c0p, c1p, xp, out) : Nat × Nat × Nat × Nat × Nat × Nat × Buf) => do
      let alphas ← ld16 e inp ip
      let bits1 ← ld16 e inp (ip + 2)
      let bits2 ← ld32 e inp (ip + 4)
      let colors ← ld32 e inp (ip + 8)
      let index ← ld32 e inp (ip + 12)
      let out ← st16 e out ap alphas
      let out ← st16 e out bp bits1
      let out ← st32 e out (bp + 2) bits2
      let out ← st16 e out c0p (Color565.decorr v (getFirst e colors))
      let out ← st16 e out c1p (Color565.decorr v (getSecond e colors))
      let out ← st32 e out xp index
      pure (ip + 16, ap + 2, bp + 6, c0p + 2, c1p + 2, xp + 4,
        out)) (ip0, ap0, bp0, c0p0, c1p0, xp0, out)
  pure out

/-- `untransform_with_split_colour_and_recorr`,
with_split_colour_and_recorr/untransform/generic.rs:22-91. -/
def untransformColourRecorrGeneric (e : Endian) (inp : Buf) (ap0 bp0 c0p0 c1p0 xp0 : Nat) (out : Buf)
    (op0 blockCount : Nat) (v : Variant) : Option Buf := do
  if v = .none then none
  let alphaEnd := ap0 + blockCount * 2
  let (_, _, _, _, _, _, out) ← whileM (blockCount + 1)
    (fun (ap, _, _, _, _, _, _) => decide (ap < alphaEnd))
    (fun ((ap, bp, c0p, c1p, xp, op, out) : Nat × Nat × Nat × Nat × Nat × Nat × Buf) => do
      let alphas ← ld16 e inp ap
      let bits1 ← ld16 e inp bp
      let bits2 ← ld32 e inp (bp + 2)
      let color0 ← ld16 e inp c0p
      let color1 ← ld16 e inp c1p
      let index ← ld32 e inp xp
      let out ← st16 e out op alphas
      let out ← st16 e out (op + 2) bits1
      let out ← st32 e out (op + 4) bits2
      let out ← st32 e out (op + 8) (combine e (Color565.recorr v color0) (Color565.recorr v color1))
      let out ← st32 e out (op + 12) index
      pure (ap + 2, bp + 6, c0p + 2, c1p + 2, xp + 4, op + 16,
        out)) (ap0, bp0, c0p0, c1p0, xp0, op0, out)
  pure out

/-- `transform_with_split_alphas_and_colour`,
with_split_alphas_and_colour/transform/generic.rs:19-66. -/
def transformBothGeneric (e : Endian) (inp : Buf) (ip0 : Nat) (out : Buf)
    (a0p0 a1p0 bp0 c0p0 c1p0 xp0 blockCount : Nat) : Option Buf := do
  let inputEnd := ip0 + blockCount * 16
  let (_, _, _, _, _, _, _, out) ← whileM (blockCount + 1)
    (fun (ip, _, _, _, _, _, _, _) => decide (ip < inputEnd))
    (fun ((ip, a0p, a1p, bp, c0p, c1p, xp, out) : Nat × Nat × Nat × Nat × Nat × Nat × Nat × Buf) => do
      let alpha0 ← ld8 inp ip
      let alpha1 ← ld8 inp (ip + 1)
      let bits1 ← ld16 e inp (ip + 2)
      let bits2 ← ld32 e inp (ip + 4)
      let colors ← ld32 e inp (ip + 8)
      let index ← ld32 e inp (ip + 12)
      let out ← st8 out a0p alpha0
      let out ← st8 out a1p alpha1
      let out ← st16 e out bp bits1
      let out ← st32 e out (bp + 2) bits2
      let out ← st16 e out c0p (getFirst e colors)
      let out ← st16 e out c1p (getSecond e colors)
      let out ← st32 e out xp index
      pure (ip + 16, a0p + 1, a1p + 1, bp + 6, c0p + 2, c1p + 2, xp + 4,
        out)) (ip0, a0p0, a1p0, bp0, c0p0, c1p0, xp0, out)
  pure out

/-- `untransform_with_split_alphas_and_colour`,
with_split_alphas_and_colour/untransform/generic.rs:19-65. -/
def untransformBothGeneric (e : Endian) (inp : Buf) (a0p0 a1p0 bp0 c0p0 c1p0 xp0 : Nat) (out : Buf)
    (op0 blockCount : Nat) : Option Buf := do
  let alphaEnd := a0p0 + blockCount
  let (_, _, _, _, _, _, _, out) ← whileM (blockCount + 1)
    (fun (a0p, _, _, _, _, _, _, _) => decide (a0p < alphaEnd))
    (fun ((a0p, a1p, bp, c0p, c1p, xp, op, out) : Nat × Nat × Nat × Nat × Nat × Nat × Nat × Buf) => do
      let alpha0 ← ld8 inp a0p
      let alpha1 ← ld8 inp a1p
      let bits1 ← ld16 e inp bp
      let bits2 ← ld32 e inp (bp + 2)
      let color0 ← ld16 e inp c0p
      let color1 ← ld16 e inp c1p
      let index ← ld32 e inp xp
      let out ← st8 out op alpha0
      let out ← st8 out (op + 1) alpha1
      let out ← st16 e out (op + 2) bits1
      let out ← st32 e out (op + 4) bits2
      let out ← st32 e out (op + 8) (combine e color0 color1)
      let out ← st32 e out (op + 12) index
      pure (a0p + 1, a1p + 1, bp + 6, c0p + 2, c1p + 2, xp + 4, op + 16,
        out)) (a0p0, a1p0, bp0, c0p0, c1p0, xp0, op0, out)
  pure out

/-- `transform_with_split_alphas_colour_and_recorr`,
with_split_alphas_colour_and_recorr/transform/generic.rs:23-89. -/
def transformBothRecorrGeneric (e : Endian) (inp : Buf) (ip0 : Nat) (out : Buf)
    (a0p0 a1p0 bp0 c0p0 c1p0 xp0 blockCount : Nat) (v : Variant) : Option Buf := do
  if v = .none then none
  let inputEnd := ip0 + blockCount * 16
  let (_, _, _, _, _, _, _, out) ← whileM (blockCount + 1)
    (fun (ip, _, _, _, _, _, _, _) => decide (ip < inputEnd))
    (fun ((ip, a0p, a1p, bp, c0p, c1p, xp, out) : Nat × Nat × Nat × Nat × Nat × Nat × Nat × Buf) => do
      let alpha0 ← ld8 inp ip
      let alpha1 ← ld8 inp (ip + 1)
      let bits1 ← ld16 e inp (ip + 2)
      let bits2 ← ld32 e inp (ip + 4)
      let colors ← ld32 e inp (ip + 8)
      let index ← ld32 e inp (ip + 12)
      let out ← st8 out a0p alpha0
      let out ← st8 out a1p alpha1
      let out ← st16 e out bp bits1
      let out ← st32 e out (bp + 2) bits2
      let out ← st16 e out c0p (Color565.decorr v (getFirst e colors))
      let out ← st16 e out c1p (Color565.decorr v (getSecond e colors))
      let out ← st32 e out xp index
      pure (ip + 16, a0p + 1, a1p + 1, bp + 6, c0p + 2, c1p + 2, xp + 4,
        out)) (ip0, a0p0, a1p0, bp0, c0p0, c1p0, xp0, out)
  pure out

/-- `untransform_with_split_alphas_colour_and_recorr`,
with_split_alphas_colour_and_recorr/untransform/generic.rs:23-88. -/
def untransformBothRecorrGeneric (e : Endian) (inp : Buf) (a0p0 a1p0 bp0 c0p0 c1p0 xp0 : Nat) (out : Buf)
    (op0 blockCount : Nat) (v : Variant) : Option Buf := do
  if v = .none then none
  let alphaEnd := a0p0 + blockCount
  let (_, _, _, _, _, _, _, out) ← whileM (blockCount + 1)
    (fun (a0p, _, _, _, _, _, _, _) => decide (a0p < alphaEnd))
    (fun ((a0p, a1p, bp, c0p, c1p, xp, op, out) : Nat × Nat × Nat × Nat × Nat × Nat × Nat × Buf) => do
      let alpha0 ← ld8 inp a0p
      let alpha1 ← ld8 inp a1p
      let bits1 ← ld16 e inp bp
      let bits2 ← ld32 e inp (bp + 2)
      let color0 ← ld16 e inp c0p
      let color1 ← ld16 e inp c1p
      let index ← ld32 e inp xp
      let out ← st8 out op alpha0
      let out ← st8 out (op + 1) alpha1
      let out ← st16 e out (op + 2) bits1
      let out ← st32 e out (op + 4) bits2
      let out ← st32 e out (op + 8) (combine e (Color565.recorr v color0) (Color565.recorr v color1))
      let out ← st32 e out (op + 12) index
      pure (a0p + 1, a1p + 1, bp + 6, c0p + 2, c1p + 2, xp + 4, op + 16,
        out)) (a0p0, a1p0, bp0, c0p0, c1p0, xp0, op0, out)
  pure out

end Dlt.Bc3
