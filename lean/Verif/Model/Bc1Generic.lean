import Verif.Model.Mem
import Verif.Model.Color565
/-!
# BC1: portable kernels

Models the scalar kernels below `/repo/src/core/dxt-lossless-transform-bc1/src/transform/`.
File names in the comments are relative to that directory.  `e` is the byte order of the machine.
A pointer of type `*mut u32` is a byte offset; `.add(1)` adds 4 to it.
-/

namespace Dlt.Bc1

/-- `u32_with_separate_pointers`, standard/transform/portable32.rs:25-47. -/
def transformPtrs (e : Endian) (inp : Buf) (ip0 : Nat) (out : Buf) (cp0 xp0 len : Nat) :
    Option Buf := do
  let maxPtr := ip0 + len
  let (_, _, _, out) ← whileM (len + 1) (fun (ip, _, _, _) => decide (ip < maxPtr))
    (fun ((ip, cp, xp, out) : Nat × Nat × Nat × Buf) => do
      let color ← ld32 e inp ip
      let index ← ld32 e inp (ip + 4)
      let out ← st32 e out cp color
      let out ← st32 e out xp index
      pure (ip + 8, cp + 4, xp + 4, out)) (ip0, cp0, xp0, out)
  pure out

/-- `u32`, standard/transform/portable32.rs:8-16. -/
def transformPortable (e : Endian) (inp out : Buf) (len : Nat) : Option Buf :=
  transformPtrs e inp 0 out 0 (len / 2) len

/-- `u32_untransform_with_separate_pointers`, standard/untransform/portable32.rs:25-51. -/
def untransformPtrs (e : Endian) (cin : Buf) (cp0 : Nat) (xin : Buf) (xp0 : Nat) (out : Buf)
    (op0 len : Nat) : Option Buf := do
  let maxPtr := xp0 + len / 8 * 4
  let (_, _, _, out) ← whileM (len + 1) (fun (_, xp, _, _) => decide (xp < maxPtr))
    (fun ((cp, xp, op, out) : Nat × Nat × Nat × Buf) => do
      let index ← ld32 e xin xp
      let color ← ld32 e cin cp
      let out ← st32 e out op color
      let out ← st32 e out (op + 4) index
      pure (cp + 4, xp + 4, op + 8, out)) (cp0, xp0, op0, out)
  pure out

/-- `u32_untransform`, standard/untransform/portable32.rs:8-16. -/
def untransformPortable (e : Endian) (inp out : Buf) (len : Nat) : Option Buf :=
  untransformPtrs e inp 0 inp (len / 2) out 0 len

/-- The two colours of a `u32`, decorrelated or recorrelated by `f`, packed again:
with_recorrelate/transform/generic.rs:52-74 and with_recorrelate/untransform/generic.rs:73-95. -/
def onColourPair (f : U16 → U16) (raw : U32) : U32 :=
  let c0 : U16 := raw.setWidth 16
  let c1 : U16 := (raw >>> 16).setWidth 16
  (f c0).zeroExtend 32 ||| ((f c1).zeroExtend 32 <<< 16)

/-- `transform_with_decorrelate_generic` and `transform_decorr`,
with_recorrelate/transform/generic.rs:17-83.  `YCoCgVariant::None` is `unreachable_unchecked`. -/
def transformRecorrGeneric (e : Endian) (inp : Buf) (ip0 : Nat) (out : Buf) (cp0 xp0 numBlocks : Nat)
    (v : Variant) : Option Buf := do
  if v = .none then none
  let inputEnd := ip0 + numBlocks * 8
  let (_, _, _, out) ← whileM (numBlocks + 1) (fun (ip, _, _, _) => decide (ip < inputEnd))
    (fun ((ip, cp, xp, out) : Nat × Nat × Nat × Buf) => do
      let raw ← ld32 e inp ip
      let index ← ld32 e inp (ip + 4)
      let out ← st32 e out cp (onColourPair (Color565.decorr v) raw)
      let out ← st32 e out xp index
      pure (ip + 8, cp + 4, xp + 4, out)) (ip0, cp0, xp0, out)
  pure out

/-- `untransform_with_recorrelate_generic` and `untransform_recorr`,
with_recorrelate/untransform/generic.rs:8-103. -/
def untransformRecorrGeneric (e : Endian) (inp : Buf) (cp0 xp0 : Nat) (out : Buf)
    (op0 numBlocks : Nat) (v : Variant) : Option Buf := do
  if v = .none then none
  let colorsEnd := cp0 + numBlocks * 4
  let (_, _, _, out) ← whileM (numBlocks + 1) (fun (cp, _, _, _) => decide (cp < colorsEnd))
    (fun ((cp, xp, op, out) : Nat × Nat × Nat × Buf) => do
      let raw ← ld32 e inp cp
      let index ← ld32 e inp xp
      let out ← st32 e out op (onColourPair (Color565.recorr v) raw)
      let out ← st32 e out (op + 4) index
      pure (cp + 4, xp + 4, op + 8, out)) (cp0, xp0, op0, out)
  pure out

/-- `transform_with_split_colour` (generic), with_split_colour/transform/generic.rs:11-43. -/
def transformSplitGeneric (e : Endian) (inp : Buf) (ip0 : Nat) (out : Buf)
    (c0p0 c1p0 xp0 blockCount : Nat) : Option Buf := do
  let inputEnd := ip0 + blockCount * 8
  let (_, _, _, _, out) ← whileM (blockCount + 1) (fun (ip, _, _, _, _) => decide (ip < inputEnd))
    (fun ((ip, c0p, c1p, xp, out) : Nat × Nat × Nat × Nat × Buf) => do
      let color0 ← ld16 e inp ip
      let color1 ← ld16 e inp (ip + 2)
      let indices ← ld32 e inp (ip + 4)
      let out ← st16 e out c0p color0
      let out ← st16 e out c1p color1
      let out ← st32 e out xp indices
      pure (ip + 8, c0p + 2, c1p + 2, xp + 4, out)) (ip0, c0p0, c1p0, xp0, out)
  pure out

/-- `untransform_with_split_colour` (generic), with_split_colour/untransform/generic.rs:2-30. -/
def untransformSplitGeneric (e : Endian) (inp : Buf) (c0p0 c1p0 xp0 : Nat) (out : Buf)
    (op0 blockCount : Nat) : Option Buf := do
  let color0End := c0p0 + blockCount * 2
  let (_, _, _, _, out) ← whileM (blockCount + 1) (fun (c0p, _, _, _, _) => decide (c0p < color0End))
    (fun ((c0p, c1p, xp, op, out) : Nat × Nat × Nat × Nat × Buf) => do
      let color0 ← ld16 e inp c0p
      let color1 ← ld16 e inp c1p
      let indices ← ld32 e inp xp
      let out ← st16 e out op color0
      let out ← st16 e out (op + 2) color1
      let out ← st32 e out (op + 4) indices
      pure (c0p + 2, c1p + 2, xp + 4, op + 8, out)) (c0p0, c1p0, xp0, op0, out)
  pure out

/-- `transform_with_split_colour_and_decorr_generic` and `transform_split_decorr`,
with_split_colour_and_recorr/transform/generic.rs:17-84. -/
def transformSplitRecorrGeneric (e : Endian) (inp : Buf) (ip0 : Nat) (out : Buf)
    (c0p0 c1p0 xp0 blockCount : Nat) (v : Variant) : Option Buf := do
  if v = .none then none
  let inputEnd := ip0 + blockCount * 8
  let (_, _, _, _, out) ← whileM (blockCount + 1) (fun (ip, _, _, _, _) => decide (ip < inputEnd))
    (fun ((ip, c0p, c1p, xp, out) : Nat × Nat × Nat × Nat × Buf) => do
      let color0 ← ld16 e inp ip
      let color1 ← ld16 e inp (ip + 2)
      let indices ← ld32 e inp (ip + 4)
      let out ← st16 e out c0p (Color565.decorr v color0)
      let out ← st16 e out c1p (Color565.decorr v color1)
      let out ← st32 e out xp indices
      pure (ip + 8, c0p + 2, c1p + 2, xp + 4, out)) (ip0, c0p0, c1p0, xp0, out)
  pure out

/-- `untransform_recorr`, with_split_colour_and_recorr/untransform/generic.rs:98-141, and the
match of lines 53-64.  The work-buffer path of lines 25-51 (non-x86, 128 blocks or more) is
modelled in `Verif.Model.Bc1`. -/
def untransformSplitRecorrLoop (e : Endian) (inp : Buf) (c0p0 c1p0 xp0 : Nat) (out : Buf)
    (op0 blockCount : Nat) (v : Variant) : Option Buf := do
  if v = .none then none
  let color0End := c0p0 + blockCount * 2
  let (_, _, _, _, out) ← whileM (blockCount + 1) (fun (c0p, _, _, _, _) => decide (c0p < color0End))
    (fun ((c0p, c1p, xp, op, out) : Nat × Nat × Nat × Nat × Buf) => do
      let color0 ← ld16 e inp c0p
      let color1 ← ld16 e inp c1p
      let indices ← ld32 e inp xp
      let out ← st16 e out op (Color565.recorr v color0)
      let out ← st16 e out (op + 2) (Color565.recorr v color1)
      let out ← st32 e out (op + 4) indices
      pure (c0p + 2, c1p + 2, xp + 4, op + 8, out)) (c0p0, c1p0, xp0, op0, out)
  pure out

end Dlt.Bc1
