import Verif.Model.Bc3Generic
import Verif.Model.Intrinsics
/-!
# BC3: vector kernels

Models the x86 kernels below `/repo/src/core/dxt-lossless-transform-bc3/src/transform/`.  File names
are relative to that directory.

Simplifications: the call of the scalar kernel for the remaining blocks is made for zero blocks as
well, where the code may test first (the scalar kernel does nothing then), and a test `aligned_len > 0`
around a `while` loop is left out; the loads of an iteration come before its stores (input and output
are different allocations); the const-generic `VARIANT` and the wrappers that select it are one
`Variant` argument, and `YCoCgVariant::None`, `unreachable_unchecked` in every one of them, is `none`.
Permutation tables are listed from the lowest byte, the reverse of `_mm512_set_epi8`.
-/

namespace Dlt.Bc3
open Simd

/-! ## Helpers of the AVX2 transforms -/

/-- `write_alpha_endpoints_u64`, standard/transform/avx2.rs:180-199,
with_recorrelate/transform/avx2.rs:148-167. -/
def writeAlphaEndpointsU64 (inp : Buf) (ip : Nat) (out : Buf) (op o0 o1 o2 o3 : Nat) : Option Buf := do
  let a0 ← ld16 .little inp (ip + o0)
  let a1 ← ld16 .little inp (ip + o1)
  let a2 ← ld16 .little inp (ip + o2)
  let a3 ← ld16 .little inp (ip + o3)
  st64 .little out op (a0.zeroExtend 64 ||| (a1.zeroExtend 64 <<< 16) ||| (a2.zeroExtend 64 <<< 32)
    ||| (a3.zeroExtend 64 <<< 48))

/-- `write_alpha_bytes_u64`, with_split_alphas/transform/avx2.rs:163-197. -/
def writeAlphaBytesU64 (inp : Buf) (ip : Nat) (out : Buf) (op o0 o1 o2 o3 o4 o5 o6 o7 : Nat) :
    Option Buf := do
  let b0 ← ld8 inp (ip + o0)
  let b1 ← ld8 inp (ip + o1)
  let b2 ← ld8 inp (ip + o2)
  let b3 ← ld8 inp (ip + o3)
  let b4 ← ld8 inp (ip + o4)
  let b5 ← ld8 inp (ip + o5)
  let b6 ← ld8 inp (ip + o6)
  let b7 ← ld8 inp (ip + o7)
  st64 .little out op (b0.zeroExtend 64 ||| (b1.zeroExtend 64 <<< 8) ||| (b2.zeroExtend 64 <<< 16)
    ||| (b3.zeroExtend 64 <<< 24) ||| (b4.zeroExtend 64 <<< 32) ||| (b5.zeroExtend 64 <<< 40)
    ||| (b6.zeroExtend 64 <<< 48) ||| (b7.zeroExtend 64 <<< 56))

/-- `write_alpha_bit_u16`, standard/transform/avx2.rs:202-210 and the same function in the other two
AVX2 transforms. -/
def writeAlphaBitU16 (inp : Buf) (ip : Nat) (out : Buf) (op outOff inOff : Nat) : Option Buf := do
  let w ← ld16 .little inp (ip + inOff)
  st16 .little out (op + outOff) w

/-- `write_alpha_bit_u32`, standard/transform/avx2.rs:213-221 and the same function in the other two
AVX2 transforms. -/
def writeAlphaBitU32 (inp : Buf) (ip : Nat) (out : Buf) (op outOff inOff : Nat) : Option Buf := do
  let w ← ld32 .little inp (ip + inOff)
  st32 .little out (op + outOff) w

/-- `write_alpha_bits_u64`, standard/transform/avx2.rs:224-237 and the same function in the other two
AVX2 transforms: stores six bytes and two zero bytes. -/
def writeAlphaBitsU64 (inp : Buf) (ip : Nat) (out : Buf) (op outOff inOff : Nat) : Option Buf := do
  let first ← ld16 .little inp (ip + inOff)
  let second ← ld32 .little inp (ip + inOff + 2)
  st64 .little out (op + outOff) ((second.zeroExtend 64 <<< 16) ||| first.zeroExtend 64)

/-- The alpha index part of the AVX2 loop bodies, standard/transform/avx2.rs:121-152,
with_split_alphas/transform/avx2.rs:103-134, with_recorrelate/transform/avx2.rs:82-113. -/
def writeAlphaBits (x64 : Bool) (inp : Buf) (ip : Nat) (out : Buf) (op : Nat) : Option Buf :=
  if x64 then do
    let out ← writeAlphaBitsU64 inp ip out op 0 2
    let out ← writeAlphaBitsU64 inp ip out op 6 18
    let out ← writeAlphaBitsU64 inp ip out op 12 34
    let out ← writeAlphaBitsU64 inp ip out op 18 50
    let out ← writeAlphaBitsU64 inp ip out op 24 66
    let out ← writeAlphaBitsU64 inp ip out op 30 82
    let out ← writeAlphaBitsU64 inp ip out op 36 98
    let out ← writeAlphaBitU16 inp ip out op 42 114
    writeAlphaBitU32 inp ip out op 44 116
  else do
    let out ← writeAlphaBitU16 inp ip out op 0 2
    let out ← writeAlphaBitU32 inp ip out op 2 4
    let out ← writeAlphaBitU16 inp ip out op 6 18
    let out ← writeAlphaBitU32 inp ip out op 8 20
    let out ← writeAlphaBitU16 inp ip out op 12 34
    let out ← writeAlphaBitU32 inp ip out op 14 36
    let out ← writeAlphaBitU16 inp ip out op 18 50
    let out ← writeAlphaBitU32 inp ip out op 20 52
    let out ← writeAlphaBitU16 inp ip out op 24 66
    let out ← writeAlphaBitU32 inp ip out op 26 68
    let out ← writeAlphaBitU16 inp ip out op 30 82
    let out ← writeAlphaBitU32 inp ip out op 32 84
    let out ← writeAlphaBitU16 inp ip out op 36 98
    let out ← writeAlphaBitU32 inp ip out op 38 100
    let out ← writeAlphaBitU16 inp ip out op 42 114
    writeAlphaBitU32 inp ip out op 44 116

/-- `colour_offsets`, standard/transform/avx2.rs:66-68, with_split_alphas/transform/avx2.rs:44-46,
with_recorrelate/transform/avx2.rs:31-33. -/
def colourOffsets : List Nat := [8, 24, 40, 56, 72, 88, 104, 120]
/-- `indices_offsets`, standard/transform/avx2.rs:69-71, with_split_alphas/transform/avx2.rs:47-49,
with_recorrelate/transform/avx2.rs:34-36. -/
def indicesOffsets : List Nat := [12, 28, 44, 60, 76, 92, 108, 124]

/-! ## AVX2 transforms -/

/-- `u32_avx2_with_separate_pointers`, standard/transform/avx2.rs:47-177. -/
def transformAvx2Ptrs (x64 : Bool) (inp : Buf) (ip0 : Nat) (out : Buf)
    (ap0 bp0 cp0 xp0 alphaEnd : Nat) : Option Buf := do
  let len := (alphaEnd - ap0) * 8
  let alignedLen := len - len % 128
  let inputEnd := ip0 + alignedLen
  let (ip, ap, bp, cp, xp, out) ← whileM (len + 1)
    (fun (ip, _, _, _, _, _) => decide (ip < inputEnd))
    (fun ((ip, ap, bp, cp, xp, out) : Nat × Nat × Nat × Nat × Nat × Buf) => do
      let colours ← gather32 inp ip colourOffsets
      let indices ← gather32 inp ip indicesOffsets
      let out ← writeAlphaEndpointsU64 inp ip out ap 0 16 32 48
      let out ← writeAlphaEndpointsU64 inp ip out (ap + 8) 64 80 96 112
      let out ← writeAlphaBits x64 inp ip out bp
      let out ← st out cp colours
      let out ← st out xp indices
      pure (ip + 128, ap + 16, bp + 48, cp + 32, xp + 32, out)) (ip0, ap0, bp0, cp0, xp0, out)
  transformPtrs .little inp ip out ap bp cp xp alphaEnd

/-- `u32_avx2`, standard/transform/avx2.rs:16-34. -/
def transformAvx2 (x64 : Bool) (inp out : Buf) (len : Nat) : Option Buf :=
  transformAvx2Ptrs x64 inp 0 out 0 (len / 16 * 2) (len / 16 * 8) (len / 16 * 12) (len / 16 * 2)

/-- `transform_with_split_alphas` (AVX2), with_split_alphas/transform/avx2.rs:20-159. -/
def transformAlphaAvx2 (x64 : Bool) (inp : Buf) (ip0 : Nat) (out : Buf)
    (a0p0 a1p0 bp0 cp0 xp0 blockCount : Nat) : Option Buf := do
  let len := blockCount * 16
  let alignedLen := len - len % 128
  let remainingLen := len - alignedLen
  let inputEnd := ip0 + alignedLen
  let (ip, a0p, a1p, bp, cp, xp, out) ← whileM (len + 1)
    (fun (ip, _, _, _, _, _, _) => decide (ip < inputEnd))
    (fun ((ip, a0p, a1p, bp, cp, xp, out) : Nat × Nat × Nat × Nat × Nat × Nat × Buf) => do
      let colours ← gather32 inp ip colourOffsets
      let indices ← gather32 inp ip indicesOffsets
      let out ← writeAlphaBytesU64 inp ip out a0p 0 16 32 48 64 80 96 112
      let out ← writeAlphaBytesU64 inp ip out a1p 1 17 33 49 65 81 97 113
      let out ← writeAlphaBits x64 inp ip out bp
      let out ← st out cp colours
      let out ← st out xp indices
      pure (ip + 128, a0p + 8, a1p + 8, bp + 48, cp + 32, xp + 32, out)) (ip0, a0p0, a1p0, bp0, cp0, xp0, out)
  transformAlphaGeneric .little inp ip out a0p a1p bp cp xp (remainingLen / 16)

/-- `transform_decorr` and its wrappers (AVX2), with_recorrelate/transform/avx2.rs:17-145 and 208-309. -/
def transformRecorrAvx2 (x64 : Bool) (inp : Buf) (ip0 : Nat) (out : Buf)
    (ap0 bp0 cp0 xp0 numBlocks : Nat) (v : Variant) : Option Buf := do
  if v = .none then none
  let inputEnd := ip0 + numBlocks / 8 * 8 * 16
  let (ip, ap, bp, cp, xp, out) ← whileM (numBlocks + 1)
    (fun (ip, _, _, _, _, _) => decide (ip < inputEnd))
    (fun ((ip, ap, bp, cp, xp, out) : Nat × Nat × Nat × Nat × Nat × Buf) => do
      let colours ← gather32 inp ip colourOffsets
      let indices ← gather32 inp ip indicesOffsets
      let decorr := mapLanes (decorrAvx2 v) colours
      let out ← writeAlphaEndpointsU64 inp ip out ap 0 16 32 48
      let out ← writeAlphaEndpointsU64 inp ip out (ap + 8) 64 80 96 112
      let out ← writeAlphaBits x64 inp ip out bp
      let out ← st out cp decorr
      let out ← st out xp indices
      pure (ip + 128, ap + 16, bp + 48, cp + 32, xp + 32, out)) (ip0, ap0, bp0, cp0, xp0, out)
  transformRecorrGeneric .little inp ip out ap bp cp xp (numBlocks % 8) v

/-! ## AVX-512 VBMI transforms -/

/-- `alpha_bytes_permute_mask`, standard/transform/avx512vbmi.rs:76, with_recorrelate/transform/avx512vbmi.rs:42. -/
def permAlphaBytes : List Nat := [
  0, 1, 16, 17, 32, 33, 48, 49, 64, 65, 80, 81, 96, 97, 112, 113,
  0, 0, 0, 0, 0, 0, 0, 0, 0, 0, 0, 0, 0, 0, 0, 0,
  0, 0, 0, 0, 0, 0, 0, 0, 0, 0, 0, 0, 0, 0, 0, 0,
  0, 0, 0, 0, 0, 0, 0, 0, 0, 0, 0, 0, 0, 0, 0, 0]
/-- The alpha byte mask of with_split_alphas/transform/avx512vbmi.rs:47. -/
def permAlphaSplit : List Nat := [
  0, 16, 32, 48, 64, 80, 96, 112, 1, 17, 33, 49, 65, 81, 97, 113,
  0, 0, 0, 0, 0, 0, 0, 0, 0, 0, 0, 0, 0, 0, 0, 0,
  0, 0, 0, 0, 0, 0, 0, 0, 0, 0, 0, 0, 0, 0, 0, 0,
  0, 0, 0, 0, 0, 0, 0, 0, 0, 0, 0, 0, 0, 0, 0, 0]
/-- `alpha_bits_permute_mask`, standard/transform/avx512vbmi.rs:97, the same table in
with_split_alphas/transform/avx512vbmi.rs:73 and with_recorrelate/transform/avx512vbmi.rs:64. -/
def permAlphaBits : List Nat := [
  2, 3, 4, 5, 6, 7, 18, 19, 20, 21, 22, 23, 34, 35, 36, 37,
  38, 39, 50, 51, 52, 53, 54, 55, 66, 67, 68, 69, 70, 71, 82, 83,
  84, 85, 86, 87, 98, 99, 100, 101, 102, 103, 114, 115, 116, 117, 118, 119,
  0, 0, 0, 0, 0, 0, 0, 0, 0, 0, 0, 0, 0, 0, 0, 0]
/-- `color_bytes_permute_mask`, standard/transform/avx512vbmi.rs:150, the same table in
with_split_alphas/transform/avx512vbmi.rs:128 and with_recorrelate/transform/avx512vbmi.rs:118. -/
def permColours : List Nat := [
  8, 9, 10, 11, 24, 25, 26, 27, 40, 41, 42, 43, 56, 57, 58, 59,
  72, 73, 74, 75, 88, 89, 90, 91, 104, 105, 106, 107, 120, 121, 122, 123,
  0, 0, 0, 0, 0, 0, 0, 0, 0, 0, 0, 0, 0, 0, 0, 0,
  0, 0, 0, 0, 0, 0, 0, 0, 0, 0, 0, 0, 0, 0, 0, 0]
/-- `index_bytes_permute_mask`, standard/transform/avx512vbmi.rs:187, the same table in
with_split_alphas/transform/avx512vbmi.rs:167 and with_recorrelate/transform/avx512vbmi.rs:156. -/
def permIndices : List Nat := [
  12, 13, 14, 15, 28, 29, 30, 31, 44, 45, 46, 47, 60, 61, 62, 63,
  76, 77, 78, 79, 92, 93, 94, 95, 108, 109, 110, 111, 124, 125, 126, 127,
  0, 0, 0, 0, 0, 0, 0, 0, 0, 0, 0, 0, 0, 0, 0, 0,
  0, 0, 0, 0, 0, 0, 0, 0, 0, 0, 0, 0, 0, 0, 0, 0]

/-- `avx512_vbmi_with_separate_pointers`, standard/transform/avx512vbmi.rs:51-266.  (`saturating_sub` is
subtraction of naturals.) -/
def transformVbmiPtrs (inp : Buf) (ip0 : Nat) (out : Buf)
    (ap0 bp0 cp0 xp0 len : Nat) : Option Buf := do
  let alignedLen := len - len % 128 - 128
  let inputEnd := ip0 + alignedLen
  let alphaEnd := ap0 + len / 16 * 2
  let (ip, ap, bp, cp, xp, out) ← whileM (len + 1)
    (fun (ip, _, _, _, _, _) => decide (ip < inputEnd))
    (fun ((ip, ap, bp, cp, xp, out) : Nat × Nat × Nat × Nat × Nat × Buf) => do
      let block0 ← ld inp ip 64
      let block1 ← ld inp (ip + 64) 64
      let alphas := permt2b permAlphaBytes block0 block1
      let bits := permt2b permAlphaBits block0 block1
      let colours := permt2b permColours block0 block1
      let indices := permt2b permIndices block0 block1
      let out ← st out ap (alphas.take 16)
      let out ← st out bp bits
      let out ← st out cp (colours.take 32)
      let out ← st out xp (indices.take 32)
      pure (ip + 128, ap + 16, bp + 48, cp + 32, xp + 32, out)) (ip0, ap0, bp0, cp0, xp0, out)
  transformPtrs .little inp ip out ap bp cp xp alphaEnd

/-- `avx512_vbmi`, standard/transform/avx512vbmi.rs:18-35. -/
def transformVbmi (inp out : Buf) (len : Nat) : Option Buf :=
  transformVbmiPtrs inp 0 out 0 (len / 16 * 2) (len / 16 * 8) (len / 16 * 12) len

/-- `transform_with_split_alphas` (AVX-512 VBMI), with_split_alphas/transform/avx512vbmi.rs:23-256. -/
def transformAlphaVbmi (inp : Buf) (ip0 : Nat) (out : Buf)
    (a0p0 a1p0 bp0 cp0 xp0 blockCount : Nat) : Option Buf := do
  let len := blockCount * 16
  let alignedLen := len - len % 128 - 128
  let inputEnd := ip0 + alignedLen
  let remainingLen := len - alignedLen
  let (ip, a0p, a1p, bp, cp, xp, out) ← whileM (len + 1)
    (fun (ip, _, _, _, _, _, _) => decide (ip < inputEnd))
    (fun ((ip, a0p, a1p, bp, cp, xp, out) : Nat × Nat × Nat × Nat × Nat × Nat × Buf) => do
      let block0 ← ld inp ip 64
      let block1 ← ld inp (ip + 64) 64
      let alphas := permt2b permAlphaSplit block0 block1
      let bits := permt2b permAlphaBits block0 block1
      let colours := permt2b permColours block0 block1
      let indices := permt2b permIndices block0 block1
      let out ← st out a0p (alphas.take 8)
      let out ← st out a1p (slice alphas 8 8)
      let out ← st out bp bits
      let out ← st out cp (colours.take 32)
      let out ← st out xp (indices.take 32)
      pure (ip + 128, a0p + 8, a1p + 8, bp + 48, cp + 32, xp + 32, out)) (ip0, a0p0, a1p0, bp0, cp0, xp0, out)
  transformAlphaGeneric .little inp ip out a0p a1p bp cp xp (remainingLen / 16)

/-- `transform_decorr` and its wrappers (AVX-512 VBMI), with_recorrelate/transform/avx512vbmi.rs:24-268. -/
def transformRecorrVbmi (inp : Buf) (ip0 : Nat) (out : Buf)
    (ap0 bp0 cp0 xp0 numBlocks : Nat) (v : Variant) : Option Buf := do
  if v = .none then none
  let alignedLen := numBlocks / 8 * 128 - 128
  let remaining := numBlocks - alignedLen / 16
  let inputEnd := ip0 + alignedLen
  let (ip, ap, bp, cp, xp, out) ← whileM (numBlocks + 1)
    (fun (ip, _, _, _, _, _) => decide (ip < inputEnd))
    (fun ((ip, ap, bp, cp, xp, out) : Nat × Nat × Nat × Nat × Nat × Buf) => do
      let block0 ← ld inp ip 64
      let block1 ← ld inp (ip + 64) 64
      let alphas := permt2b permAlphaBytes block0 block1
      let bits := permt2b permAlphaBits block0 block1
      let colours := permt2b permColours block0 block1
      let indices := permt2b permIndices block0 block1
      let decorr := mapLanes (decorrAvx2 v) (colours.take 32)
      let out ← st out ap (alphas.take 16)
      let out ← st out bp bits
      let out ← st out cp decorr
      let out ← st out xp (indices.take 32)
      pure (ip + 128, ap + 16, bp + 48, cp + 32, xp + 32, out)) (ip0, ap0, bp0, cp0, xp0, out)
  transformRecorrGeneric .little inp ip out ap bp cp xp remaining v

/-! ## SSE2 untransforms -/

/-- `u64_untransform_sse2_separate_components`, standard/untransform/sse2_64.rs:59-142. -/
def untransformSse2x64Ptrs (inp : Buf) (ap0 bp0 cp0 xp0 : Nat) (out : Buf)
    (op0 len : Nat) : Option Buf := do
  let alignedLen := len - len % 64
  let alphaEnd := ap0 + alignedLen / 16 * 2 / 8 * 8
  let (ap, bp, cp, xp, op, out) ← whileM (len + 1)
    (fun (ap, _, _, _, _, _) => decide (ap < alphaEnd))
    (fun ((ap, bp, cp, xp, op, out) : Nat × Nat × Nat × Nat × Nat × Buf) => do
      let alphas ← ld64 .little inp ap
      let bits0 ← ld64 .little inp bp
      let bits1 ← ld64 .little inp (bp + 8)
      let bits2 ← ld64 .little inp (bp + 16)
      let colors ← ld inp cp 16
      let indices ← ld inp xp 16
      let out ← st16 .little out op ((alphas >>> 0).setWidth 16)
      let out ← st16 .little out (op + 16) ((alphas >>> 16).setWidth 16)
      let out ← st16 .little out (op + 32) ((alphas >>> 32).setWidth 16)
      let out ← st16 .little out (op + 48) ((alphas >>> 48).setWidth 16)
      let out ← st16 .little out (op + 2) ((bits0 >>> 0).setWidth 16)
      let out ← st32 .little out (op + 4) ((bits0 >>> 16).setWidth 32)
      let out ← st16 .little out (op + 18) ((bits0 >>> 48).setWidth 16)
      let out ← st32 .little out (op + 20) ((bits1 >>> 0).setWidth 32)
      let out ← st32 .little out (op + 34) ((bits1 >>> 32).setWidth 32)
      let out ← st16 .little out (op + 38) ((bits2 >>> 0).setWidth 16)
      let out ← st64 .little out (op + 50) (bits2 >>> 16)
      let low := punpckldq colors indices
      let high := punpckhdq colors indices
      let out ← st out (op + 8) (low.take 8)
      let out ← st out (op + 24) (slice low 8 8)
      let out ← st out (op + 40) (high.take 8)
      let out ← st out (op + 56) (slice high 8 8)
      pure (ap + 8, bp + 24, cp + 16, xp + 16, op + 64, out)) (ap0, bp0, cp0, xp0, op0, out)
  untransformPtrs .little inp ap bp cp xp out op (len - alignedLen)

/-- `u64_untransform_sse2`, standard/untransform/sse2_64.rs:16-36. -/
def untransformSse2x64 (inp out : Buf) (len : Nat) : Option Buf :=
  untransformSse2x64Ptrs inp 0 (len / 16 * 2) (len / 16 * 8) (len / 16 * 12) out 0 len

/-- `u32_untransform_sse2`, standard/untransform/sse2_32.rs:16-104. -/
def untransformSse2x32 (inp out : Buf) (len : Nat) : Option Buf := do
  let alignedLen := len - len % 64
  let alphaEnd := alignedLen / 16 * 2
  let (ap, bp, cp, xp, op, out) ← whileM (len + 1)
    (fun (ap, _, _, _, _, _) => decide (ap < alphaEnd))
    (fun ((ap, bp, cp, xp, op, out) : Nat × Nat × Nat × Nat × Nat × Buf) => do
      let alphas0 ← ld32 .little inp ap
      let alphas1 ← ld32 .little inp (ap + 4)
      let bits0 ← ld32 .little inp bp
      let bits1 ← ld32 .little inp (bp + 4)
      let bits2 ← ld32 .little inp (bp + 8)
      let bits3 ← ld32 .little inp (bp + 12)
      let bits4 ← ld32 .little inp (bp + 16)
      let bits5 ← ld32 .little inp (bp + 20)
      let colors ← ld inp cp 16
      let indices ← ld inp xp 16
      let out ← st16 .little out op ((alphas0 >>> 0).setWidth 16)
      let out ← st16 .little out (op + 16) ((alphas0 >>> 16).setWidth 16)
      let out ← st16 .little out (op + 32) ((alphas1 >>> 0).setWidth 16)
      let out ← st16 .little out (op + 48) ((alphas1 >>> 16).setWidth 16)
      let out ← st32 .little out (op + 2) bits0
      let out ← st16 .little out (op + 6) ((bits1 >>> 0).setWidth 16)
      let out ← st16 .little out (op + 18) ((bits1 >>> 16).setWidth 16)
      let out ← st32 .little out (op + 20) bits2
      let out ← st32 .little out (op + 34) bits3
      let out ← st16 .little out (op + 38) ((bits4 >>> 0).setWidth 16)
      let out ← st16 .little out (op + 50) ((bits4 >>> 16).setWidth 16)
      let out ← st32 .little out (op + 52) bits5
      let low := punpckldq colors indices
      let high := punpckhdq colors indices
      let out ← st out (op + 8) (low.take 8)
      let out ← st out (op + 24) (slice low 8 8)
      let out ← st out (op + 40) (high.take 8)
      let out ← st out (op + 56) (slice high 8 8)
      pure (ap + 8, bp + 24, cp + 16, xp + 16, op + 64, out)) (0, len / 16 * 2, len / 16 * 8, len / 16 * 12, 0, out)
  untransformPtrs .little inp ap bp cp xp out op (len - alignedLen)

/-- `untransform_with_split_alphas_sse2`, with_split_alphas/untransform/sse2.rs:32-118. -/
def untransformAlphaSse2 (inp : Buf) (a0p0 a1p0 bp0 cp0 xp0 : Nat) (out : Buf)
    (op0 blockCount : Nat) : Option Buf := do
  let alignedCount := blockCount - blockCount % 4
  let alphaEnd := a0p0 + alignedCount
  let (a0p, a1p, bp, cp, xp, op, out) ← whileM (blockCount + 1)
    (fun (a0p, _, _, _, _, _, _) => decide (a0p < alphaEnd))
    (fun ((a0p, a1p, bp, cp, xp, op, out) : Nat × Nat × Nat × Nat × Nat × Nat × Buf) => do
      let alpha0 ← ld32 .little inp a0p
      let alpha1 ← ld32 .little inp a1p
      let bits0 ← ld64 .little inp bp
      let bits1 ← ld64 .little inp (bp + 8)
      let bits2 ← ld64 .little inp (bp + 16)
      let colors ← ld inp cp 16
      let indices ← ld inp xp 16
      let out ← st8 out op ((alpha0 >>> 0).setWidth 8)
      let out ← st8 out (op + 1) ((alpha1 >>> 0).setWidth 8)
      let out ← st8 out (op + 16) ((alpha0 >>> 8).setWidth 8)
      let out ← st8 out (op + 17) ((alpha1 >>> 8).setWidth 8)
      let out ← st8 out (op + 32) ((alpha0 >>> 16).setWidth 8)
      let out ← st8 out (op + 33) ((alpha1 >>> 16).setWidth 8)
      let out ← st8 out (op + 48) ((alpha0 >>> 24).setWidth 8)
      let out ← st8 out (op + 49) ((alpha1 >>> 24).setWidth 8)
      let out ← st16 .little out (op + 2) ((bits0 >>> 0).setWidth 16)
      let out ← st32 .little out (op + 4) ((bits0 >>> 16).setWidth 32)
      let out ← st16 .little out (op + 18) ((bits0 >>> 48).setWidth 16)
      let out ← st32 .little out (op + 20) ((bits1 >>> 0).setWidth 32)
      let out ← st32 .little out (op + 34) ((bits1 >>> 32).setWidth 32)
      let out ← st16 .little out (op + 38) ((bits2 >>> 0).setWidth 16)
      let out ← st64 .little out (op + 50) (bits2 >>> 16)
      let low := punpckldq colors indices
      let high := punpckhdq colors indices
      let out ← st out (op + 8) (low.take 8)
      let out ← st out (op + 24) (slice low 8 8)
      let out ← st out (op + 40) (high.take 8)
      let out ← st out (op + 56) (slice high 8 8)
      pure (a0p + 4, a1p + 4, bp + 24, cp + 16, xp + 16, op + 64, out)) (a0p0, a1p0, bp0, cp0, xp0, op0, out)
  untransformAlphaGeneric .little inp a0p a1p bp cp xp out op (blockCount - alignedCount)

/-- `untransform_recorr` and its wrappers (SSE2), with_recorrelate/untransform/sse2.rs:23-226.  `num_blocks & !3`
is the largest multiple of 4 not above `num_blocks`. -/
def untransformRecorrSse2 (inp : Buf) (ap0 bp0 cp0 xp0 : Nat) (out : Buf)
    (op0 numBlocks : Nat) (v : Variant) : Option Buf := do
  if v = .none then none
  let vectorized := numBlocks - numBlocks % 4
  let colorsEnd := cp0 + vectorized * 4
  let (ap, bp, cp, xp, op, out) ← whileM (numBlocks + 1)
    (fun (_, _, cp, _, _, _) => decide (cp < colorsEnd))
    (fun ((ap, bp, cp, xp, op, out) : Nat × Nat × Nat × Nat × Nat × Buf) => do
      let alphas ← ld64 .little inp ap
      let bits0 ← ld64 .little inp bp
      let bits1 ← ld64 .little inp (bp + 8)
      let bits2 ← ld64 .little inp (bp + 16)
      let colors ← ld inp cp 16
      let indices ← ld inp xp 16
      let recorr := mapLanes (recorrSse2 v) colors
      let out ← st16 .little out op ((alphas >>> 0).setWidth 16)
      let out ← st16 .little out (op + 16) ((alphas >>> 16).setWidth 16)
      let out ← st16 .little out (op + 32) ((alphas >>> 32).setWidth 16)
      let out ← st16 .little out (op + 48) ((alphas >>> 48).setWidth 16)
      let out ← st16 .little out (op + 2) ((bits0 >>> 0).setWidth 16)
      let out ← st32 .little out (op + 4) ((bits0 >>> 16).setWidth 32)
      let out ← st16 .little out (op + 18) ((bits0 >>> 48).setWidth 16)
      let out ← st32 .little out (op + 20) ((bits1 >>> 0).setWidth 32)
      let out ← st32 .little out (op + 34) ((bits1 >>> 32).setWidth 32)
      let out ← st16 .little out (op + 38) ((bits2 >>> 0).setWidth 16)
      let out ← st64 .little out (op + 50) (bits2 >>> 16)
      let low := punpckldq recorr indices
      let high := punpckhdq recorr indices
      let out ← st out (op + 8) (low.take 8)
      let out ← st out (op + 24) (slice low 8 8)
      let out ← st out (op + 40) (high.take 8)
      let out ← st out (op + 56) (slice high 8 8)
      pure (ap + 8, bp + 24, cp + 16, xp + 16, op + 64, out)) (ap0, bp0, cp0, xp0, op0, out)
  untransformRecorrGeneric .little inp ap bp cp xp out op (numBlocks - vectorized) v

/-! ## AVX-512 VBMI untransforms -/

/-- `blocks_0_perm_alphabits`, standard/untransform/avx512vbmi_32.rs:88,
with_recorrelate/untransform/avx512vbmi_32.rs:51. -/
def perm32A0 : List Nat := [
  0, 1, 64, 65, 66, 67, 68, 69, 0, 0, 0, 0, 0, 0, 0, 0,
  2, 3, 70, 71, 72, 73, 74, 75, 0, 0, 0, 0, 0, 0, 0, 0,
  4, 5, 76, 77, 78, 79, 80, 81, 0, 0, 0, 0, 0, 0, 0, 0,
  6, 7, 82, 83, 84, 85, 86, 87, 0, 0, 0, 0, 0, 0, 0, 0]
/-- `blocks_0_perm_colours`, standard/untransform/avx512vbmi_32.rs:105,
with_recorrelate/untransform/avx512vbmi_32.rs:68. -/
def perm32C0 : List Nat := [
  0, 1, 2, 3, 4, 5, 6, 7, 64, 65, 66, 67, 0, 0, 0, 0,
  16, 17, 18, 19, 20, 21, 22, 23, 68, 69, 70, 71, 0, 0, 0, 0,
  32, 33, 34, 35, 36, 37, 38, 39, 72, 73, 74, 75, 0, 0, 0, 0,
  48, 49, 50, 51, 52, 53, 54, 55, 76, 77, 78, 79, 0, 0, 0, 0]
/-- `blocks_0_perm_indices`, standard/untransform/avx512vbmi_32.rs:122,
with_recorrelate/untransform/avx512vbmi_32.rs:85. -/
def perm32X0 : List Nat := [
  0, 1, 2, 3, 4, 5, 6, 7, 8, 9, 10, 11, 64, 65, 66, 67,
  16, 17, 18, 19, 20, 21, 22, 23, 24, 25, 26, 27, 68, 69, 70, 71,
  32, 33, 34, 35, 36, 37, 38, 39, 40, 41, 42, 43, 72, 73, 74, 75,
  48, 49, 50, 51, 52, 53, 54, 55, 56, 57, 58, 59, 76, 77, 78, 79]

/-- `blocks_0_perm_alphabits`, standard/untransform/avx512vbmi_64.rs:87,
with_recorrelate/untransform/avx512vbmi_64.rs:52. -/
def perm64A0 : List Nat := [
  0, 1, 64, 65, 66, 67, 68, 69, 0, 0, 0, 0, 0, 0, 0, 0,
  2, 3, 70, 71, 72, 73, 74, 75, 0, 0, 0, 0, 0, 0, 0, 0,
  4, 5, 76, 77, 78, 79, 80, 81, 0, 0, 0, 0, 0, 0, 0, 0,
  6, 7, 82, 83, 84, 85, 86, 87, 0, 0, 0, 0, 0, 0, 0, 0]
/-- `blocks_1_perm_alphabits`, standard/untransform/avx512vbmi_64.rs:103,
with_recorrelate/untransform/avx512vbmi_64.rs:68. -/
def perm64A1 : List Nat := [
  8, 9, 88, 89, 90, 91, 92, 93, 0, 0, 0, 0, 0, 0, 0, 0,
  10, 11, 94, 95, 96, 97, 98, 99, 0, 0, 0, 0, 0, 0, 0, 0,
  12, 13, 100, 101, 102, 103, 104, 105, 0, 0, 0, 0, 0, 0, 0, 0,
  14, 15, 106, 107, 108, 109, 110, 111, 0, 0, 0, 0, 0, 0, 0, 0]
/-- `blocks_2_perm_alphabits`, standard/untransform/avx512vbmi_64.rs:119,
with_recorrelate/untransform/avx512vbmi_64.rs:84. -/
def perm64A2 : List Nat := [
  16, 17, 64, 65, 66, 67, 68, 69, 0, 0, 0, 0, 0, 0, 0, 0,
  18, 19, 70, 71, 72, 73, 74, 75, 0, 0, 0, 0, 0, 0, 0, 0,
  20, 21, 76, 77, 78, 79, 80, 81, 0, 0, 0, 0, 0, 0, 0, 0,
  22, 23, 82, 83, 84, 85, 86, 87, 0, 0, 0, 0, 0, 0, 0, 0]
/-- `blocks_3_perm_alphabits`, standard/untransform/avx512vbmi_64.rs:135,
with_recorrelate/untransform/avx512vbmi_64.rs:100. -/
def perm64A3 : List Nat := [
  24, 25, 88, 89, 90, 91, 92, 93, 0, 0, 0, 0, 0, 0, 0, 0,
  26, 27, 94, 95, 96, 97, 98, 99, 0, 0, 0, 0, 0, 0, 0, 0,
  28, 29, 100, 101, 102, 103, 104, 105, 0, 0, 0, 0, 0, 0, 0, 0,
  30, 31, 106, 107, 108, 109, 110, 111, 0, 0, 0, 0, 0, 0, 0, 0]
/-- `blocks_4_perm_alphabits`, standard/untransform/avx512vbmi_64.rs:151,
with_recorrelate/untransform/avx512vbmi_64.rs:116. -/
def perm64A4 : List Nat := [
  32, 33, 64, 65, 66, 67, 68, 69, 0, 0, 0, 0, 0, 0, 0, 0,
  34, 35, 70, 71, 72, 73, 74, 75, 0, 0, 0, 0, 0, 0, 0, 0,
  36, 37, 76, 77, 78, 79, 80, 81, 0, 0, 0, 0, 0, 0, 0, 0,
  38, 39, 82, 83, 84, 85, 86, 87, 0, 0, 0, 0, 0, 0, 0, 0]
/-- `blocks_5_perm_alphabits`, standard/untransform/avx512vbmi_64.rs:167,
with_recorrelate/untransform/avx512vbmi_64.rs:132. -/
def perm64A5 : List Nat := [
  40, 41, 88, 89, 90, 91, 92, 93, 0, 0, 0, 0, 0, 0, 0, 0,
  42, 43, 94, 95, 96, 97, 98, 99, 0, 0, 0, 0, 0, 0, 0, 0,
  44, 45, 100, 101, 102, 103, 104, 105, 0, 0, 0, 0, 0, 0, 0, 0,
  46, 47, 106, 107, 108, 109, 110, 111, 0, 0, 0, 0, 0, 0, 0, 0]
/-- `blocks_6_perm_alphabits`, standard/untransform/avx512vbmi_64.rs:183,
with_recorrelate/untransform/avx512vbmi_64.rs:148. -/
def perm64A6 : List Nat := [
  48, 49, 64, 65, 66, 67, 68, 69, 0, 0, 0, 0, 0, 0, 0, 0,
  50, 51, 70, 71, 72, 73, 74, 75, 0, 0, 0, 0, 0, 0, 0, 0,
  52, 53, 76, 77, 78, 79, 80, 81, 0, 0, 0, 0, 0, 0, 0, 0,
  54, 55, 82, 83, 84, 85, 86, 87, 0, 0, 0, 0, 0, 0, 0, 0]
/-- `blocks_7_perm_alphabits`, standard/untransform/avx512vbmi_64.rs:199,
with_recorrelate/untransform/avx512vbmi_64.rs:164. -/
def perm64A7 : List Nat := [
  56, 57, 88, 89, 90, 91, 92, 93, 0, 0, 0, 0, 0, 0, 0, 0,
  58, 59, 94, 95, 96, 97, 98, 99, 0, 0, 0, 0, 0, 0, 0, 0,
  60, 61, 100, 101, 102, 103, 104, 105, 0, 0, 0, 0, 0, 0, 0, 0,
  62, 63, 106, 107, 108, 109, 110, 111, 0, 0, 0, 0, 0, 0, 0, 0]
/-- `blocks_0_perm_colours`, standard/untransform/avx512vbmi_64.rs:216,
with_recorrelate/untransform/avx512vbmi_64.rs:181. -/
def perm64C0 : List Nat := [
  0, 1, 2, 3, 4, 5, 6, 7, 64, 65, 66, 67, 0, 0, 0, 0,
  16, 17, 18, 19, 20, 21, 22, 23, 68, 69, 70, 71, 0, 0, 0, 0,
  32, 33, 34, 35, 36, 37, 38, 39, 72, 73, 74, 75, 0, 0, 0, 0,
  48, 49, 50, 51, 52, 53, 54, 55, 76, 77, 78, 79, 0, 0, 0, 0]
/-- `blocks_1_perm_colours`, standard/untransform/avx512vbmi_64.rs:232,
with_recorrelate/untransform/avx512vbmi_64.rs:197. -/
def perm64C1 : List Nat := [
  0, 1, 2, 3, 4, 5, 6, 7, 80, 81, 82, 83, 0, 0, 0, 0,
  16, 17, 18, 19, 20, 21, 22, 23, 84, 85, 86, 87, 0, 0, 0, 0,
  32, 33, 34, 35, 36, 37, 38, 39, 88, 89, 90, 91, 0, 0, 0, 0,
  48, 49, 50, 51, 52, 53, 54, 55, 92, 93, 94, 95, 0, 0, 0, 0]
/-- `blocks_2_perm_colours`, standard/untransform/avx512vbmi_64.rs:248,
with_recorrelate/untransform/avx512vbmi_64.rs:213. -/
def perm64C2 : List Nat := [
  0, 1, 2, 3, 4, 5, 6, 7, 96, 97, 98, 99, 0, 0, 0, 0,
  16, 17, 18, 19, 20, 21, 22, 23, 100, 101, 102, 103, 0, 0, 0, 0,
  32, 33, 34, 35, 36, 37, 38, 39, 104, 105, 106, 107, 0, 0, 0, 0,
  48, 49, 50, 51, 52, 53, 54, 55, 108, 109, 110, 111, 0, 0, 0, 0]
/-- `blocks_3_perm_colours`, standard/untransform/avx512vbmi_64.rs:264,
with_recorrelate/untransform/avx512vbmi_64.rs:229. -/
def perm64C3 : List Nat := [
  0, 1, 2, 3, 4, 5, 6, 7, 112, 113, 114, 115, 0, 0, 0, 0,
  16, 17, 18, 19, 20, 21, 22, 23, 116, 117, 118, 119, 0, 0, 0, 0,
  32, 33, 34, 35, 36, 37, 38, 39, 120, 121, 122, 123, 0, 0, 0, 0,
  48, 49, 50, 51, 52, 53, 54, 55, 124, 125, 126, 127, 0, 0, 0, 0]
/-- `blocks_0_perm_indices`, standard/untransform/avx512vbmi_64.rs:281,
with_recorrelate/untransform/avx512vbmi_64.rs:246. -/
def perm64X0 : List Nat := [
  0, 1, 2, 3, 4, 5, 6, 7, 8, 9, 10, 11, 64, 65, 66, 67,
  16, 17, 18, 19, 20, 21, 22, 23, 24, 25, 26, 27, 68, 69, 70, 71,
  32, 33, 34, 35, 36, 37, 38, 39, 40, 41, 42, 43, 72, 73, 74, 75,
  48, 49, 50, 51, 52, 53, 54, 55, 56, 57, 58, 59, 76, 77, 78, 79]
/-- `blocks_1_perm_indices`, standard/untransform/avx512vbmi_64.rs:293,
with_recorrelate/untransform/avx512vbmi_64.rs:258. -/
def perm64X1 : List Nat := [
  0, 1, 2, 3, 4, 5, 6, 7, 8, 9, 10, 11, 80, 81, 82, 83,
  16, 17, 18, 19, 20, 21, 22, 23, 24, 25, 26, 27, 84, 85, 86, 87,
  32, 33, 34, 35, 36, 37, 38, 39, 40, 41, 42, 43, 88, 89, 90, 91,
  48, 49, 50, 51, 52, 53, 54, 55, 56, 57, 58, 59, 92, 93, 94, 95]
/-- `blocks_2_perm_indices`, standard/untransform/avx512vbmi_64.rs:305,
with_recorrelate/untransform/avx512vbmi_64.rs:270. -/
def perm64X2 : List Nat := [
  0, 1, 2, 3, 4, 5, 6, 7, 8, 9, 10, 11, 96, 97, 98, 99,
  16, 17, 18, 19, 20, 21, 22, 23, 24, 25, 26, 27, 100, 101, 102, 103,
  32, 33, 34, 35, 36, 37, 38, 39, 40, 41, 42, 43, 104, 105, 106, 107,
  48, 49, 50, 51, 52, 53, 54, 55, 56, 57, 58, 59, 108, 109, 110, 111]
/-- `blocks_3_perm_indices`, standard/untransform/avx512vbmi_64.rs:317,
with_recorrelate/untransform/avx512vbmi_64.rs:282. -/
def perm64X3 : List Nat := [
  0, 1, 2, 3, 4, 5, 6, 7, 8, 9, 10, 11, 112, 113, 114, 115,
  16, 17, 18, 19, 20, 21, 22, 23, 24, 25, 26, 27, 116, 117, 118, 119,
  32, 33, 34, 35, 36, 37, 38, 39, 40, 41, 42, 43, 120, 121, 122, 123,
  48, 49, 50, 51, 52, 53, 54, 55, 56, 57, 58, 59, 124, 125, 126, 127]

/-- `avx512_untransform_separate_components_32`, standard/untransform/avx512vbmi_32.rs:63-183.  `u` are the
undefined upper bytes of `_mm512_castsi128_si512` and `_mm512_castsi256_si512`. -/
def untransformVbmi32Ptrs (u : Nat → Byte) (inp : Buf) (ap0 bp0 cp0 xp0 : Nat) (out : Buf)
    (op0 len : Nat) : Option Buf := do
  let alignedLen := len - len % 64
  let alphaEnd := ap0 + alignedLen / 16 * 2
  let (ap, bp, cp, xp, op, out) ← whileM (len + 1)
    (fun (ap, _, _, _, _, _) => decide (ap < alphaEnd))
    (fun ((ap, bp, cp, xp, op, out) : Nat × Nat × Nat × Nat × Nat × Buf) => do
      let alphas ← ld inp ap 16
      let colors ← ld inp cp 16
      let indices ← ld inp xp 16
      let bits ← ld inp bp 32
      let blocks := permt2b perm32A0 (widen u alphas 48) (widen u bits 32)
      let blocks := permt2b perm32C0 blocks (widen u colors 48)
      let blocks := permt2b perm32X0 blocks (widen u indices 48)
      let out ← st out op blocks
      pure (ap + 8, bp + 24, cp + 16, xp + 16, op + 64, out)) (ap0, bp0, cp0, xp0, op0, out)
  untransformPtrs .little inp ap bp cp xp out op (len - alignedLen)

/-- `avx512_untransform_32`, standard/untransform/avx512vbmi_32.rs:16-36. -/
def untransformVbmi32 (u : Nat → Byte) (inp out : Buf) (len : Nat) : Option Buf :=
  untransformVbmi32Ptrs u inp 0 (len / 16 * 2) (len / 16 * 8) (len / 16 * 12) out 0 len

/-- `untransform_recorr_32` and its wrappers, with_recorrelate/untransform/avx512vbmi_32.rs:20-158,
with_recorrelate/untransform/avx512vbmi.rs:18-157. -/
def untransformRecorrVbmi32 (u : Nat → Byte) (inp : Buf) (ap0 bp0 cp0 xp0 : Nat) (out : Buf)
    (op0 numBlocks : Nat) (v : Variant) : Option Buf := do
  if v = .none then none
  let alignedBlocks := numBlocks / 4 * 4
  let alphaEnd := ap0 + alignedBlocks * 2
  let (ap, bp, cp, xp, op, out) ← whileM (numBlocks + 1)
    (fun (ap, _, _, _, _, _) => decide (ap < alphaEnd))
    (fun ((ap, bp, cp, xp, op, out) : Nat × Nat × Nat × Nat × Nat × Buf) => do
      let alphas ← ld inp ap 16
      let colors ← ld inp cp 16
      let indices ← ld inp xp 16
      let bits ← ld inp bp 32
      let blocks := permt2b perm32A0 (widen u alphas 48) (widen u bits 32)
      let blocks := permt2b perm32C0 blocks (mapLanes (recorrAvx512 v) (widen u colors 48))
      let blocks := permt2b perm32X0 blocks (widen u indices 48)
      let out ← st out op blocks
      pure (ap + 8, bp + 24, cp + 16, xp + 16, op + 64, out)) (ap0, bp0, cp0, xp0, op0, out)
  untransformRecorrGeneric .little inp ap bp cp xp out op (numBlocks - alignedBlocks) v

/-- `avx512_untransform_separate_components`, standard/untransform/avx512vbmi_64.rs:61-444. -/
def untransformVbmi64Ptrs (inp : Buf) (ap0 bp0 cp0 xp0 : Nat) (out : Buf)
    (op0 len : Nat) : Option Buf := do
  let alignedLen := len - len % 512
  let alphaEnd := ap0 + alignedLen / 16 * 2
  let (ap, bp, cp, xp, op, out) ← whileM (len + 1)
    (fun (ap, _, _, _, _, _) => decide (ap < alphaEnd))
    (fun ((ap, bp, cp, xp, op, out) : Nat × Nat × Nat × Nat × Nat × Buf) => do
      let alphas ← ld inp ap 64
      let colors0 ← ld inp cp 64
      let colors1 ← ld inp (cp + 64) 64
      let indices0 ← ld inp xp 64
      let indices1 ← ld inp (xp + 64) 64
      let bits0 ← ld inp bp 64
      let bits1 ← ld inp (bp + 48) 64
      let bits2 ← ld inp (bp + 96) 64
      let bits3 ← ld inp (bp + 144) 64
      let blocks0 := permt2b perm64A0 alphas bits0
      let blocks0 := permt2b perm64C0 blocks0 colors0
      let blocks0 := permt2b perm64X0 blocks0 indices0
      let blocks1 := permt2b perm64A1 alphas bits0
      let blocks1 := permt2b perm64C1 blocks1 colors0
      let blocks1 := permt2b perm64X1 blocks1 indices0
      let blocks2 := permt2b perm64A2 alphas bits1
      let blocks2 := permt2b perm64C2 blocks2 colors0
      let blocks2 := permt2b perm64X2 blocks2 indices0
      let blocks3 := permt2b perm64A3 alphas bits1
      let blocks3 := permt2b perm64C3 blocks3 colors0
      let blocks3 := permt2b perm64X3 blocks3 indices0
      let blocks4 := permt2b perm64A4 alphas bits2
      let blocks4 := permt2b perm64C0 blocks4 colors1
      let blocks4 := permt2b perm64X0 blocks4 indices1
      let blocks5 := permt2b perm64A5 alphas bits2
      let blocks5 := permt2b perm64C1 blocks5 colors1
      let blocks5 := permt2b perm64X1 blocks5 indices1
      let blocks6 := permt2b perm64A6 alphas bits3
      let blocks6 := permt2b perm64C2 blocks6 colors1
      let blocks6 := permt2b perm64X2 blocks6 indices1
      let blocks7 := permt2b perm64A7 alphas bits3
      let blocks7 := permt2b perm64C3 blocks7 colors1
      let blocks7 := permt2b perm64X3 blocks7 indices1
      let out ← st out op blocks0
      let out ← st out (op + 64) blocks1
      let out ← st out (op + 128) blocks2
      let out ← st out (op + 192) blocks3
      let out ← st out (op + 256) blocks4
      let out ← st out (op + 320) blocks5
      let out ← st out (op + 384) blocks6
      let out ← st out (op + 448) blocks7
      pure (ap + 64, bp + 192, cp + 128, xp + 128, op + 512, out)) (ap0, bp0, cp0, xp0, op0, out)
  untransformPtrs .little inp ap bp cp xp out op (len - alignedLen)

/-- `avx512_untransform`, standard/untransform/avx512vbmi_64.rs:16-35. -/
def untransformVbmi64 (inp out : Buf) (len : Nat) : Option Buf :=
  untransformVbmi64Ptrs inp 0 (len / 16 * 2) (len / 16 * 8) (len / 16 * 12) out 0 len

/-- `untransform_recorr_64` and its wrappers, with_recorrelate/untransform/avx512vbmi_64.rs:20-408,
with_recorrelate/untransform/avx512vbmi.rs:18-157. -/
def untransformRecorrVbmi64 (inp : Buf) (ap0 bp0 cp0 xp0 : Nat) (out : Buf)
    (op0 numBlocks : Nat) (v : Variant) : Option Buf := do
  if v = .none then none
  let alignedBlocks := numBlocks / 32 * 32
  let alphaEnd := ap0 + alignedBlocks * 2
  let (ap, bp, cp, xp, op, out) ← whileM (numBlocks + 1)
    (fun (ap, _, _, _, _, _) => decide (ap < alphaEnd))
    (fun ((ap, bp, cp, xp, op, out) : Nat × Nat × Nat × Nat × Nat × Buf) => do
      let alphas ← ld inp ap 64
      let colors0 ← ld inp cp 64
      let colors1 ← ld inp (cp + 64) 64
      let indices0 ← ld inp xp 64
      let indices1 ← ld inp (xp + 64) 64
      let bits0 ← ld inp bp 64
      let bits1 ← ld inp (bp + 48) 64
      let bits2 ← ld inp (bp + 96) 64
      let bits3 ← ld inp (bp + 144) 64
      let colors0 := mapLanes (recorrAvx512 v) colors0
      let colors1 := mapLanes (recorrAvx512 v) colors1
      let blocks0 := permt2b perm64A0 alphas bits0
      let blocks0 := permt2b perm64C0 blocks0 colors0
      let blocks0 := permt2b perm64X0 blocks0 indices0
      let blocks1 := permt2b perm64A1 alphas bits0
      let blocks1 := permt2b perm64C1 blocks1 colors0
      let blocks1 := permt2b perm64X1 blocks1 indices0
      let blocks2 := permt2b perm64A2 alphas bits1
      let blocks2 := permt2b perm64C2 blocks2 colors0
      let blocks2 := permt2b perm64X2 blocks2 indices0
      let blocks3 := permt2b perm64A3 alphas bits1
      let blocks3 := permt2b perm64C3 blocks3 colors0
      let blocks3 := permt2b perm64X3 blocks3 indices0
      let blocks4 := permt2b perm64A4 alphas bits2
      let blocks4 := permt2b perm64C0 blocks4 colors1
      let blocks4 := permt2b perm64X0 blocks4 indices1
      let blocks5 := permt2b perm64A5 alphas bits2
      let blocks5 := permt2b perm64C1 blocks5 colors1
      let blocks5 := permt2b perm64X1 blocks5 indices1
      let blocks6 := permt2b perm64A6 alphas bits3
      let blocks6 := permt2b perm64C2 blocks6 colors1
      let blocks6 := permt2b perm64X2 blocks6 indices1
      let blocks7 := permt2b perm64A7 alphas bits3
      let blocks7 := permt2b perm64C3 blocks7 colors1
      let blocks7 := permt2b perm64X3 blocks7 indices1
      let out ← st out op blocks0
      let out ← st out (op + 64) blocks1
      let out ← st out (op + 128) blocks2
      let out ← st out (op + 192) blocks3
      let out ← st out (op + 256) blocks4
      let out ← st out (op + 320) blocks5
      let out ← st out (op + 384) blocks6
      let out ← st out (op + 448) blocks7
      pure (ap + 64, bp + 192, cp + 128, xp + 128, op + 512, out)) (ap0, bp0, cp0, xp0, op0, out)
  untransformRecorrGeneric .little inp ap bp cp xp out op (numBlocks - alignedBlocks) v

end Dlt.Bc3
