import Verif.Model.Bc2Generic
import Verif.Model.Intrinsics
import Verif.Model.Bc1Simd
/-!
# BC2: vector kernels

Models the x86 kernels below `/repo/src/core/dxt-lossless-transform-bc2/src/transform/`.  File names
are relative to that directory.

Simplifications: register copies (`movaps`) are `let`s; the call of the scalar kernel for the
remaining blocks is made for zero blocks as well, where the code may test first (the scalar kernel
does nothing then); the const-generic `VARIANT` and the wrappers that select it are one `Variant`
argument, and `YCoCgVariant::None`, `unreachable_unchecked` in every one of them, is `none`.
-/

namespace Dlt.Bc2
open Simd

/-- `PERM_ALPHA_BYTES`, standard/transform/avx512.rs, the same table in the other AVX-512 kernels:
with_recorrelate/transform/avx512bw.rs:13. -/
def permAlpha : List Nat := [0, 2, 4, 6, 8, 10, 12, 14]
/-- `PERM_COLORS_BYTES`, with_recorrelate/transform/avx512bw.rs:16-19, the same table in the other
AVX-512 transform kernels. -/
def permColors : List Nat := [0, 4, 8, 12, 2, 6, 10, 14, 16, 20, 24, 28, 18, 22, 26, 30]
/-- `PERM_INDICES_BYTES`, with_recorrelate/transform/avx512bw.rs:20-23, the same table in the other
AVX-512 transform kernels. -/
def permIndices : List Nat := [1, 5, 9, 13, 3, 7, 11, 15, 17, 21, 25, 29, 19, 23, 27, 31]

/-! ## Standard transform -/

/-- `shuffle_v3_with_separate_pointers`, standard/transform/sse2.rs:47-147 (x86-64 only). -/
def transformSse2V3Ptrs (inp : Buf) (ip0 : Nat) (out : Buf) (ap0 cp0 xp0 len : Nat) : Option Buf := do
  let alignedLen := len - len % 128
  let alignedEnd := ip0 + alignedLen
  let (ip, ap, cp, xp, out) ← asmLoop alignedLen (len + 1)
    (fun ((ip, ap, cp, xp, out) : Nat × Nat × Nat × Nat × Buf) => do
      let xmm0 ← ld inp ip 16
      let xmm1 ← ld inp (ip + 16) 16
      let xmm3 ← ld inp (ip + 32) 16
      let xmm4 ← ld inp (ip + 48) 16
      let xmm8 ← ld inp (ip + 64) 16
      let xmm9 ← ld inp (ip + 80) 16
      let xmm10 ← ld inp (ip + 96) 16
      let xmm11 ← ld inp (ip + 112) 16
      let xmm2 := xmm0
      let xmm5 := xmm3
      let xmm12 := xmm8
      let xmm13 := xmm10
      let xmm0 := punpcklqdq xmm0 xmm1
      let xmm3 := punpcklqdq xmm3 xmm4
      let xmm8 := punpcklqdq xmm8 xmm9
      let xmm10 := punpcklqdq xmm10 xmm11
      let xmm2 := shufps 0xEE xmm2 xmm1
      let xmm5 := shufps 0xEE xmm5 xmm4
      let xmm12 := shufps 0xEE xmm12 xmm9
      let xmm13 := shufps 0xEE xmm13 xmm11
      let xmm1 := xmm2
      let xmm9 := xmm12
      let xmm2 := shufps 0x88 xmm2 xmm5
      let xmm1 := shufps 0xDD xmm1 xmm5
      let xmm12 := shufps 0x88 xmm12 xmm13
      let xmm9 := shufps 0xDD xmm9 xmm13
      let out ← st out ap xmm0
      let out ← st out (ap + 16) xmm3
      let out ← st out (ap + 32) xmm8
      let out ← st out (ap + 48) xmm10
      let out ← st out cp xmm2
      let out ← st out (cp + 16) xmm12
      let out ← st out xp xmm1
      let out ← st out (xp + 16) xmm9
      pure (ip + 128, ap + 64, cp + 32, xp + 32, out))
    (fun (ip, _, _, _, _) => decide (ip < alignedEnd))
    (ip0, ap0, cp0, xp0, out)
  transformPtrs .little inp ip out ap cp xp (len - alignedLen)

/-- `shuffle_v2_with_separate_pointers`, standard/transform/sse2.rs:158-236. -/
def transformSse2V2Ptrs (inp : Buf) (ip0 : Nat) (out : Buf) (ap0 cp0 xp0 len : Nat) : Option Buf := do
  let alignedLen := len - len % 64
  let alignedEnd := ip0 + alignedLen
  let (ip, ap, cp, xp, out) ← asmLoop alignedLen (len + 1)
    (fun ((ip, ap, cp, xp, out) : Nat × Nat × Nat × Nat × Buf) => do
      let xmm0 ← ld inp ip 16
      let xmm1 ← ld inp (ip + 16) 16
      let xmm3 ← ld inp (ip + 32) 16
      let xmm4 ← ld inp (ip + 48) 16
      let xmm2 := xmm0
      let xmm5 := xmm3
      let xmm0 := punpcklqdq xmm0 xmm1
      let xmm3 := punpcklqdq xmm3 xmm4
      let xmm2 := shufps 0xEE xmm2 xmm1
      let xmm5 := shufps 0xEE xmm5 xmm4
      let xmm1 := xmm2
      let xmm2 := shufps 0x88 xmm2 xmm5
      let xmm1 := shufps 0xDD xmm1 xmm5
      let out ← st out ap xmm0
      let out ← st out (ap + 16) xmm3
      let out ← st out cp xmm2
      let out ← st out xp xmm1
      pure (ip + 64, ap + 32, cp + 16, xp + 16, out))
    (fun (ip, _, _, _, _) => decide (ip < alignedEnd))
    (ip0, ap0, cp0, xp0, out)
  transformPtrs .little inp ip out ap cp xp (len - alignedLen)

/-- `shuffle_v3`, standard/transform/sse2.rs:28-36. -/
def transformSse2V3 (inp out : Buf) (len : Nat) : Option Buf :=
  transformSse2V3Ptrs inp 0 out 0 (len / 2) (len / 2 + len / 4) len

/-- `shuffle_v2`, standard/transform/sse2.rs:11-19. -/
def transformSse2V2 (inp out : Buf) (len : Nat) : Option Buf :=
  transformSse2V2Ptrs inp 0 out 0 (len / 2) (len / 2 + len / 4) len

/-- `shuffle_with_separate_pointers`, standard/transform/avx2.rs:22-162. -/
def transformAvx2Ptrs (inp : Buf) (ip0 : Nat) (out : Buf) (ap0 cp0 xp0 len : Nat) : Option Buf := do
  let alignedLen := len - len % 128
  let alignedEnd := ip0 + alignedLen
  let (ip, ap, cp, xp, out) ← asmLoop alignedLen (len + 1)
    (fun ((ip, ap, cp, xp, out) : Nat × Nat × Nat × Nat × Buf) => do
      let data0 ← ld inp ip 32
      let data1 ← ld inp (ip + 32) 32
      let data2 ← ld inp (ip + 64) 32
      let data3 ← ld inp (ip + 96) 32
      let alphas0 := vpermq 0x8D (lanes2 punpcklqdq data1 data0)
      let alphas1 := vpermq 0x8D (lanes2 punpcklqdq data3 data2)
      let ci0 := vshufps 0xEE data0 data1
      let ci1 := vshufps 0xEE data2 data3
      let colors := vpermd [0, 4, 1, 5, 2, 6, 3, 7] (vshufps 0x88 ci0 ci1)
      let indices := vpermd [0, 4, 1, 5, 2, 6, 3, 7] (vshufps 0xDD ci0 ci1)
      let out ← st out ap alphas0
      let out ← st out (ap + 32) alphas1
      let out ← st out cp colors
      let out ← st out xp indices
      pure (ip + 128, ap + 64, cp + 32, xp + 32, out))
    (fun (ip, _, _, _, _) => decide (ip < alignedEnd))
    (ip0, ap0, cp0, xp0, out)
  transformPtrs .little inp ip out ap cp xp (len - alignedLen)

/-- `shuffle`, standard/transform/avx2.rs:170-176. -/
def transformAvx2 (inp out : Buf) (len : Nat) : Option Buf :=
  transformAvx2Ptrs inp 0 out 0 (len / 2) (len / 2 + len / 4) len

/-- `permute_512_v2_with_separate_pointers`, standard/transform/avx512.rs:115-206. -/
def transformAvx512Ptrs (inp : Buf) (ip0 : Nat) (out : Buf) (ap0 cp0 xp0 len : Nat) : Option Buf := do
  let alignedLen := len - len % 256
  let alignedEnd := ip0 + alignedLen
  let (ip, ap, cp, xp, out) ← asmLoop alignedLen (len + 1)
    (fun ((ip, ap, cp, xp, out) : Nat × Nat × Nat × Nat × Buf) => do
      let zmm3 ← ld inp ip 64
      let zmm4 ← ld inp (ip + 64) 64
      let zmm5 ← ld inp (ip + 128) 64
      let zmm6 ← ld inp (ip + 192) 64
      let zmm7 := lanes2x4 punpckhqdq zmm3 zmm4
      let zmm3 := permt2q permAlpha zmm3 zmm4
      let zmm4 := lanes2x4 punpckhqdq zmm5 zmm6
      let zmm5 := permt2q permAlpha zmm5 zmm6
      let colors := permt2d permColors zmm7 zmm4
      let indices := permt2d permIndices zmm7 zmm4
      let out ← st out ap zmm3
      let out ← st out (ap + 64) zmm5
      let out ← st out cp colors
      let out ← st out xp indices
      pure (ip + 256, ap + 128, cp + 64, xp + 64, out))
    (fun (ip, _, _, _, _) => decide (ip < alignedEnd))
    (ip0, ap0, cp0, xp0, out)
  transformPtrs .little inp ip out ap cp xp (len - alignedLen)

/-- `permute_512_v2`, standard/transform/avx512.rs:214-228. -/
def transformAvx512 (inp out : Buf) (len : Nat) : Option Buf :=
  transformAvx512Ptrs inp 0 out 0 (len / 2) (len / 2 + len / 4) len

/-- `permute_512_v2_intrinsics`, standard/transform/avx512.rs:19-107: the same data flow written with
intrinsics and a loop tested at its head (only used in the project's own tests). -/
def transformAvx512I (inp out : Buf) (len : Nat) : Option Buf := do
  let alignedLen := len - len % 256
  let (ip, ap, cp, xp, out) ← whileM (len + 1) (fun (ip, _, _, _, _) => decide (ip < alignedLen))
    (fun ((ip, ap, cp, xp, out) : Nat × Nat × Nat × Nat × Buf) => do
      let b0 ← ld inp ip 64
      let b1 ← ld inp (ip + 64) 64
      let b2 ← ld inp (ip + 128) 64
      let b3 ← ld inp (ip + 192) 64
      let alphas0 := permt2q permAlpha b0 b1
      let alphas1 := permt2q permAlpha b2 b3
      let ci0 := lanes2x4 punpckhqdq b0 b1
      let ci1 := lanes2x4 punpckhqdq b2 b3
      let colors := permt2d permColors ci0 ci1
      let indices := permt2d permIndices ci0 ci1
      let out ← st out ap alphas0
      let out ← st out (ap + 64) alphas1
      let out ← st out cp colors
      let out ← st out xp indices
      pure (ip + 256, ap + 128, cp + 64, xp + 64, out)) (0, 0, len / 2, len / 2 + len / 4, out)
  transformPtrs .little inp ip out ap cp xp (len - alignedLen)

/-- `shuffle_with_components`, standard/untransform/sse2.rs:28-135. -/
def untransformSse2Ptrs (inp : Buf) (ap0 cp0 xp0 : Nat) (out : Buf) (op0 len : Nat) : Option Buf := do
  let alignedLen := len - len % 64
  let alignedEnd := ap0 + alignedLen / 2
  let (ap, cp, xp, op, out) ← asmLoop alignedLen (len + 1)
    (fun ((ap, cp, xp, op, out) : Nat × Nat × Nat × Nat × Buf) => do
      let alpha0 ← ld inp ap 16
      let alpha1 ← ld inp (ap + 16) 16
      let colors ← ld inp cp 16
      let indices ← ld inp xp 16
      let ciLow := punpckldq colors indices
      let ciHigh := punpckhdq colors indices
      let out ← st out op (punpcklqdq alpha0 ciLow)
      let out ← st out (op + 16) (punpckhqdq alpha0 ciLow)
      let out ← st out (op + 32) (punpcklqdq alpha1 ciHigh)
      let out ← st out (op + 48) (punpckhqdq alpha1 ciHigh)
      pure (ap + 32, cp + 16, xp + 16, op + 64, out))
    (fun (ap, _, _, _, _) => decide (ap < alignedEnd))
    (ap0, cp0, xp0, op0, out)
  untransformPtrs .little inp ap cp xp out op (len - alignedLen)

/-- `shuffle`, standard/untransform/sse2.rs:10-18. -/
def untransformSse2 (inp out : Buf) (len : Nat) : Option Buf :=
  untransformSse2Ptrs inp 0 (len / 2) (len / 2 + len / 4) out 0 len

/-- `avx2_shuffle_with_components`, standard/untransform/avx2.rs:40-206 (x86-64) and 232-385 (x86);
the two differ in the registers and in the order of independent stores. -/
def untransformAvx2Ptrs (inp : Buf) (ap0 cp0 xp0 : Nat) (out : Buf) (op0 len : Nat) : Option Buf := do
  let alignedLen := len - len % 128
  let alignedEnd := ap0 + alignedLen / 2
  let (ap, cp, xp, op, out) ← asmLoop alignedLen (len + 1)
    (fun ((ap, cp, xp, op, out) : Nat × Nat × Nat × Nat × Buf) => do
      let alpha0 ← ld inp ap 32
      let alpha1 ← ld inp (ap + 32) 32
      let colors ← ld inp cp 32
      let indices ← ld inp xp 32
      let alpha0 := vpermd [0, 1, 4, 5, 2, 3, 6, 7] alpha0
      let alpha1 := vpermd [0, 1, 4, 5, 2, 3, 6, 7] alpha1
      let ci0 := vpermd [0, 4, 2, 6, 1, 5, 3, 7] (vperm2i128 0x20 colors indices)
      let ci1 := vpermd [0, 4, 2, 6, 1, 5, 3, 7] (vperm2i128 0x31 colors indices)
      let out ← st out op (lanes2 punpcklqdq alpha0 ci0)
      let out ← st out (op + 32) (lanes2 punpckhqdq alpha0 ci0)
      let out ← st out (op + 64) (lanes2 punpcklqdq alpha1 ci1)
      let out ← st out (op + 96) (lanes2 punpckhqdq alpha1 ci1)
      pure (ap + 64, cp + 32, xp + 32, op + 128, out))
    (fun (ap, _, _, _, _) => decide (ap < alignedEnd))
    (ap0, cp0, xp0, op0, out)
  untransformPtrs .little inp ap cp xp out op (len - alignedLen)

/-- `avx2_shuffle`, standard/untransform/avx2.rs:22-29 and 215-221. -/
def untransformAvx2 (inp out : Buf) (len : Nat) : Option Buf :=
  untransformAvx2Ptrs inp 0 (len / 2) (len / 2 + len / 4) out 0 len

/-- Interleaving of colours and indices, low half: standard/untransform/avx512.rs (both versions). -/
def ciLow : List Nat := [0, 16, 1, 17, 2, 18, 3, 19, 4, 20, 5, 21, 6, 22, 7, 23]
/-- Interleaving of colours and indices, high half. -/
def ciHigh : List Nat := [8, 24, 9, 25, 10, 26, 11, 27, 12, 28, 13, 29, 14, 30, 15, 31]
/-- Interleaving of alpha and colours/indices, low half. -/
def blkLow : List Nat := [0, 8, 1, 9, 2, 10, 3, 11]
/-- Interleaving of alpha and colours/indices, high half. -/
def blkHigh : List Nat := [4, 12, 5, 13, 6, 14, 7, 15]

/-- `avx512_shuffle_with_components_intrinsics`, standard/untransform/avx512.rs:61-182. -/
def untransformAvx512IPtrs (inp : Buf) (ap0 cp0 xp0 : Nat) (out : Buf) (op0 len : Nat) : Option Buf := do
  let alignedLen := len - len % 256
  let alignedEnd := ap0 + alignedLen / 2
  let (ap, cp, xp, op, out) ← whileM (len + 1)
    (fun (ap, _, _, _, _) => decide (ap < alignedEnd))
    (fun ((ap, cp, xp, op, out) : Nat × Nat × Nat × Nat × Buf) => do
      let alpha0 ← ld inp ap 64
      let alpha1 ← ld inp (ap + 64) 64
      let colors ← ld inp cp 64
      let indices ← ld inp xp 64
      let ciL := permt2d ciLow colors indices
      let ciH := permt2d ciHigh colors indices
      let out ← st out op (permt2q blkLow alpha0 ciL)
      let out ← st out (op + 64) (permt2q blkHigh alpha0 ciL)
      let out ← st out (op + 128) (permt2q blkLow alpha1 ciH)
      let out ← st out (op + 192) (permt2q blkHigh alpha1 ciH)
      pure (ap + 128, cp + 64, xp + 64, op + 256, out)) (ap0, cp0, xp0, op0, out)
  untransformPtrs .little inp ap cp xp out op (len - alignedLen)

/-- `avx512_shuffle_with_components`, standard/untransform/avx512.rs:195-340 (x86-64); the rest is left
to the intrinsics version. -/
def untransformAvx512Ptrs (inp : Buf) (ap0 cp0 xp0 : Nat) (out : Buf) (op0 len : Nat) : Option Buf := do
  let alignedLen := len - len % 256
  let alignedEnd := ap0 + alignedLen / 2
  let (ap, cp, xp, op, out) ← asmLoop alignedLen (len + 1)
    (fun ((ap, cp, xp, op, out) : Nat × Nat × Nat × Nat × Buf) => do
      let colors ← ld inp cp 64
      let indices ← ld inp xp 64
      let alpha0 ← ld inp ap 64
      let alpha1 ← ld inp (ap + 64) 64
      let ciL := permt2d ciLow colors indices
      let ciH := permt2d ciHigh colors indices
      let out ← st out op (permt2q blkLow alpha0 ciL)
      let out ← st out (op + 64) (permt2q blkHigh alpha0 ciL)
      let out ← st out (op + 128) (permt2q blkLow alpha1 ciH)
      let out ← st out (op + 192) (permt2q blkHigh alpha1 ciH)
      pure (ap + 128, cp + 64, xp + 64, op + 256, out))
    (fun (ap, _, _, _, _) => decide (ap < alignedEnd))
    (ap0, cp0, xp0, op0, out)
  untransformAvx512IPtrs inp ap cp xp out op (len - alignedLen)

/-- `avx512_shuffle`, standard/untransform/avx512.rs:18-29 (`x64` is `target_arch = "x86_64"`). -/
def untransformAvx512 (x64 : Bool) (inp out : Buf) (len : Nat) : Option Buf :=
  if x64 then untransformAvx512Ptrs inp 0 (len / 2) (len / 2 + len / 4) out 0 len
  else untransformAvx512IPtrs inp 0 (len / 2) (len / 2 + len / 4) out 0 len

/-! ## Decorrelated colours -/

/-- `transform_decorr` and its callers, with_recorrelate/transform/sse2.rs:15-156. -/
def transformRecorrSse2 (inp : Buf) (ip0 : Nat) (out : Buf)
    (ap0 cp0 xp0 numBlocks : Nat) (v : Variant) : Option Buf := do
  if v = .none then none
  let inputEnd := ip0 + numBlocks / 4 * 4 * 16
  let (ip, ap, cp, xp, out) ← whileM (numBlocks + 1)
    (fun (ip, _, _, _, _) => decide (ip < inputEnd))
    (fun ((ip, ap, cp, xp, out) : Nat × Nat × Nat × Nat × Buf) => do
      let data0 ← ld inp ip 16
      let data1 ← ld inp (ip + 16) 16
      let data2 ← ld inp (ip + 32) 16
      let data3 ← ld inp (ip + 48) 16
      let alphas0 := punpcklqdq data0 data1
      let ci0 := punpckhqdq data0 data1
      let alphas1 := punpcklqdq data2 data3
      let ci1 := punpckhqdq data2 data3
      let colors0 := shufps 0x88 ci0 ci1
      let indices0 := shufps 0xDD ci0 ci1
      let colors0 := mapLanes (decorrSse2 v) colors0
      let out ← st out ap alphas0
      let out ← st out (ap + 16) alphas1
      let out ← st out cp colors0
      let out ← st out xp indices0
      pure (ip + 64, ap + 32, cp + 16, xp + 16, out)) (ip0, ap0, cp0, xp0, out)
  transformRecorrGeneric .little inp ip out ap cp xp (numBlocks % 4) v

/-- `untransform_recorr` and its callers, with_recorrelate/untransform/sse2.rs:13-156. -/
def untransformRecorrSse2 (inp : Buf) (ap0 cp0 xp0 : Nat) (out : Buf)
    (op0 numBlocks : Nat) (v : Variant) : Option Buf := do
  if v = .none then none
  let vectorized := numBlocks - numBlocks % 4
  let colorsEnd := cp0 + vectorized * 4
  let (ap, cp, xp, op, out) ← whileM (numBlocks + 1)
    (fun (_, cp, _, _, _) => decide (cp < colorsEnd))
    (fun ((ap, cp, xp, op, out) : Nat × Nat × Nat × Nat × Buf) => do
      let alpha0 ← ld inp ap 16
      let alpha1 ← ld inp (ap + 16) 16
      let colors0 ← ld inp cp 16
      let indices0 ← ld inp xp 16
      let colors0 := mapLanes (recorrSse2 v) colors0
      let ci0 := punpckldq colors0 indices0
      let ci1 := punpckhdq colors0 indices0
      let out ← st out op (punpcklqdq alpha0 ci0)
      let out ← st out (op + 16) (punpckhqdq alpha0 ci0)
      let out ← st out (op + 32) (punpcklqdq alpha1 ci1)
      let out ← st out (op + 48) (punpckhqdq alpha1 ci1)
      pure (ap + 32, cp + 16, xp + 16, op + 64, out)) (ap0, cp0, xp0, op0, out)
  untransformRecorrGeneric .little inp ap cp xp out op (numBlocks - vectorized) v

/-- `transform_decorr` and its callers, with_recorrelate/transform/avx2.rs:17-176. -/
def transformRecorrAvx2 (inp : Buf) (ip0 : Nat) (out : Buf)
    (ap0 cp0 xp0 numBlocks : Nat) (v : Variant) : Option Buf := do
  if v = .none then none
  let inputEnd := ip0 + numBlocks / 8 * 8 * 16
  let (ip, ap, cp, xp, out) ← whileM (numBlocks + 1)
    (fun (ip, _, _, _, _) => decide (ip < inputEnd))
    (fun ((ip, ap, cp, xp, out) : Nat × Nat × Nat × Nat × Buf) => do
      let data0 ← ld inp ip 32
      let data1 ← ld inp (ip + 32) 32
      let data2 ← ld inp (ip + 64) 32
      let data3 ← ld inp (ip + 96) 32
      let alphas0 := vpermq 0x8D (lanes2 punpcklqdq data1 data0)
      let ci0 := vshufps 0xEE data0 data1
      let alphas1 := vpermq 0x8D (lanes2 punpcklqdq data3 data2)
      let ci1 := vshufps 0xEE data2 data3
      let colors0 := vpermd [0, 4, 1, 5, 2, 6, 3, 7] (vshufps 0x88 ci0 ci1)
      let indices0 := vpermd [0, 4, 1, 5, 2, 6, 3, 7] (vshufps 0xDD ci0 ci1)
      let colors0 := mapLanes (decorrAvx2 v) colors0
      let out ← st out ap alphas0
      let out ← st out (ap + 32) alphas1
      let out ← st out cp colors0
      let out ← st out xp indices0
      pure (ip + 128, ap + 64, cp + 32, xp + 32, out)) (ip0, ap0, cp0, xp0, out)
  transformRecorrGeneric .little inp ip out ap cp xp (numBlocks % 8) v

/-- `untransform_recorr` and its callers, with_recorrelate/untransform/avx2.rs:17-154. -/
def untransformRecorrAvx2 (inp : Buf) (ap0 cp0 xp0 : Nat) (out : Buf)
    (op0 numBlocks : Nat) (v : Variant) : Option Buf := do
  if v = .none then none
  let vectorized := numBlocks - numBlocks % 8
  let alphasEnd := ap0 + vectorized * 8
  let (ap, cp, xp, op, out) ← whileM (numBlocks + 1)
    (fun (ap, _, _, _, _) => decide (ap < alphasEnd))
    (fun ((ap, cp, xp, op, out) : Nat × Nat × Nat × Nat × Buf) => do
      let alpha0 ← ld inp ap 32
      let alpha1 ← ld inp (ap + 32) 32
      let colors0 ← ld inp cp 32
      let indices0 ← ld inp xp 32
      let colors0 := mapLanes (recorrAvx2 v) colors0
      let ci0 := vpermd [0, 4, 2, 6, 1, 5, 3, 7] (vperm2i128 0x20 colors0 indices0)
      let ci1 := vpermd [0, 4, 2, 6, 1, 5, 3, 7] (vperm2i128 0x31 colors0 indices0)
      let alpha0 := vpermd [0, 1, 4, 5, 2, 3, 6, 7] alpha0
      let alpha1 := vpermd [0, 1, 4, 5, 2, 3, 6, 7] alpha1
      let out ← st out op (lanes2 punpcklqdq alpha0 ci0)
      let out ← st out (op + 32) (lanes2 punpckhqdq alpha0 ci0)
      let out ← st out (op + 64) (lanes2 punpcklqdq alpha1 ci1)
      let out ← st out (op + 96) (lanes2 punpckhqdq alpha1 ci1)
      pure (ap + 64, cp + 32, xp + 32, op + 128, out)) (ap0, cp0, xp0, op0, out)
  untransformRecorrGeneric .little inp ap cp xp out op (numBlocks - vectorized) v

/-- `transform_decorr` and its callers, with_recorrelate/transform/avx512bw.rs:27-182. -/
def transformRecorrAvx512 (inp : Buf) (ip0 : Nat) (out : Buf)
    (ap0 cp0 xp0 numBlocks : Nat) (v : Variant) : Option Buf := do
  if v = .none then none
  let inputEnd := ip0 + (numBlocks - numBlocks % 16) * 16
  let (ip, ap, cp, xp, out) ← whileM (numBlocks + 1)
    (fun (ip, _, _, _, _) => decide (ip < inputEnd))
    (fun ((ip, ap, cp, xp, out) : Nat × Nat × Nat × Nat × Buf) => do
      let data0 ← ld inp ip 64
      let data1 ← ld inp (ip + 64) 64
      let data2 ← ld inp (ip + 128) 64
      let data3 ← ld inp (ip + 192) 64
      let alphas0 := permt2q permAlpha data0 data1
      let ci0 := lanes2x4 punpckhqdq data0 data1
      let alphas1 := permt2q permAlpha data2 data3
      let ci1 := lanes2x4 punpckhqdq data2 data3
      let colors0 := permt2d permColors ci0 ci1
      let indices0 := permt2d permIndices ci0 ci1
      let colors0 := mapLanes (decorrAvx512 v) colors0
      let out ← st out ap alphas0
      let out ← st out (ap + 64) alphas1
      let out ← st out cp colors0
      let out ← st out xp indices0
      pure (ip + 256, ap + 128, cp + 64, xp + 64, out)) (ip0, ap0, cp0, xp0, out)
  transformRecorrGeneric .little inp ip out ap cp xp (numBlocks % 16) v

/-- `untransform_recorr` and its callers, with_recorrelate/untransform/avx512bw.rs:13-206. -/
def untransformRecorrAvx512 (inp : Buf) (ap0 cp0 xp0 : Nat) (out : Buf)
    (op0 numBlocks : Nat) (v : Variant) : Option Buf := do
  if v = .none then none
  let vectorized := numBlocks - numBlocks % 16
  let alphasEnd := ap0 + vectorized * 8
  let (ap, cp, xp, op, out) ← whileM (numBlocks + 1)
    (fun (ap, _, _, _, _) => decide (ap < alphasEnd))
    (fun ((ap, cp, xp, op, out) : Nat × Nat × Nat × Nat × Buf) => do
      let alpha0 ← ld inp ap 64
      let alpha1 ← ld inp (ap + 64) 64
      let colors0 ← ld inp cp 64
      let indices0 ← ld inp xp 64
      let colors0 := mapLanes (recorrAvx512 v) colors0
      let ci0 := permt2d ciLow colors0 indices0
      let ci1 := permt2d ciHigh colors0 indices0
      let out ← st out op (permt2q blkLow alpha0 ci0)
      let out ← st out (op + 64) (permt2q blkHigh alpha0 ci0)
      let out ← st out (op + 128) (permt2q blkLow alpha1 ci1)
      let out ← st out (op + 192) (permt2q blkHigh alpha1 ci1)
      pure (ap + 128, cp + 64, xp + 64, op + 256, out)) (ap0, cp0, xp0, op0, out)
  untransformRecorrGeneric .little inp ap cp xp out op (numBlocks - vectorized) v

/-! ## Split colour endpoints, without and with decorrelation -/

/-- `transform_with_split_colour`, with_split_colour/transform/sse2.rs:10-122. -/
def transformSplitSse2 (inp : Buf) (ip0 : Nat) (out : Buf)
    (ap0 c0p0 c1p0 xp0 blockCount : Nat) : Option Buf := do
  let inputEnd := ip0 + blockCount / 8 * 8 * 16
  let (ip, ap, c0p, c1p, xp, out) ← whileM (blockCount + 1)
    (fun (ip, _, _, _, _, _) => decide (ip < inputEnd))
    (fun ((ip, ap, c0p, c1p, xp, out) : Nat × Nat × Nat × Nat × Nat × Buf) => do
      let data0 ← ld inp ip 16
      let data1 ← ld inp (ip + 16) 16
      let data2 ← ld inp (ip + 32) 16
      let data3 ← ld inp (ip + 48) 16
      let data4 ← ld inp (ip + 64) 16
      let data5 ← ld inp (ip + 80) 16
      let data6 ← ld inp (ip + 96) 16
      let data7 ← ld inp (ip + 112) 16
      let alphas0 := punpcklqdq data0 data1
      let ci0 := punpckhqdq data0 data1
      let alphas1 := punpcklqdq data2 data3
      let ci1 := punpckhqdq data2 data3
      let alphas2 := punpcklqdq data4 data5
      let ci2 := punpckhqdq data4 data5
      let alphas3 := punpcklqdq data6 data7
      let ci3 := punpckhqdq data6 data7
      let colors0 := shufps 0x88 ci0 ci1
      let indices0 := shufps 0xDD ci0 ci1
      let colors1 := shufps 0x88 ci2 ci3
      let indices1 := shufps 0xDD ci2 ci3
      let grouped0 := pshufhw 0xD8 (pshuflw 0xD8 colors0)
      let grouped1 := pshufhw 0xD8 (pshuflw 0xD8 colors1)
      let color0s := shufps 0x88 grouped0 grouped1
      let color1s := shufps 0xDD grouped0 grouped1
      let out ← st out ap alphas0
      let out ← st out (ap + 16) alphas1
      let out ← st out (ap + 32) alphas2
      let out ← st out (ap + 48) alphas3
      let out ← st out c0p color0s
      let out ← st out c1p color1s
      let out ← st out xp indices0
      let out ← st out (xp + 16) indices1
      pure (ip + 128, ap + 64, c0p + 16, c1p + 16, xp + 32, out)) (ip0, ap0, c0p0, c1p0, xp0, out)
  transformSplitGeneric .little inp ip out ap c0p c1p xp (blockCount % 8)

/-- `untransform_with_split_colour`, with_split_colour/untransform/sse2.rs:10-84. -/
def untransformSplitSse2 (inp : Buf) (ap0 c0p0 c1p0 xp0 : Nat) (out : Buf)
    (op0 blockCount : Nat) : Option Buf := do
  let loopEnd := op0 + blockCount / 8 * 8 * 16
  let (ap, c0p, c1p, xp, op, out) ← whileM (blockCount + 1)
    (fun (_, _, _, _, op, _) => decide (op < loopEnd))
    (fun ((ap, c0p, c1p, xp, op, out) : Nat × Nat × Nat × Nat × Nat × Buf) => do
      let alpha0 ← ld inp ap 16
      let alpha1 ← ld inp (ap + 16) 16
      let alpha2 ← ld inp (ap + 32) 16
      let alpha3 ← ld inp (ap + 48) 16
      let color0s ← ld inp c0p 16
      let color1s ← ld inp c1p 16
      let indices0 ← ld inp xp 16
      let indices1 ← ld inp (xp + 16) 16
      let colors0 := punpcklwd color0s color1s
      let colors1 := punpckhwd color0s color1s
      let ci0 := punpckldq colors0 indices0
      let ci1 := punpckhdq colors0 indices0
      let ci2 := punpckldq colors1 indices1
      let ci3 := punpckhdq colors1 indices1
      let out ← st out op (punpcklqdq alpha0 ci0)
      let out ← st out (op + 16) (punpckhqdq alpha0 ci0)
      let out ← st out (op + 32) (punpcklqdq alpha1 ci1)
      let out ← st out (op + 48) (punpckhqdq alpha1 ci1)
      let out ← st out (op + 64) (punpcklqdq alpha2 ci2)
      let out ← st out (op + 80) (punpckhqdq alpha2 ci2)
      let out ← st out (op + 96) (punpcklqdq alpha3 ci3)
      let out ← st out (op + 112) (punpckhqdq alpha3 ci3)
      pure (ap + 64, c0p + 16, c1p + 16, xp + 32, op + 128, out)) (ap0, c0p0, c1p0, xp0, op0, out)
  untransformSplitGeneric .little inp ap c0p c1p xp out op (blockCount % 8)

/-- `transform_with_split_colour`, with_split_colour/transform/avx2.rs:13-177. -/
def transformSplitAvx2 (inp : Buf) (ip0 : Nat) (out : Buf)
    (ap0 c0p0 c1p0 xp0 blockCount : Nat) : Option Buf := do
  let inputEnd := ip0 + blockCount / 16 * 16 * 16
  let (ip, ap, c0p, c1p, xp, out) ← whileM (blockCount + 1)
    (fun (ip, _, _, _, _, _) => decide (ip < inputEnd))
    (fun ((ip, ap, c0p, c1p, xp, out) : Nat × Nat × Nat × Nat × Nat × Buf) => do
      let data0 ← ld inp ip 32
      let data1 ← ld inp (ip + 32) 32
      let data2 ← ld inp (ip + 64) 32
      let data3 ← ld inp (ip + 96) 32
      let data4 ← ld inp (ip + 128) 32
      let data5 ← ld inp (ip + 160) 32
      let data6 ← ld inp (ip + 192) 32
      let data7 ← ld inp (ip + 224) 32
      let alphas0 := vpermq 0x8D (lanes2 punpcklqdq data1 data0)
      let ci0 := vshufps 0xEE data0 data1
      let alphas1 := vpermq 0x8D (lanes2 punpcklqdq data3 data2)
      let ci1 := vshufps 0xEE data2 data3
      let alphas2 := vpermq 0x8D (lanes2 punpcklqdq data5 data4)
      let ci2 := vshufps 0xEE data4 data5
      let alphas3 := vpermq 0x8D (lanes2 punpcklqdq data7 data6)
      let ci3 := vshufps 0xEE data6 data7
      let colors0 := vpermd [0, 4, 1, 5, 2, 6, 3, 7] (vshufps 0x88 ci0 ci1)
      let indices0 := vpermd [0, 4, 1, 5, 2, 6, 3, 7] (vshufps 0xDD ci0 ci1)
      let colors1 := vpermd [0, 4, 1, 5, 2, 6, 3, 7] (vshufps 0x88 ci2 ci3)
      let indices1 := vpermd [0, 4, 1, 5, 2, 6, 3, 7] (vshufps 0xDD ci2 ci3)
      let grouped0 := lanes1 (pshufhw 0xD8) (lanes1 (pshuflw 0xD8) colors0)
      let grouped1 := lanes1 (pshufhw 0xD8) (lanes1 (pshuflw 0xD8) colors1)
      let color0s := vpermq 0xD8 (vshufps 0x88 grouped0 grouped1)
      let color1s := vpermq 0xD8 (vshufps 0xDD grouped0 grouped1)
      let out ← st out ap alphas0
      let out ← st out (ap + 32) alphas1
      let out ← st out (ap + 64) alphas2
      let out ← st out (ap + 96) alphas3
      let out ← st out c0p color0s
      let out ← st out c1p color1s
      let out ← st out xp indices0
      let out ← st out (xp + 32) indices1
      pure (ip + 256, ap + 128, c0p + 32, c1p + 32, xp + 64, out)) (ip0, ap0, c0p0, c1p0, xp0, out)
  transformSplitGeneric .little inp ip out ap c0p c1p xp (blockCount % 16)

/-- `untransform_with_split_colour`, with_split_colour/untransform/avx2.rs:10-140. -/
def untransformSplitAvx2 (inp : Buf) (ap0 c0p0 c1p0 xp0 : Nat) (out : Buf)
    (op0 blockCount : Nat) : Option Buf := do
  let loopEnd := op0 + blockCount / 16 * 16 * 16
  let (ap, c0p, c1p, xp, op, out) ← whileM (blockCount + 1)
    (fun (_, _, _, _, op, _) => decide (op < loopEnd))
    (fun ((ap, c0p, c1p, xp, op, out) : Nat × Nat × Nat × Nat × Nat × Buf) => do
      let alpha0 ← ld inp ap 32
      let alpha1 ← ld inp (ap + 32) 32
      let alpha2 ← ld inp (ap + 64) 32
      let alpha3 ← ld inp (ap + 96) 32
      let color0s ← ld inp c0p 32
      let color1s ← ld inp c1p 32
      let indices0 ← ld inp xp 32
      let indices1 ← ld inp (xp + 32) 32
      let laned0 := lanes2 punpcklwd color0s color1s
      let laned1 := lanes2 punpckhwd color0s color1s
      let colors0 := vperm2i128 0x20 laned0 laned1
      let colors1 := vperm2i128 0x31 laned0 laned1
      let ci0 := vpermd [0, 4, 2, 6, 1, 5, 3, 7] (vperm2i128 0x20 colors0 indices0)
      let ci1 := vpermd [0, 4, 2, 6, 1, 5, 3, 7] (vperm2i128 0x31 colors0 indices0)
      let ci2 := vpermd [0, 4, 2, 6, 1, 5, 3, 7] (vperm2i128 0x20 colors1 indices1)
      let ci3 := vpermd [0, 4, 2, 6, 1, 5, 3, 7] (vperm2i128 0x31 colors1 indices1)
      let alpha0 := vpermd [0, 1, 4, 5, 2, 3, 6, 7] alpha0
      let alpha1 := vpermd [0, 1, 4, 5, 2, 3, 6, 7] alpha1
      let alpha2 := vpermd [0, 1, 4, 5, 2, 3, 6, 7] alpha2
      let alpha3 := vpermd [0, 1, 4, 5, 2, 3, 6, 7] alpha3
      let out ← st out op (lanes2 punpcklqdq alpha0 ci0)
      let out ← st out (op + 32) (lanes2 punpckhqdq alpha0 ci0)
      let out ← st out (op + 64) (lanes2 punpcklqdq alpha1 ci1)
      let out ← st out (op + 96) (lanes2 punpckhqdq alpha1 ci1)
      let out ← st out (op + 128) (lanes2 punpcklqdq alpha2 ci2)
      let out ← st out (op + 160) (lanes2 punpckhqdq alpha2 ci2)
      let out ← st out (op + 192) (lanes2 punpcklqdq alpha3 ci3)
      let out ← st out (op + 224) (lanes2 punpckhqdq alpha3 ci3)
      pure (ap + 128, c0p + 32, c1p + 32, xp + 64, op + 256, out)) (ap0, c0p0, c1p0, xp0, op0, out)
  untransformSplitGeneric .little inp ap c0p c1p xp out op (blockCount % 16)

/-- `transform_with_split_colour`, with_split_colour/transform/avx512bw.rs:100-209 (tables 7-91,
the word tables are those of BC1). -/
def transformSplitAvx512 (inp : Buf) (ip0 : Nat) (out : Buf)
    (ap0 c0p0 c1p0 xp0 blockCount : Nat) : Option Buf := do
  let inputEnd := ip0 + blockCount / 32 * 32 * 16
  let (ip, ap, c0p, c1p, xp, out) ← whileM (blockCount + 1)
    (fun (ip, _, _, _, _, _) => decide (ip < inputEnd))
    (fun ((ip, ap, c0p, c1p, xp, out) : Nat × Nat × Nat × Nat × Nat × Buf) => do
      let data0 ← ld inp ip 64
      let data1 ← ld inp (ip + 64) 64
      let data2 ← ld inp (ip + 128) 64
      let data3 ← ld inp (ip + 192) 64
      let data4 ← ld inp (ip + 256) 64
      let data5 ← ld inp (ip + 320) 64
      let data6 ← ld inp (ip + 384) 64
      let data7 ← ld inp (ip + 448) 64
      let alphas0 := permt2q permAlpha data0 data1
      let ci0 := lanes2x4 punpckhqdq data0 data1
      let alphas1 := permt2q permAlpha data2 data3
      let ci1 := lanes2x4 punpckhqdq data2 data3
      let alphas2 := permt2q permAlpha data4 data5
      let ci2 := lanes2x4 punpckhqdq data4 data5
      let alphas3 := permt2q permAlpha data6 data7
      let ci3 := lanes2x4 punpckhqdq data6 data7
      let colors0 := permt2d permColors ci0 ci1
      let indices0 := permt2d permIndices ci0 ci1
      let colors1 := permt2d permColors ci2 ci3
      let indices1 := permt2d permIndices ci2 ci3
      let color0s := permt2w Bc1.permColor0 colors0 colors1
      let color1s := permt2w Bc1.permColor1 colors0 colors1
      let out ← st out ap alphas0
      let out ← st out (ap + 64) alphas1
      let out ← st out (ap + 128) alphas2
      let out ← st out (ap + 192) alphas3
      let out ← st out c0p color0s
      let out ← st out c1p color1s
      let out ← st out xp indices0
      let out ← st out (xp + 64) indices1
      pure (ip + 512, ap + 256, c0p + 64, c1p + 64, xp + 128, out)) (ip0, ap0, c0p0, c1p0, xp0, out)
  transformSplitGeneric .little inp ip out ap c0p c1p xp (blockCount % 32)

/-- `untransform_with_split_colour`, with_split_colour/untransform/avx512bw.rs:16-265 (the word tables
of lines 54-196 are those of BC1). -/
def untransformSplitAvx512 (inp : Buf) (ap0 c0p0 c1p0 xp0 : Nat) (out : Buf)
    (op0 blockCount : Nat) : Option Buf := do
  let vectorized := blockCount - blockCount % 32
  let loopEnd := ap0 + vectorized * 8
  let (ap, c0p, c1p, xp, op, out) ← whileM (blockCount + 1)
    (fun (ap, _, _, _, _, _) => decide (ap < loopEnd))
    (fun ((ap, c0p, c1p, xp, op, out) : Nat × Nat × Nat × Nat × Nat × Buf) => do
      let alpha0 ← ld inp ap 64
      let alpha1 ← ld inp (ap + 64) 64
      let alpha2 ← ld inp (ap + 128) 64
      let alpha3 ← ld inp (ap + 192) 64
      let color0s ← ld inp c0p 64
      let color1s ← ld inp c1p 64
      let indices0 ← ld inp xp 64
      let indices1 ← ld inp (xp + 64) 64
      let colors0 := permt2w Bc1.interleaveLow color0s color1s
      let colors1 := permt2w Bc1.interleaveHigh color0s color1s
      let ci0 := permt2w Bc1.permOutput0 colors0 indices0
      let ci1 := permt2w Bc1.permOutput1 colors0 indices0
      let ci2 := permt2w Bc1.permOutput0 colors1 indices1
      let ci3 := permt2w Bc1.permOutput1 colors1 indices1
      let out ← st out op (permt2q blkLow alpha0 ci0)
      let out ← st out (op + 64) (permt2q blkHigh alpha0 ci0)
      let out ← st out (op + 128) (permt2q blkLow alpha1 ci1)
      let out ← st out (op + 192) (permt2q blkHigh alpha1 ci1)
      let out ← st out (op + 256) (permt2q blkLow alpha2 ci2)
      let out ← st out (op + 320) (permt2q blkHigh alpha2 ci2)
      let out ← st out (op + 384) (permt2q blkLow alpha3 ci3)
      let out ← st out (op + 448) (permt2q blkHigh alpha3 ci3)
      pure (ap + 256, c0p + 64, c1p + 64, xp + 128, op + 512, out)) (ap0, c0p0, c1p0, xp0, op0, out)
  untransformSplitGeneric .little inp ap c0p c1p xp out op (blockCount - vectorized)

/-- `transform_split_colour_and_decorr` and its callers, with_split_colour_and_recorr/transform/sse2.rs:15-250. -/
def transformSplitRecorrSse2 (inp : Buf) (ip0 : Nat) (out : Buf)
    (ap0 c0p0 c1p0 xp0 blockCount : Nat) (v : Variant) : Option Buf := do
  if v = .none then none
  let inputEnd := ip0 + blockCount / 8 * 8 * 16
  let (ip, ap, c0p, c1p, xp, out) ← whileM (blockCount + 1)
    (fun (ip, _, _, _, _, _) => decide (ip < inputEnd))
    (fun ((ip, ap, c0p, c1p, xp, out) : Nat × Nat × Nat × Nat × Nat × Buf) => do
      let data0 ← ld inp ip 16
      let data1 ← ld inp (ip + 16) 16
      let data2 ← ld inp (ip + 32) 16
      let data3 ← ld inp (ip + 48) 16
      let data4 ← ld inp (ip + 64) 16
      let data5 ← ld inp (ip + 80) 16
      let data6 ← ld inp (ip + 96) 16
      let data7 ← ld inp (ip + 112) 16
      let alphas0 := punpcklqdq data0 data1
      let ci0 := punpckhqdq data0 data1
      let alphas1 := punpcklqdq data2 data3
      let ci1 := punpckhqdq data2 data3
      let alphas2 := punpcklqdq data4 data5
      let ci2 := punpckhqdq data4 data5
      let alphas3 := punpcklqdq data6 data7
      let ci3 := punpckhqdq data6 data7
      let colors0 := shufps 0x88 ci0 ci1
      let indices0 := shufps 0xDD ci0 ci1
      let colors1 := shufps 0x88 ci2 ci3
      let indices1 := shufps 0xDD ci2 ci3
      let colors0 := mapLanes (decorrSse2 v) colors0
      let colors1 := mapLanes (decorrSse2 v) colors1
      let grouped0 := pshufhw 0xD8 (pshuflw 0xD8 colors0)
      let grouped1 := pshufhw 0xD8 (pshuflw 0xD8 colors1)
      let color0s := shufps 0x88 grouped0 grouped1
      let color1s := shufps 0xDD grouped0 grouped1
      let out ← st out ap alphas0
      let out ← st out (ap + 16) alphas1
      let out ← st out (ap + 32) alphas2
      let out ← st out (ap + 48) alphas3
      let out ← st out c0p color0s
      let out ← st out c1p color1s
      let out ← st out xp indices0
      let out ← st out (xp + 16) indices1
      pure (ip + 128, ap + 64, c0p + 16, c1p + 16, xp + 32, out)) (ip0, ap0, c0p0, c1p0, xp0, out)
  transformSplitRecorrGeneric .little inp ip out ap c0p c1p xp (blockCount % 8) v

/-- `untransform_split_colour_recorr` and its callers,
with_split_colour_and_recorr/untransform/sse2.rs:13-210. -/
def untransformSplitRecorrSse2 (inp : Buf) (ap0 c0p0 c1p0 xp0 : Nat) (out : Buf)
    (op0 blockCount : Nat) (v : Variant) : Option Buf := do
  if v = .none then none
  let loopEnd := op0 + blockCount / 8 * 8 * 16
  let (ap, c0p, c1p, xp, op, out) ← whileM (blockCount + 1)
    (fun (_, _, _, _, op, _) => decide (op < loopEnd))
    (fun ((ap, c0p, c1p, xp, op, out) : Nat × Nat × Nat × Nat × Nat × Buf) => do
      let alpha0 ← ld inp ap 16
      let alpha1 ← ld inp (ap + 16) 16
      let alpha2 ← ld inp (ap + 32) 16
      let alpha3 ← ld inp (ap + 48) 16
      let color0s ← ld inp c0p 16
      let color1s ← ld inp c1p 16
      let colors0 := punpcklwd color0s color1s
      let colors1 := punpckhwd color0s color1s
      let colors0 := mapLanes (recorrSse2 v) colors0
      let colors1 := mapLanes (recorrSse2 v) colors1
      let indices0 ← ld inp xp 16
      let indices1 ← ld inp (xp + 16) 16
      let ci0 := punpckldq colors0 indices0
      let ci1 := punpckhdq colors0 indices0
      let ci2 := punpckldq colors1 indices1
      let ci3 := punpckhdq colors1 indices1
      let out ← st out op (punpcklqdq alpha0 ci0)
      let out ← st out (op + 16) (punpckhqdq alpha0 ci0)
      let out ← st out (op + 32) (punpcklqdq alpha1 ci1)
      let out ← st out (op + 48) (punpckhqdq alpha1 ci1)
      let out ← st out (op + 64) (punpcklqdq alpha2 ci2)
      let out ← st out (op + 80) (punpckhqdq alpha2 ci2)
      let out ← st out (op + 96) (punpcklqdq alpha3 ci3)
      let out ← st out (op + 112) (punpckhqdq alpha3 ci3)
      pure (ap + 64, c0p + 16, c1p + 16, xp + 32, op + 128, out)) (ap0, c0p0, c1p0, xp0, op0, out)
  untransformSplitRecorrGeneric .little inp ap c0p c1p xp out op (blockCount % 8) v

/-- `transform_split_colour_and_decorr` and its callers, with_split_colour_and_recorr/transform/avx2.rs:15-304. -/
def transformSplitRecorrAvx2 (inp : Buf) (ip0 : Nat) (out : Buf)
    (ap0 c0p0 c1p0 xp0 blockCount : Nat) (v : Variant) : Option Buf := do
  if v = .none then none
  let inputEnd := ip0 + blockCount / 16 * 16 * 16
  let (ip, ap, c0p, c1p, xp, out) ← whileM (blockCount + 1)
    (fun (ip, _, _, _, _, _) => decide (ip < inputEnd))
    (fun ((ip, ap, c0p, c1p, xp, out) : Nat × Nat × Nat × Nat × Nat × Buf) => do
      let data0 ← ld inp ip 32
      let data1 ← ld inp (ip + 32) 32
      let data2 ← ld inp (ip + 64) 32
      let data3 ← ld inp (ip + 96) 32
      let data4 ← ld inp (ip + 128) 32
      let data5 ← ld inp (ip + 160) 32
      let data6 ← ld inp (ip + 192) 32
      let data7 ← ld inp (ip + 224) 32
      let alphas0 := vpermq 0x8D (lanes2 punpcklqdq data1 data0)
      let ci0 := vshufps 0xEE data0 data1
      let alphas1 := vpermq 0x8D (lanes2 punpcklqdq data3 data2)
      let ci1 := vshufps 0xEE data2 data3
      let alphas2 := vpermq 0x8D (lanes2 punpcklqdq data5 data4)
      let ci2 := vshufps 0xEE data4 data5
      let alphas3 := vpermq 0x8D (lanes2 punpcklqdq data7 data6)
      let ci3 := vshufps 0xEE data6 data7
      let colors0 := vpermd [0, 4, 1, 5, 2, 6, 3, 7] (vshufps 0x88 ci0 ci1)
      let indices0 := vpermd [0, 4, 1, 5, 2, 6, 3, 7] (vshufps 0xDD ci0 ci1)
      let colors1 := vpermd [0, 4, 1, 5, 2, 6, 3, 7] (vshufps 0x88 ci2 ci3)
      let indices1 := vpermd [0, 4, 1, 5, 2, 6, 3, 7] (vshufps 0xDD ci2 ci3)
      let colors0 := mapLanes (decorrAvx2 v) colors0
      let colors1 := mapLanes (decorrAvx2 v) colors1
      let grouped0 := lanes1 (pshufhw 0xD8) (lanes1 (pshuflw 0xD8) colors0)
      let grouped1 := lanes1 (pshufhw 0xD8) (lanes1 (pshuflw 0xD8) colors1)
      let color0s := vpermq 0xD8 (vshufps 0x88 grouped0 grouped1)
      let color1s := vpermq 0xD8 (vshufps 0xDD grouped0 grouped1)
      let out ← st out ap alphas0
      let out ← st out (ap + 32) alphas1
      let out ← st out (ap + 64) alphas2
      let out ← st out (ap + 96) alphas3
      let out ← st out c0p color0s
      let out ← st out c1p color1s
      let out ← st out xp indices0
      let out ← st out (xp + 32) indices1
      pure (ip + 256, ap + 128, c0p + 32, c1p + 32, xp + 64, out)) (ip0, ap0, c0p0, c1p0, xp0, out)
  transformSplitRecorrGeneric .little inp ip out ap c0p c1p xp (blockCount % 16) v

/-- `untransform_split_colour_recorr` and its callers,
with_split_colour_and_recorr/untransform/avx2.rs:15-273. -/
def untransformSplitRecorrAvx2 (inp : Buf) (ap0 c0p0 c1p0 xp0 : Nat) (out : Buf)
    (op0 blockCount : Nat) (v : Variant) : Option Buf := do
  if v = .none then none
  let loopEnd := op0 + blockCount / 16 * 16 * 16
  let (ap, c0p, c1p, xp, op, out) ← whileM (blockCount + 1)
    (fun (_, _, _, _, op, _) => decide (op < loopEnd))
    (fun ((ap, c0p, c1p, xp, op, out) : Nat × Nat × Nat × Nat × Nat × Buf) => do
      let alpha0 ← ld inp ap 32
      let alpha1 ← ld inp (ap + 32) 32
      let alpha2 ← ld inp (ap + 64) 32
      let alpha3 ← ld inp (ap + 96) 32
      let color0s ← ld inp c0p 32
      let color1s ← ld inp c1p 32
      let indices0 ← ld inp xp 32
      let indices1 ← ld inp (xp + 32) 32
      let color0s := mapLanes (recorrAvx2 v) color0s
      let color1s := mapLanes (recorrAvx2 v) color1s
      let laned0 := lanes2 punpcklwd color0s color1s
      let laned1 := lanes2 punpckhwd color0s color1s
      let colors0 := vperm2i128 0x20 laned0 laned1
      let colors1 := vperm2i128 0x31 laned0 laned1
      let ci0 := vpermd [0, 4, 2, 6, 1, 5, 3, 7] (vperm2i128 0x20 colors0 indices0)
      let ci1 := vpermd [0, 4, 2, 6, 1, 5, 3, 7] (vperm2i128 0x31 colors0 indices0)
      let ci2 := vpermd [0, 4, 2, 6, 1, 5, 3, 7] (vperm2i128 0x20 colors1 indices1)
      let ci3 := vpermd [0, 4, 2, 6, 1, 5, 3, 7] (vperm2i128 0x31 colors1 indices1)
      let alpha0 := vpermd [0, 1, 4, 5, 2, 3, 6, 7] alpha0
      let alpha1 := vpermd [0, 1, 4, 5, 2, 3, 6, 7] alpha1
      let alpha2 := vpermd [0, 1, 4, 5, 2, 3, 6, 7] alpha2
      let alpha3 := vpermd [0, 1, 4, 5, 2, 3, 6, 7] alpha3
      let out ← st out op (lanes2 punpcklqdq alpha0 ci0)
      let out ← st out (op + 32) (lanes2 punpckhqdq alpha0 ci0)
      let out ← st out (op + 64) (lanes2 punpcklqdq alpha1 ci1)
      let out ← st out (op + 96) (lanes2 punpckhqdq alpha1 ci1)
      let out ← st out (op + 128) (lanes2 punpcklqdq alpha2 ci2)
      let out ← st out (op + 160) (lanes2 punpckhqdq alpha2 ci2)
      let out ← st out (op + 192) (lanes2 punpcklqdq alpha3 ci3)
      let out ← st out (op + 224) (lanes2 punpckhqdq alpha3 ci3)
      pure (ap + 128, c0p + 32, c1p + 32, xp + 64, op + 256, out)) (ap0, c0p0, c1p0, xp0, op0, out)
  untransformSplitRecorrGeneric .little inp ap c0p c1p xp out op (blockCount % 16) v

/-- `transform_impl` and its callers, with_split_colour_and_recorr/transform/avx512bw.rs:13-339. -/
def transformSplitRecorrAvx512 (inp : Buf) (ip0 : Nat) (out : Buf)
    (ap0 c0p0 c1p0 xp0 blockCount : Nat) (v : Variant) : Option Buf := do
  if v = .none then none
  let inputEnd := ip0 + blockCount / 32 * 32 * 16
  let (ip, ap, c0p, c1p, xp, out) ← whileM (blockCount + 1)
    (fun (ip, _, _, _, _, _) => decide (ip < inputEnd))
    (fun ((ip, ap, c0p, c1p, xp, out) : Nat × Nat × Nat × Nat × Nat × Buf) => do
      let data0 ← ld inp ip 64
      let data1 ← ld inp (ip + 64) 64
      let data2 ← ld inp (ip + 128) 64
      let data3 ← ld inp (ip + 192) 64
      let data4 ← ld inp (ip + 256) 64
      let data5 ← ld inp (ip + 320) 64
      let data6 ← ld inp (ip + 384) 64
      let data7 ← ld inp (ip + 448) 64
      let alphas0 := permt2q permAlpha data0 data1
      let ci0 := lanes2x4 punpckhqdq data0 data1
      let alphas1 := permt2q permAlpha data2 data3
      let ci1 := lanes2x4 punpckhqdq data2 data3
      let alphas2 := permt2q permAlpha data4 data5
      let ci2 := lanes2x4 punpckhqdq data4 data5
      let alphas3 := permt2q permAlpha data6 data7
      let ci3 := lanes2x4 punpckhqdq data6 data7
      let colors0 := permt2d permColors ci0 ci1
      let indices0 := permt2d permIndices ci0 ci1
      let colors1 := permt2d permColors ci2 ci3
      let indices1 := permt2d permIndices ci2 ci3
      let color0s := permt2w Bc1.permColor0 colors0 colors1
      let color1s := permt2w Bc1.permColor1 colors0 colors1
      let color0s := mapLanes (decorrAvx512 v) color0s
      let color1s := mapLanes (decorrAvx512 v) color1s
      let out ← st out ap alphas0
      let out ← st out (ap + 64) alphas1
      let out ← st out (ap + 128) alphas2
      let out ← st out (ap + 192) alphas3
      let out ← st out c0p color0s
      let out ← st out c1p color1s
      let out ← st out xp indices0
      let out ← st out (xp + 64) indices1
      pure (ip + 512, ap + 256, c0p + 64, c1p + 64, xp + 128, out)) (ip0, ap0, c0p0, c1p0, xp0, out)
  transformSplitRecorrGeneric .little inp ip out ap c0p c1p xp (blockCount % 32) v

/-- `untransform_split_colour_recorr` and its callers,
with_split_colour_and_recorr/untransform/avx512bw.rs:17-398. -/
def untransformSplitRecorrAvx512 (inp : Buf) (ap0 c0p0 c1p0 xp0 : Nat) (out : Buf)
    (op0 blockCount : Nat) (v : Variant) : Option Buf := do
  if v = .none then none
  let vectorized := blockCount - blockCount % 32
  let loopEnd := ap0 + vectorized * 8
  let (ap, c0p, c1p, xp, op, out) ← whileM (blockCount + 1)
    (fun (ap, _, _, _, _, _) => decide (ap < loopEnd))
    (fun ((ap, c0p, c1p, xp, op, out) : Nat × Nat × Nat × Nat × Nat × Buf) => do
      let alpha0 ← ld inp ap 64
      let alpha1 ← ld inp (ap + 64) 64
      let alpha2 ← ld inp (ap + 128) 64
      let alpha3 ← ld inp (ap + 192) 64
      let color0s ← ld inp c0p 64
      let color1s ← ld inp c1p 64
      let indices0 ← ld inp xp 64
      let indices1 ← ld inp (xp + 64) 64
      let color0s := mapLanes (recorrAvx512 v) color0s
      let color1s := mapLanes (recorrAvx512 v) color1s
      let colors0 := permt2w Bc1.interleaveLow color0s color1s
      let colors1 := permt2w Bc1.interleaveHigh color0s color1s
      let ci0 := permt2w Bc1.permOutput0 colors0 indices0
      let ci1 := permt2w Bc1.permOutput1 colors0 indices0
      let ci2 := permt2w Bc1.permOutput0 colors1 indices1
      let ci3 := permt2w Bc1.permOutput1 colors1 indices1
      let out ← st out op (permt2q blkLow alpha0 ci0)
      let out ← st out (op + 64) (permt2q blkHigh alpha0 ci0)
      let out ← st out (op + 128) (permt2q blkLow alpha1 ci1)
      let out ← st out (op + 192) (permt2q blkHigh alpha1 ci1)
      let out ← st out (op + 256) (permt2q blkLow alpha2 ci2)
      let out ← st out (op + 320) (permt2q blkHigh alpha2 ci2)
      let out ← st out (op + 384) (permt2q blkLow alpha3 ci3)
      let out ← st out (op + 448) (permt2q blkHigh alpha3 ci3)
      pure (ap + 256, c0p + 64, c1p + 64, xp + 128, op + 512, out)) (ap0, c0p0, c1p0, xp0, op0, out)
  untransformSplitRecorrGeneric .little inp ap c0p c1p xp out op (blockCount - vectorized) v

end Dlt.Bc2
