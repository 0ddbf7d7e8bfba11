import Verif.Model.Simd
import Verif.Model.Machine
/-!
# Splitting colour endpoints

Models `/repo/src/core/dxt-lossless-transform-common/src/transforms/split_565_color_endpoints/`.

Simplification: the vector versions compute `end_ptr.sub(64)` before comparing with the input pointer.
For fewer than 64 bytes that pointer lies before the buffer (formally undefined in Rust); the model takes
the comparison `input_ptr < end_ptr - 64` as one of integers, i.e. addresses do not wrap around.
-/

namespace Dlt.Split
open Simd

/-- `get_first2bytes`, portable32.rs:72-76 (big-endian) and 84-88 (little-endian). -/
def getFirst : Endian → U32 → U16
  | .little, w => w.setWidth 16
  | .big, w => (w >>> 16).setWidth 16

/-- `get_second2bytes`, portable32.rs:66-70 (big-endian) and 78-82 (little-endian). -/
def getSecond : Endian → U32 → U16
  | .little, w => (w >>> 16).setWidth 16
  | .big, w => w.setWidth 16

/-- `u32_with_separate_endpoints`, portable32.rs:49-64. -/
def portablePtrs (e : Endian) (inp : Buf) (maxIp ip0 : Nat) (out : Buf) (p0 p1 : Nat) : Option Buf := do
  let (_, _, _, out) ← whileM (maxIp + 1) (fun ((ip, _, _, _) : Nat × Nat × Nat × Buf) => decide (ip < maxIp))
    (fun ((ip, p0, p1, out) : Nat × Nat × Nat × Buf) => do
      let color0 ← ld32 e inp ip
      let ip := ip + 4
      let out ← st16 e out p0 (getFirst e color0)
      let p0 := p0 + 2
      let out ← st16 e out p1 (getSecond e color0)
      let p1 := p1 + 2
      pure (ip, p0, p1, out)) (ip0, p0, p1, out)
  pure out

/-- `u32`, portable32.rs:18-32 (`size_of::<Color565>()` is 2). -/
def portable (e : Endian) (inp out : Buf) (len : Nat) : Option Buf :=
  portablePtrs e inp len 0 out 0 (len / 2)

/-- `sse2_shuf_unroll2_impl_asm`, sse2.rs:21-119. -/
def sse2 (inp out : Buf) (len : Nat) : Option Buf := do
  let (ip, lo, hi, out) ← asmLoop (len - 64) (len + 1)
    (fun ((ip, lo, hi, out) : Nat × Nat × Nat × Buf) => do
      let xmm0 ← ld inp ip 16
      let xmm1 ← ld inp (ip + 16) 16
      let xmm3 ← ld inp (ip + 48) 16
      let xmm2 ← ld inp (ip + 32) 16
      let ip := ip + 64
      let xmm0 := pshuflw 216 xmm0
      let xmm1 := pshuflw 216 xmm1
      let xmm3 := pshuflw 216 xmm3
      let xmm0 := pshufhw 39 xmm0
      let xmm1 := pshufhw 39 xmm1
      let xmm3 := pshufhw 39 xmm3
      let xmm0 := pshufd 108 xmm0
      let xmm1 := pshufd 108 xmm1
      let xmm3 := pshufd 108 xmm3
      let xmm4 := pshufhw 30 xmm0
      let xmm5 := pshufhw 30 xmm1
      let xmm0 := pshuflw 180 xmm0
      let xmm1 := pshuflw 180 xmm1
      let xmm0 := punpcklqdq xmm0 xmm1
      let xmm1 := pshuflw 216 xmm2
      let xmm5 := movhlps xmm5 xmm4
      let xmm4 := pshufhw 30 xmm3
      let xmm3 := pshuflw 180 xmm3
      let xmm1 := pshufhw 39 xmm1
      let out ← st out lo xmm0
      let xmm1 := pshufd 108 xmm1
      let xmm2 := pshufhw 30 xmm1
      let xmm1 := pshuflw 180 xmm1
      let xmm1 := punpcklqdq xmm1 xmm3
      let xmm4 := movhlps xmm4 xmm2
      let out ← st out (lo + 16) xmm1
      let out ← st out hi xmm5
      let out ← st out (hi + 16) xmm4
      let lo := lo + 32
      let hi := hi + 32
      pure (ip, lo, hi, out))
    (fun (ip, _, _, _) => decide (ip + 64 < len)) (0, 0, len / 2, out)
  portablePtrs .little inp len ip out lo hi

/-- `shuffle_mask` (least significant byte first, one lane), avx2.rs:56-61. -/
def avx2Mask : List Nat := [2, 3, 6, 7, 0, 1, 4, 5, 10, 11, 14, 15, 8, 9, 12, 13]

/-- `avx2_shuf_impl_asm`, avx2.rs:24-118. -/
def avx2 (inp out : Buf) (len : Nat) : Option Buf := do
  let (ip, lo, hi, out) ← asmLoop (len - 64) (len + 1)
    (fun ((ip, lo, hi, out) : Nat × Nat × Nat × Buf) => do
      let ymm1 ← ld inp ip 32
      let ymm2 ← ld inp (ip + 32) 32
      let ip := ip + 64
      let ymm1 := vpshufb avx2Mask ymm1
      let ymm2 := vpshufb avx2Mask ymm2
      let ymm3 := vshufps 221 ymm1 ymm2
      let ymm1 := vshufps 136 ymm1 ymm2
      let ymm3 := vpermq 216 ymm3
      let ymm1 := vpermq 216 ymm1
      let out ← st out lo ymm3
      let out ← st out hi ymm1
      let lo := lo + 32
      let hi := hi + 32
      pure (ip, lo, hi, out))
    (fun (ip, _, _, _) => decide (ip + 64 < len)) (0, 0, len / 2, out)
  portablePtrs .little inp len ip out lo hi

/-- `shuffle_mask_color0` (least significant byte first), avx512.rs:55-64. -/
def mask0 : List Nat := [0, 1, 4, 5, 8, 9, 12, 13, 16, 17, 20, 21, 24, 25, 28, 29, 32, 33, 36, 37, 40, 41, 44, 45, 48, 49, 52, 53, 56, 57, 60, 61, 64, 65, 68, 69, 72, 73, 76, 77, 80, 81, 84, 85, 88, 89, 92, 93, 96, 97, 100, 101, 104, 105, 108, 109, 112, 113, 116, 117, 120, 121, 124, 125]
/-- `shuffle_mask_color1` (least significant byte first), avx512.rs:67-76. -/
def mask1 : List Nat := [2, 3, 6, 7, 10, 11, 14, 15, 18, 19, 22, 23, 26, 27, 30, 31, 34, 35, 38, 39, 42, 43, 46, 47, 50, 51, 54, 55, 58, 59, 62, 63, 66, 67, 70, 71, 74, 75, 78, 79, 82, 83, 86, 87, 90, 91, 94, 95, 98, 99, 102, 103, 106, 107, 110, 111, 114, 115, 118, 119, 122, 123, 126, 127]

/-- `avx512_impl`, avx512.rs:24-101. -/
def avx512 (inp out : Buf) (len : Nat) : Option Buf := do
  let alignedEnd := len - len % 128
  let (ip, lo, hi, out) ← whileM (len + 1) (fun ((ip, _, _, _) : Nat × Nat × Nat × Buf) => decide (ip < alignedEnd))
    (fun ((ip, lo, hi, out) : Nat × Nat × Nat × Buf) => do
      let chunk1 ← ld inp ip 64
      let chunk2 ← ld inp (ip + 64) 64
      let ip := ip + 128
      let c0 := permt2b mask0 chunk1 chunk2
      let c1 := permt2b mask1 chunk1 chunk2
      let out ← st out lo c0
      let out ← st out hi c1
      let lo := lo + 64
      let hi := hi + 64
      pure (ip, lo, hi, out)) (0, 0, len / 2, out)
  portablePtrs .little inp len ip out lo hi

/-- `split_color_endpoints`, mod.rs:110-135, with `split_color_endpoints_x86`, mod.rs:43-88. -/
def splitColorEndpoints (m : Machine) (inp out : Buf) (len : Nat) : Option Buf :=
  match m with
  | .x86 f =>
    if f.avx512vbmi then avx512 inp out len
    else if f.avx2 then avx2 inp out len
    else if f.sse2 then sse2 inp out len
    else portable .little inp out len
  | .other e _ => portable e inp out len

end Dlt.Split
