import Verif.Model.Bc2Simd
/-!
# BC2: the implementations kept for benchmarking

Models the kernels of
`/repo/src/core/dxt-lossless-transform-bc2/src/transform/standard/transform/bench/`, compiled with the
feature `bench` and exported by `src/bench/mod.rs`.  They are alternatives to the production kernels
for the settings "no decorrelation, no splitting".

Simplifications: as in `Verif.Model.Bc2Simd`; the call of the remainder function is made also when
nothing remains.
-/

namespace Dlt.Bc2
open Simd

/-- `shuffle_v1`, standard/transform/bench/sse2.rs:10-85. -/
def benchShuffleV1 (inp out : Buf) (len : Nat) : Option Buf := do
  let alignedLen := len - len % 32
  let (ip, ap, cp, xp, out) ← asmLoop alignedLen (len + 1)
    (fun ((ip, ap, cp, xp, out) : Nat × Nat × Nat × Nat × Buf) => do
      let xmm0 ← ld inp ip 16
      let xmm1 ← ld inp (ip + 16) 16
      let ip := ip + 32
      let xmm2 := xmm0
      let xmm0 := punpcklqdq xmm0 xmm1
      let xmm2 := shufps 0xEE xmm2 xmm1
      let xmm2 := shufps 0xD8 xmm2 xmm2
      let out ← st out ap xmm0
      let ap := ap + 16
      let out ← st out cp (elem 8 xmm2 0)
      let cp := cp + 8
      let out ← st out xp (elem 8 xmm2 1)
      let xp := xp + 8
      pure (ip, ap, cp, xp, out))
    (fun (ip, _, _, _, _) => decide (ip < alignedLen)) (0, 0, len / 2, len / 2 + len / 4, out)
  transformPtrs .little inp ip out ap cp xp (len - alignedLen)

/-- `shuffle_v1_unroll_2`, standard/transform/bench/sse2.rs:93-174. -/
def benchShuffleV1x2 (inp out : Buf) (len : Nat) : Option Buf := do
  let alignedLen := len - len % 64
  let (ip, ap, cp, xp, out) ← asmLoop alignedLen (len + 1)
    (fun ((ip, ap, cp, xp, out) : Nat × Nat × Nat × Nat × Buf) => do
      let xmm0 ← ld inp ip 16
      let xmm1 ← ld inp (ip + 16) 16
      let xmm3 ← ld inp (ip + 32) 16
      let xmm4 ← ld inp (ip + 48) 16
      let ip := ip + 64
      let xmm2 := xmm0
      let xmm0 := punpcklqdq xmm0 xmm1
      let xmm5 := xmm3
      let xmm3 := punpcklqdq xmm3 xmm4
      let xmm2 := shufps 0xEE xmm2 xmm1
      let xmm2 := shufps 0xD8 xmm2 xmm2
      let xmm5 := shufps 0xEE xmm5 xmm4
      let xmm5 := shufps 0xD8 xmm5 xmm5
      let out ← st out ap xmm0
      let out ← st out (ap + 16) xmm3
      let ap := ap + 32
      let out ← st out cp (elem 8 xmm2 0)
      let out ← st out (cp + 8) (elem 8 xmm5 0)
      let cp := cp + 16
      let out ← st out xp (elem 8 xmm2 1)
      let out ← st out (xp + 8) (elem 8 xmm5 1)
      let xp := xp + 16
      pure (ip, ap, cp, xp, out))
    (fun (ip, _, _, _, _) => decide (ip < alignedLen)) (0, 0, len / 2, len / 2 + len / 4, out)
  transformPtrs .little inp ip out ap cp xp (len - alignedLen)

/-- `u32_unroll_2`, standard/transform/bench/portable32.rs:5-62. -/
def benchU32x2 (e : Endian) (inp out : Buf) (len : Nat) : Option Buf := do
  let maxAligned := len - 32
  let (ip, ap, cp, xp, out) ← whileM (len + 1) (fun (ip, _, _, _, _) => decide (ip < maxAligned))
    (fun ((ip, ap, cp, xp, out) : Nat × Nat × Nat × Nat × Buf) => do
      let alphaValue1 ← ld64 e inp ip
      let colorValue1 ← ld32 e inp (ip + 8)
      let indexValue1 ← ld32 e inp (ip + 12)
      let alphaValue2 ← ld64 e inp (ip + 16)
      let colorValue2 ← ld32 e inp (ip + 24)
      let indexValue2 ← ld32 e inp (ip + 28)
      let ip := ip + 32
      let out ← st64 e out ap alphaValue1
      let out ← st32 e out cp colorValue1
      let out ← st32 e out xp indexValue1
      let out ← st64 e out (ap + 8) alphaValue2
      let out ← st32 e out (cp + 4) colorValue2
      let out ← st32 e out (xp + 4) indexValue2
      let ap := ap + 16
      let cp := cp + 8
      let xp := xp + 8
      pure (ip, ap, cp, xp, out)) (0, 0, len / 2, len / 2 + len / 4, out)
  let (_, _, _, _, out) ← whileM (len + 1) (fun (ip, _, _, _, _) => decide (ip < len))
    (fun ((ip, ap, cp, xp, out) : Nat × Nat × Nat × Nat × Buf) => do
      let alphaValue ← ld64 e inp ip
      let colorValue ← ld32 e inp (ip + 8)
      let indexValue ← ld32 e inp (ip + 12)
      let ip := ip + 16
      let out ← st64 e out ap alphaValue
      let out ← st32 e out cp colorValue
      let out ← st32 e out xp indexValue
      let ap := ap + 8
      let cp := cp + 4
      let xp := xp + 4
      pure (ip, ap, cp, xp, out)) (ip, ap, cp, xp, out)
  pure out

/-- `u32_unroll_4`, standard/transform/bench/portable32.rs:68-142. -/
def benchU32x4 (e : Endian) (inp out : Buf) (len : Nat) : Option Buf := do
  let maxAligned := len - 64
  let (ip, ap, cp, xp, out) ← whileM (len + 1) (fun (ip, _, _, _, _) => decide (ip < maxAligned))
    (fun ((ip, ap, cp, xp, out) : Nat × Nat × Nat × Nat × Buf) => do
      let alphaValue1 ← ld64 e inp ip
      let colorValue1 ← ld32 e inp (ip + 8)
      let indexValue1 ← ld32 e inp (ip + 12)
      let alphaValue2 ← ld64 e inp (ip + 16)
      let colorValue2 ← ld32 e inp (ip + 24)
      let indexValue2 ← ld32 e inp (ip + 28)
      let alphaValue3 ← ld64 e inp (ip + 32)
      let colorValue3 ← ld32 e inp (ip + 40)
      let indexValue3 ← ld32 e inp (ip + 44)
      let alphaValue4 ← ld64 e inp (ip + 48)
      let colorValue4 ← ld32 e inp (ip + 56)
      let indexValue4 ← ld32 e inp (ip + 60)
      let ip := ip + 64
      let out ← st64 e out ap alphaValue1
      let out ← st32 e out cp colorValue1
      let out ← st32 e out xp indexValue1
      let out ← st64 e out (ap + 8) alphaValue2
      let out ← st32 e out (cp + 4) colorValue2
      let out ← st32 e out (xp + 4) indexValue2
      let out ← st64 e out (ap + 16) alphaValue3
      let out ← st32 e out (cp + 8) colorValue3
      let out ← st32 e out (xp + 8) indexValue3
      let out ← st64 e out (ap + 24) alphaValue4
      let out ← st32 e out (cp + 12) colorValue4
      let out ← st32 e out (xp + 12) indexValue4
      let ap := ap + 32
      let cp := cp + 16
      let xp := xp + 16
      pure (ip, ap, cp, xp, out)) (0, 0, len / 2, len / 2 + len / 4, out)
  let (_, _, _, _, out) ← whileM (len + 1) (fun (ip, _, _, _, _) => decide (ip < len))
    (fun ((ip, ap, cp, xp, out) : Nat × Nat × Nat × Nat × Buf) => do
      let alphaValue ← ld64 e inp ip
      let colorValue ← ld32 e inp (ip + 8)
      let indexValue ← ld32 e inp (ip + 12)
      let ip := ip + 16
      let out ← st64 e out ap alphaValue
      let out ← st32 e out cp colorValue
      let out ← st32 e out xp indexValue
      let ap := ap + 8
      let cp := cp + 4
      let xp := xp + 4
      pure (ip, ap, cp, xp, out)) (ip, ap, cp, xp, out)
  pure out

/-- `PERM_COLORS_BYTES`, standard/transform/bench/avx512.rs:41 and 153, sign-extended from the eight
bytes of `_mm_loadl_epi64` (the upper eight bytes of that register are zero). -/
def permColorsBench : List Nat := [2, 6, 10, 14, 18, 22, 26, 30, 0, 0, 0, 0, 0, 0, 0, 0]
/-- `PERM_INDICES_BYTES`, standard/transform/bench/avx512.rs:42 and 154, likewise. -/
def permIndicesBench : List Nat := [3, 7, 11, 15, 19, 23, 27, 31, 0, 0, 0, 0, 0, 0, 0, 0]

/-- `permute_512_with_separate_pointers`, standard/transform/bench/avx512.rs:21-103, called with the
three sections of the output by `permute_512` (:111-125).  Colours and indices are stored as whole
64-byte registers of which the upper half is overwritten later. -/
def benchPermute512 (inp out : Buf) (len : Nat) : Option Buf := do
  let alignedLen := (len - len % 128) - 32 * 4
  let (ip, ap, cp, xp, out) ← asmLoop alignedLen (len + 1)
    (fun ((ip, ap, cp, xp, out) : Nat × Nat × Nat × Nat × Buf) => do
      let zmm4 ← ld inp ip 64
      let zmm5 ← ld inp (ip + 64) 64
      let zmm3 := zmm4
      let zmm3 := permt2q permAlpha zmm3 zmm5
      let ip := ip + 128
      let zmm6 := zmm4
      let zmm6 := permt2d permColorsBench zmm6 zmm5
      let zmm4 := permt2d permIndicesBench zmm4 zmm5
      let out ← st out ap zmm3
      let out ← st out cp zmm6
      let out ← st out xp zmm4
      let ap := ap + 64
      let cp := cp + 32
      let xp := xp + 32
      pure (ip, ap, cp, xp, out))
    (fun (ip, _, _, _, _) => decide (ip < alignedLen)) (0, 0, len / 2, len / 2 + len / 4, out)
  transformPtrs .little inp ip out ap cp xp (len - alignedLen)

/-- `permute_512_intrinsics`, standard/transform/bench/avx512.rs:134-206 (only used in the
project's own tests). -/
def benchPermute512Intrinsics (inp out : Buf) (len : Nat) : Option Buf := do
  let alignedLen := (len - len % 128) - 32 * 4
  let (ip, ap, cp, xp, out) ← whileM (len + 1) (fun (ip, _, _, _, _) => decide (ip < alignedLen))
    (fun ((ip, ap, cp, xp, out) : Nat × Nat × Nat × Nat × Buf) => do
      let zmm4 ← ld inp ip 64
      let zmm5 ← ld inp (ip + 64) 64
      let zmm3 := zmm4
      let zmm3 := permt2q permAlpha zmm3 zmm5
      let ip := ip + 128
      let zmm6 := zmm4
      let zmm6 := permt2d permColorsBench zmm6 zmm5
      let zmm4 := permt2d permIndicesBench zmm4 zmm5
      let out ← st out ap zmm3
      let out ← st out cp zmm6
      let out ← st out xp zmm4
      let ap := ap + 64
      let cp := cp + 32
      let xp := xp + 32
      pure (ip, ap, cp, xp, out)) (0, 0, len / 2, len / 2 + len / 4, out)
  transformPtrs .little inp ip out ap cp xp (len - alignedLen)

end Dlt.Bc2
