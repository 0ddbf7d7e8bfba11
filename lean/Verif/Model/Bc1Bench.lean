import Verif.Model.Bc1Std
/-!
# BC1: the implementations kept for benchmarking

Models the kernels of `/repo/src/core/dxt-lossless-transform-bc1/src/transform/standard/transform/bench/`
and `.../untransform/bench/`, compiled with the feature `bench` and exported by `src/bench/mod.rs`.
They are alternatives to the production kernels for the settings "no decorrelation, no splitting".

Simplifications: as in `Verif.Model.Bc1Std`; pointers which are only compared (`input_ptr.add(3) <
max_ptr`, portable64.rs) are plain numbers, so forming one beyond the end of the allocation is not
an error; a call of the remainder function is made also when nothing remains.
-/

namespace Dlt.Bc1
open Simd

/-- `get_color`, standard/transform/bench/portable64.rs:3-7 (big endian), 15-19 (little endian). -/
def getColor : Endian → U64 → U32
  | .big, v => (v >>> 32).setWidth 32
  | .little, v => v.setWidth 32

/-- `get_index`, standard/transform/bench/portable64.rs:9-13 (big endian), 21-25 (little endian). -/
def getIndex : Endian → U64 → U32
  | .big, v => v.setWidth 32
  | .little, v => (v >>> 32).setWidth 32

/-- `punpckhqdq_unroll_4`, standard/transform/bench/sse2.rs:10-88. -/
def benchPunpckhqdq4 (inp out : Buf) (len : Nat) : Option Buf := do
  let alignedLen := len - len % 64
  let (ip, cp, xp, out) ← asmLoop alignedLen (len + 1)
    (fun ((ip, cp, xp, out) : Nat × Nat × Nat × Buf) => do
      let xmm0 ← ld inp ip 16
      let xmm1 ← ld inp (ip + 16) 16
      let xmm2 ← ld inp (ip + 32) 16
      let xmm3 ← ld inp (ip + 48) 16
      let ip := ip + 64
      let xmm0 := pshufd 0xD8 xmm0
      let xmm1 := pshufd 0xD8 xmm1
      let xmm2 := pshufd 0xD8 xmm2
      let xmm3 := pshufd 0xD8 xmm3
      let xmm4 := xmm0
      let xmm5 := xmm2
      let xmm0 := punpckhqdq xmm0 xmm1
      let xmm2 := punpckhqdq xmm2 xmm3
      let xmm4 := punpcklqdq xmm4 xmm1
      let xmm5 := punpcklqdq xmm5 xmm3
      let out ← st out cp xmm4
      let out ← st out (cp + 16) xmm5
      let cp := cp + 32
      let out ← st out xp xmm0
      let out ← st out (xp + 16) xmm2
      let xp := xp + 32
      pure (ip, cp, xp, out))
    (fun (ip, _, _, _) => decide (ip < alignedLen)) (0, 0, len / 2, out)
  transformPtrs .little inp ip out cp xp (len - alignedLen)

/-- `punpckhqdq_unroll_2`, standard/transform/bench/sse2.rs:96-162. -/
def benchPunpckhqdq2 (inp out : Buf) (len : Nat) : Option Buf := do
  let alignedLen := len - len % 32
  let (ip, cp, xp, out) ← asmLoop alignedLen (len + 1)
    (fun ((ip, cp, xp, out) : Nat × Nat × Nat × Buf) => do
      let xmm0 ← ld inp ip 16
      let xmm1 ← ld inp (ip + 16) 16
      let ip := ip + 32
      let xmm0 := pshufd 0xD8 xmm0
      let xmm1 := pshufd 0xD8 xmm1
      let xmm2 := xmm0
      let xmm2 := punpcklqdq xmm2 xmm1
      let xmm0 := punpckhqdq xmm0 xmm1
      let out ← st out cp xmm2
      let cp := cp + 16
      let out ← st out xp xmm0
      let xp := xp + 16
      pure (ip, cp, xp, out))
    (fun (ip, _, _, _) => decide (ip < alignedLen)) (0, 0, len / 2, out)
  transformPtrs .little inp ip out cp xp (len - alignedLen)

/-- `shufps_unroll_2`, standard/transform/bench/sse2.rs:170-230. -/
def benchShufps2 (inp out : Buf) (len : Nat) : Option Buf := do
  let alignedLen := len - len % 32
  let (ip, cp, xp, out) ← asmLoop alignedLen (len + 1)
    (fun ((ip, cp, xp, out) : Nat × Nat × Nat × Buf) => do
      let xmm0 ← ld inp ip 16
      let xmm1 ← ld inp (ip + 16) 16
      let ip := ip + 32
      let xmm2 := xmm0
      let xmm2 := shufps 0x88 xmm2 xmm1
      let xmm0 := shufps 0xDD xmm0 xmm1
      let out ← st out cp xmm2
      let cp := cp + 16
      let out ← st out xp xmm0
      let xp := xp + 16
      pure (ip, cp, xp, out))
    (fun (ip, _, _, _) => decide (ip < alignedLen)) (0, 0, len / 2, out)
  transformPtrs .little inp ip out cp xp (len - alignedLen)

/-- `permute`, standard/transform/bench/avx2.rs:10-85. -/
def benchPermute (inp out : Buf) (len : Nat) : Option Buf := do
  let alignedLen := len - len % 64
  let (ip, cp, xp, out) ← asmLoop alignedLen (len + 1)
    (fun ((ip, cp, xp, out) : Nat × Nat × Nat × Buf) => do
      let ymm1 ← ld inp ip 32
      let ymm2 ← ld inp (ip + 32) 32
      let ip := ip + 64
      let ymm3 := vpermd [0, 2, 4, 6, 1, 3, 5, 7] ymm1
      let ymm4 := vpermd [0, 2, 4, 6, 1, 3, 5, 7] ymm2
      let ymm5 := vperm2i128 0x20 ymm3 ymm4
      let ymm6 := vperm2i128 0x31 ymm3 ymm4
      let out ← st out cp ymm5
      let out ← st out xp ymm6
      let cp := cp + 32
      let xp := xp + 32
      pure (ip, cp, xp, out))
    (fun (ip, _, _, _) => decide (ip < alignedLen)) (0, 0, len / 2, out)
  transformPtrs .little inp ip out cp xp (len - alignedLen)

/-- `permute_unroll_2`, standard/transform/bench/avx2.rs:93-176. -/
def benchPermute2 (inp out : Buf) (len : Nat) : Option Buf := do
  let alignedLen := len - len % 128
  let (ip, cp, xp, out) ← asmLoop alignedLen (len + 1)
    (fun ((ip, cp, xp, out) : Nat × Nat × Nat × Buf) => do
      let ymm1 ← ld inp ip 32
      let ymm2 ← ld inp (ip + 32) 32
      let ymm3 ← ld inp (ip + 64) 32
      let ymm4 ← ld inp (ip + 96) 32
      let ip := ip + 128
      let ymm5 := vpermd [0, 2, 4, 6, 1, 3, 5, 7] ymm1
      let ymm6 := vpermd [0, 2, 4, 6, 1, 3, 5, 7] ymm2
      let ymm1 := vpermd [0, 2, 4, 6, 1, 3, 5, 7] ymm3
      let ymm2 := vpermd [0, 2, 4, 6, 1, 3, 5, 7] ymm4
      let ymm3 := vperm2i128 0x20 ymm5 ymm6
      let ymm4 := vperm2i128 0x31 ymm5 ymm6
      let ymm5 := vperm2i128 0x20 ymm1 ymm2
      let ymm6 := vperm2i128 0x31 ymm1 ymm2
      let out ← st out cp ymm3
      let out ← st out (cp + 32) ymm5
      let cp := cp + 64
      let out ← st out xp ymm4
      let out ← st out (xp + 32) ymm6
      let xp := xp + 64
      pure (ip, cp, xp, out))
    (fun (ip, _, _, _) => decide (ip < alignedLen)) (0, 0, len / 2, out)
  transformPtrs .little inp ip out cp xp (len - alignedLen)

/-- `gather`, standard/transform/bench/avx2.rs:184-250.  The
mask of `vpgatherdd` is all ones (`vpcmpeqd` of a register with itself); the remainder is taken
modulo 128 although a turn of the loop handles 64 bytes. -/
def benchGather (inp out : Buf) (len : Nat) : Option Buf := do
  let alignedLen := len - len % 128
  let (ip, cp, xp, out) ← asmLoop alignedLen (len + 1)
    (fun ((ip, cp, xp, out) : Nat × Nat × Nat × Buf) => do
      let ymm3 ← gather32 inp ip ([0, 2, 4, 6, 8, 10, 12, 14].map (· * 4))
      let ymm4 ← gather32 inp ip ([1, 3, 5, 7, 9, 11, 13, 15].map (· * 4))
      let ip := ip + 64
      let out ← st out cp ymm3
      let cp := cp + 32
      let out ← st out xp ymm4
      let xp := xp + 32
      pure (ip, cp, xp, out))
    (fun (ip, _, _, _) => decide (ip < alignedLen)) (0, 0, len / 2, out)
  transformPtrs .little inp ip out cp xp (len - alignedLen)

/-- `shuffle_permute`, standard/transform/bench/avx2.rs:258-325. -/
def benchShufflePermute (inp out : Buf) (len : Nat) : Option Buf := do
  let alignedLen := len - len % 64
  let (ip, cp, xp, out) ← asmLoop alignedLen (len + 1)
    (fun ((ip, cp, xp, out) : Nat × Nat × Nat × Buf) => do
      let ymm0 ← ld inp ip 32
      let ymm1 ← ld inp (ip + 32) 32
      let ip := ip + 64
      let ymm2 := vshufps 136 ymm0 ymm1
      let ymm2 := vpermq 216 ymm2
      let ymm3 := vshufps 221 ymm0 ymm1
      let ymm3 := vpermq 216 ymm3
      let out ← st out cp ymm2
      let out ← st out xp ymm3
      let cp := cp + 32
      let xp := xp + 32
      pure (ip, cp, xp, out))
    (fun (ip, _, _, _) => decide (ip < alignedLen)) (0, 0, len / 2, out)
  transformPtrs .little inp ip out cp xp (len - alignedLen)

/-- `permute_512_unroll_2_with_separate_pointers`, standard/transform/bench/avx512f.rs:41-119.  Called with
the two halves of the output by `permute_512_unroll_2` (same file); the permutation constants are
those of the production kernel. -/
def benchPermute512x2 (inp out : Buf) (len : Nat) : Option Buf := do
  let alignedLen := len - len % 256
  let (ip, cp, xp, out) ← asmLoop alignedLen (len + 1)
    (fun ((ip, cp, xp, out) : Nat × Nat × Nat × Buf) => do
      let zmm2 ← ld inp ip 64
      let zmm3 ← ld inp (ip + 64) 64
      let zmm4 ← ld inp (ip + 128) 64
      let zmm5 ← ld inp (ip + 192) 64
      let ip := ip + 256
      let zmm6 := zmm2
      let zmm6 := permt2d permColors zmm6 zmm3
      let zmm2 := permt2d permIndices zmm2 zmm3
      let zmm3 := zmm4
      let zmm3 := permt2d permColors zmm3 zmm5
      let zmm4 := permt2d permIndices zmm4 zmm5
      let out ← st out cp zmm6
      let out ← st out (cp + 64) zmm3
      let cp := cp + 128
      let out ← st out xp zmm2
      let out ← st out (xp + 64) zmm4
      let xp := xp + 128
      pure (ip, cp, xp, out))
    (fun (ip, _, _, _) => decide (ip < alignedLen)) (0, 0, len / 2, out)
  transformPtrs .little inp ip out cp xp (len - alignedLen)

/-- `u32_unroll_2`, standard/transform/bench/portable32.rs:8-54. -/
def benchU32x2 (e : Endian) (inp out : Buf) (len : Nat) : Option Buf := do
  let (ip, cp, xp, out) ← whileM (len + 1) (fun (ip, _, _, _) => decide (ip < len / 16 * 16))
    (fun ((ip, cp, xp, out) : Nat × Nat × Nat × Buf) => do
      let colorValue1 ← ld32 e inp ip
      let indexValue1 ← ld32 e inp (ip + 4)
      let colorValue2 ← ld32 e inp (ip + 8)
      let indexValue2 ← ld32 e inp (ip + 12)
      let ip := ip + 16
      let out ← st32 e out cp colorValue1
      let out ← st32 e out xp indexValue1
      let out ← st32 e out (cp + 4) colorValue2
      let out ← st32 e out (xp + 4) indexValue2
      let cp := cp + 8
      let xp := xp + 8
      pure (ip, cp, xp, out)) (0, 0, len / 2, out)
  let (_, _, _, out) ← whileM (len + 1) (fun (ip, _, _, _) => decide (ip < len))
    (fun ((ip, cp, xp, out) : Nat × Nat × Nat × Buf) => do
      let colorValue ← ld32 e inp ip
      let indexValue ← ld32 e inp (ip + 4)
      let ip := ip + 8
      let out ← st32 e out cp colorValue
      let out ← st32 e out xp indexValue
      let cp := cp + 4
      let xp := xp + 4
      pure (ip, cp, xp, out)) (ip, cp, xp, out)
  pure out

/-- `u32_unroll_4`, standard/transform/bench/portable32.rs:61-118. -/
def benchU32x4 (e : Endian) (inp out : Buf) (len : Nat) : Option Buf := do
  let (ip, cp, xp, out) ← whileM (len + 1) (fun (ip, _, _, _) => decide (ip < len / 32 * 32))
    (fun ((ip, cp, xp, out) : Nat × Nat × Nat × Buf) => do
      let colorValue1 ← ld32 e inp ip
      let indexValue1 ← ld32 e inp (ip + 4)
      let colorValue2 ← ld32 e inp (ip + 8)
      let indexValue2 ← ld32 e inp (ip + 12)
      let colorValue3 ← ld32 e inp (ip + 16)
      let indexValue3 ← ld32 e inp (ip + 20)
      let colorValue4 ← ld32 e inp (ip + 24)
      let indexValue4 ← ld32 e inp (ip + 28)
      let ip := ip + 32
      let out ← st32 e out cp colorValue1
      let out ← st32 e out xp indexValue1
      let out ← st32 e out (cp + 4) colorValue2
      let out ← st32 e out (xp + 4) indexValue2
      let out ← st32 e out (cp + 8) colorValue3
      let out ← st32 e out (xp + 8) indexValue3
      let out ← st32 e out (cp + 12) colorValue4
      let out ← st32 e out (xp + 12) indexValue4
      let cp := cp + 16
      let xp := xp + 16
      pure (ip, cp, xp, out)) (0, 0, len / 2, out)
  let (_, _, _, out) ← whileM (len + 1) (fun (ip, _, _, _) => decide (ip < len))
    (fun ((ip, cp, xp, out) : Nat × Nat × Nat × Buf) => do
      let colorValue ← ld32 e inp ip
      let indexValue ← ld32 e inp (ip + 4)
      let ip := ip + 8
      let out ← st32 e out cp colorValue
      let out ← st32 e out xp indexValue
      let cp := cp + 4
      let xp := xp + 4
      pure (ip, cp, xp, out)) (ip, cp, xp, out)
  pure out

/-- `u32_unroll_8`, standard/transform/bench/portable32.rs:125-206. -/
def benchU32x8 (e : Endian) (inp out : Buf) (len : Nat) : Option Buf := do
  let (ip, cp, xp, out) ← whileM (len + 1) (fun (ip, _, _, _) => decide (ip < len / 64 * 64))
    (fun ((ip, cp, xp, out) : Nat × Nat × Nat × Buf) => do
      let colorValue1 ← ld32 e inp ip
      let indexValue1 ← ld32 e inp (ip + 4)
      let colorValue2 ← ld32 e inp (ip + 8)
      let indexValue2 ← ld32 e inp (ip + 12)
      let colorValue3 ← ld32 e inp (ip + 16)
      let indexValue3 ← ld32 e inp (ip + 20)
      let colorValue4 ← ld32 e inp (ip + 24)
      let indexValue4 ← ld32 e inp (ip + 28)
      let colorValue5 ← ld32 e inp (ip + 32)
      let indexValue5 ← ld32 e inp (ip + 36)
      let colorValue6 ← ld32 e inp (ip + 40)
      let indexValue6 ← ld32 e inp (ip + 44)
      let colorValue7 ← ld32 e inp (ip + 48)
      let indexValue7 ← ld32 e inp (ip + 52)
      let colorValue8 ← ld32 e inp (ip + 56)
      let indexValue8 ← ld32 e inp (ip + 60)
      let ip := ip + 64
      let out ← st32 e out cp colorValue1
      let out ← st32 e out xp indexValue1
      let out ← st32 e out (cp + 4) colorValue2
      let out ← st32 e out (xp + 4) indexValue2
      let out ← st32 e out (cp + 8) colorValue3
      let out ← st32 e out (xp + 8) indexValue3
      let out ← st32 e out (cp + 12) colorValue4
      let out ← st32 e out (xp + 12) indexValue4
      let out ← st32 e out (cp + 16) colorValue5
      let out ← st32 e out (xp + 16) indexValue5
      let out ← st32 e out (cp + 20) colorValue6
      let out ← st32 e out (xp + 20) indexValue6
      let out ← st32 e out (cp + 24) colorValue7
      let out ← st32 e out (xp + 24) indexValue7
      let out ← st32 e out (cp + 28) colorValue8
      let out ← st32 e out (xp + 28) indexValue8
      let cp := cp + 32
      let xp := xp + 32
      pure (ip, cp, xp, out)) (0, 0, len / 2, out)
  let (_, _, _, out) ← whileM (len + 1) (fun (ip, _, _, _) => decide (ip < len))
    (fun ((ip, cp, xp, out) : Nat × Nat × Nat × Buf) => do
      let colorValue ← ld32 e inp ip
      let indexValue ← ld32 e inp (ip + 4)
      let ip := ip + 8
      let out ← st32 e out cp colorValue
      let out ← st32 e out xp indexValue
      let cp := cp + 4
      let xp := xp + 4
      pure (ip, cp, xp, out)) (ip, cp, xp, out)
  pure out

/-- `shift`, standard/transform/bench/portable64.rs:47-71. -/
def benchShift (e : Endian) (inp out : Buf) (len : Nat) : Option Buf := do
  let (_, _, _, out) ← whileM (len + 1) (fun (ip, _, _, _) => decide (ip < len))
    (fun ((ip, cp, xp, out) : Nat × Nat × Nat × Buf) => do
      let curr ← ld64 e inp ip
      let ip := ip + 8
      let colorValue := getColor e curr
      let indexValue := getIndex e curr
      let out ← st32 e out cp colorValue
      let cp := cp + 4
      let out ← st32 e out xp indexValue
      let xp := xp + 4
      pure (ip, cp, xp, out)) (0, 0, len / 2, out)
  pure out

/-- `shift_unroll_2`, standard/transform/bench/portable64.rs:78-128. -/
def benchShift2 (e : Endian) (inp out : Buf) (len : Nat) : Option Buf := do
  let (ip, cp, xp, out) ← whileM (len + 1) (fun (ip, _, _, _) => decide (ip < len / 16 * 16))
    (fun ((ip, cp, xp, out) : Nat × Nat × Nat × Buf) => do
      let curr1 ← ld64 e inp ip
      let curr2 ← ld64 e inp (ip + 8)
      let ip := ip + 16
      let color1 := getColor e curr1
      let color2 := getColor e curr2
      let index1 := getIndex e curr1
      let index2 := getIndex e curr2
      let out ← st32 e out cp color1
      let out ← st32 e out (cp + 4) color2
      let cp := cp + 8
      let out ← st32 e out xp index1
      let out ← st32 e out (xp + 4) index2
      let xp := xp + 8
      pure (ip, cp, xp, out)) (0, 0, len / 2, out)
  let (_, _, _, out) ← whileM (len + 1) (fun (ip, _, _, _) => decide (ip < len))
    (fun ((ip, cp, xp, out) : Nat × Nat × Nat × Buf) => do
      let curr ← ld64 e inp ip
      let ip := ip + 8
      let colorValue := getColor e curr
      let indexValue := getIndex e curr
      let out ← st32 e out cp colorValue
      let cp := cp + 4
      let out ← st32 e out xp indexValue
      let xp := xp + 4
      pure (ip, cp, xp, out)) (ip, cp, xp, out)
  pure out

/-- `shift_unroll_4`, standard/transform/bench/portable64.rs:135-195. -/
def benchShift4 (e : Endian) (inp out : Buf) (len : Nat) : Option Buf := do
  let (ip, cp, xp, out) ← whileM (len + 1) (fun (ip, _, _, _) => decide (ip + 24 < len ∧ ip < len / 32 * 32))
    (fun ((ip, cp, xp, out) : Nat × Nat × Nat × Buf) => do
      let curr1 ← ld64 e inp ip
      let curr2 ← ld64 e inp (ip + 8)
      let curr3 ← ld64 e inp (ip + 16)
      let curr4 ← ld64 e inp (ip + 24)
      let ip := ip + 32
      let color1 := getColor e curr1
      let color2 := getColor e curr2
      let color3 := getColor e curr3
      let color4 := getColor e curr4
      let index1 := getIndex e curr1
      let index2 := getIndex e curr2
      let index3 := getIndex e curr3
      let index4 := getIndex e curr4
      let out ← st32 e out cp color1
      let out ← st32 e out (cp + 4) color2
      let out ← st32 e out (cp + 8) color3
      let out ← st32 e out (cp + 12) color4
      let cp := cp + 16
      let out ← st32 e out xp index1
      let out ← st32 e out (xp + 4) index2
      let out ← st32 e out (xp + 8) index3
      let out ← st32 e out (xp + 12) index4
      let xp := xp + 16
      pure (ip, cp, xp, out)) (0, 0, len / 2, out)
  let (_, _, _, out) ← whileM (len + 1) (fun (ip, _, _, _) => decide (ip < len))
    (fun ((ip, cp, xp, out) : Nat × Nat × Nat × Buf) => do
      let curr ← ld64 e inp ip
      let ip := ip + 8
      let colorValue := getColor e curr
      let indexValue := getIndex e curr
      let out ← st32 e out cp colorValue
      let cp := cp + 4
      let out ← st32 e out xp indexValue
      let xp := xp + 4
      pure (ip, cp, xp, out)) (ip, cp, xp, out)
  pure out

/-- `shift_unroll_8`, standard/transform/bench/portable64.rs:202-283. -/
def benchShift8 (e : Endian) (inp out : Buf) (len : Nat) : Option Buf := do
  let (ip, cp, xp, out) ← whileM (len + 1) (fun (ip, _, _, _) => decide (ip + 56 < len ∧ ip < len / 64 * 64))
    (fun ((ip, cp, xp, out) : Nat × Nat × Nat × Buf) => do
      let curr1 ← ld64 e inp ip
      let curr2 ← ld64 e inp (ip + 8)
      let curr3 ← ld64 e inp (ip + 16)
      let curr4 ← ld64 e inp (ip + 24)
      let curr5 ← ld64 e inp (ip + 32)
      let curr6 ← ld64 e inp (ip + 40)
      let curr7 ← ld64 e inp (ip + 48)
      let curr8 ← ld64 e inp (ip + 56)
      let ip := ip + 64
      let color1 := getColor e curr1
      let color2 := getColor e curr2
      let color3 := getColor e curr3
      let color4 := getColor e curr4
      let color5 := getColor e curr5
      let color6 := getColor e curr6
      let color7 := getColor e curr7
      let color8 := getColor e curr8
      let index1 := getIndex e curr1
      let index2 := getIndex e curr2
      let index3 := getIndex e curr3
      let index4 := getIndex e curr4
      let index5 := getIndex e curr5
      let index6 := getIndex e curr6
      let index7 := getIndex e curr7
      let index8 := getIndex e curr8
      let out ← st32 e out cp color1
      let out ← st32 e out (cp + 4) color2
      let out ← st32 e out (cp + 8) color3
      let out ← st32 e out (cp + 12) color4
      let out ← st32 e out (cp + 16) color5
      let out ← st32 e out (cp + 20) color6
      let out ← st32 e out (cp + 24) color7
      let out ← st32 e out (cp + 28) color8
      let cp := cp + 32
      let out ← st32 e out xp index1
      let out ← st32 e out (xp + 4) index2
      let out ← st32 e out (xp + 8) index3
      let out ← st32 e out (xp + 12) index4
      let out ← st32 e out (xp + 16) index5
      let out ← st32 e out (xp + 20) index6
      let out ← st32 e out (xp + 24) index7
      let out ← st32 e out (xp + 28) index8
      let xp := xp + 32
      pure (ip, cp, xp, out)) (0, 0, len / 2, out)
  let (_, _, _, out) ← whileM (len + 1) (fun (ip, _, _, _) => decide (ip < len))
    (fun ((ip, cp, xp, out) : Nat × Nat × Nat × Buf) => do
      let curr ← ld64 e inp ip
      let ip := ip + 8
      let colorValue := getColor e curr
      let indexValue := getIndex e curr
      let out ← st32 e out cp colorValue
      let cp := cp + 4
      let out ← st32 e out xp indexValue
      let xp := xp + 4
      pure (ip, cp, xp, out)) (ip, cp, xp, out)
  pure out

/-- `shift_with_count`, standard/transform/bench/portable64.rs:290-316. -/
def benchShiftCount (e : Endian) (inp out : Buf) (len : Nat) : Option Buf := do
  let (_, _, _, _, out) ← whileM (len + 1) (fun (cnt, _, _, _, _) => decide (cnt > 0))
    (fun ((cnt, ip, cp, xp, out) : Nat × Nat × Nat × Nat × Buf) => do
      let cnt := cnt - 1
      let curr ← ld64 e inp ip
      let colorValue := getColor e curr
      let indexValue := getIndex e curr
      let out ← st32 e out cp colorValue
      let out ← st32 e out xp indexValue
      let ip := ip + 8
      let cp := cp + 4
      let xp := xp + 4
      pure (cnt, ip, cp, xp, out)) (len / 8, 0, 0, len / 2, out)
  pure out

/-- `shift_with_count_unroll_2`, standard/transform/bench/portable64.rs:323-382. -/
def benchShiftCount2 (e : Endian) (inp out : Buf) (len : Nat) : Option Buf := do
  let remainingBytes := len % 16
  let (_, ip, cp, xp, out) ← whileM (len + 1) (fun (cnt, _, _, _, _) => decide (cnt > 0))
    (fun ((cnt, ip, cp, xp, out) : Nat × Nat × Nat × Nat × Buf) => do
      let cnt := cnt - 1
      let curr1 ← ld64 e inp ip
      let curr2 ← ld64 e inp (ip + 8)
      let color1 := getColor e curr1
      let color2 := getColor e curr2
      let out ← st32 e out cp color1
      let out ← st32 e out (cp + 4) color2
      let index1 := getIndex e curr1
      let index2 := getIndex e curr2
      let out ← st32 e out xp index1
      let out ← st32 e out (xp + 4) index2
      let ip := ip + 16
      let cp := cp + 8
      let xp := xp + 8
      pure (cnt, ip, cp, xp, out)) (len / 16, 0, 0, len / 2, out)
  if remainingBytes > 0 then
    let curr ← ld64 e inp ip
    let colorValue := getColor e curr
    let indexValue := getIndex e curr
    let out ← st32 e out cp colorValue
    let out ← st32 e out xp indexValue
    pure out
  else pure out

/-- `shift_with_count_unroll_4`, standard/transform/bench/portable64.rs:389-460. -/
def benchShiftCount4 (e : Endian) (inp out : Buf) (len : Nat) : Option Buf := do
  let remainingBytes := len % 32
  let (_, ip, cp, xp, out) ← whileM (len + 1) (fun (cnt, _, _, _, _) => decide (cnt > 0))
    (fun ((cnt, ip, cp, xp, out) : Nat × Nat × Nat × Nat × Buf) => do
      let cnt := cnt - 1
      let curr1 ← ld64 e inp ip
      let curr2 ← ld64 e inp (ip + 8)
      let curr3 ← ld64 e inp (ip + 16)
      let curr4 ← ld64 e inp (ip + 24)
      let color1 := getColor e curr1
      let color2 := getColor e curr2
      let color3 := getColor e curr3
      let color4 := getColor e curr4
      let out ← st32 e out cp color1
      let out ← st32 e out (cp + 4) color2
      let out ← st32 e out (cp + 8) color3
      let out ← st32 e out (cp + 12) color4
      let index1 := getIndex e curr1
      let index2 := getIndex e curr2
      let index3 := getIndex e curr3
      let index4 := getIndex e curr4
      let out ← st32 e out xp index1
      let out ← st32 e out (xp + 4) index2
      let out ← st32 e out (xp + 8) index3
      let out ← st32 e out (xp + 12) index4
      let ip := ip + 32
      let cp := cp + 16
      let xp := xp + 16
      pure (cnt, ip, cp, xp, out)) (len / 32, 0, 0, len / 2, out)
  let remainingChunks := remainingBytes / 8
  let (_, _, _, _, out) ← whileM (len + 1) (fun (k, _, _, _, _) => decide (k < remainingChunks))
    (fun ((k, ip, cp, xp, out) : Nat × Nat × Nat × Nat × Buf) => do
      let curr ← ld64 e inp ip
      let ip := ip + 8
      let colorValue := getColor e curr
      let indexValue := getIndex e curr
      let out ← st32 e out cp colorValue
      let cp := cp + 4
      let out ← st32 e out xp indexValue
      let xp := xp + 4
      pure (k + 1, ip, cp, xp, out)) (0, ip, cp, xp, out)
  pure out

/-- `shift_with_count_unroll_8`, standard/transform/bench/portable64.rs:467-558. -/
def benchShiftCount8 (e : Endian) (inp out : Buf) (len : Nat) : Option Buf := do
  let remainingBytes := len % 64
  let (_, ip, cp, xp, out) ← whileM (len + 1) (fun (cnt, _, _, _, _) => decide (cnt > 0))
    (fun ((cnt, ip, cp, xp, out) : Nat × Nat × Nat × Nat × Buf) => do
      let cnt := cnt - 1
      let curr1 ← ld64 e inp ip
      let curr2 ← ld64 e inp (ip + 8)
      let curr3 ← ld64 e inp (ip + 16)
      let curr4 ← ld64 e inp (ip + 24)
      let curr5 ← ld64 e inp (ip + 32)
      let curr6 ← ld64 e inp (ip + 40)
      let curr7 ← ld64 e inp (ip + 48)
      let curr8 ← ld64 e inp (ip + 56)
      let color1 := getColor e curr1
      let color2 := getColor e curr2
      let color3 := getColor e curr3
      let color4 := getColor e curr4
      let color5 := getColor e curr5
      let color6 := getColor e curr6
      let color7 := getColor e curr7
      let color8 := getColor e curr8
      let out ← st32 e out cp color1
      let out ← st32 e out (cp + 4) color2
      let out ← st32 e out (cp + 8) color3
      let out ← st32 e out (cp + 12) color4
      let out ← st32 e out (cp + 16) color5
      let out ← st32 e out (cp + 20) color6
      let out ← st32 e out (cp + 24) color7
      let out ← st32 e out (cp + 28) color8
      let index1 := getIndex e curr1
      let index2 := getIndex e curr2
      let index3 := getIndex e curr3
      let index4 := getIndex e curr4
      let index5 := getIndex e curr5
      let index6 := getIndex e curr6
      let index7 := getIndex e curr7
      let index8 := getIndex e curr8
      let out ← st32 e out xp index1
      let out ← st32 e out (xp + 4) index2
      let out ← st32 e out (xp + 8) index3
      let out ← st32 e out (xp + 12) index4
      let out ← st32 e out (xp + 16) index5
      let out ← st32 e out (xp + 20) index6
      let out ← st32 e out (xp + 24) index7
      let out ← st32 e out (xp + 28) index8
      let ip := ip + 64
      let cp := cp + 32
      let xp := xp + 32
      pure (cnt, ip, cp, xp, out)) (len / 64, 0, 0, len / 2, out)
  let remainingChunks := remainingBytes / 8
  let (_, _, _, _, out) ← whileM (len + 1) (fun (k, _, _, _, _) => decide (k < remainingChunks))
    (fun ((k, ip, cp, xp, out) : Nat × Nat × Nat × Nat × Buf) => do
      let curr ← ld64 e inp ip
      let ip := ip + 8
      let colorValue := getColor e curr
      let indexValue := getIndex e curr
      let out ← st32 e out cp colorValue
      let cp := cp + 4
      let out ← st32 e out xp indexValue
      let xp := xp + 4
      pure (k + 1, ip, cp, xp, out)) (0, ip, cp, xp, out)
  pure out

/-- `permd_untransform`, standard/untransform/bench/avx2.rs:10-136. -/
def benchUnPermd (inp out : Buf) (len : Nat) : Option Buf := do
  let alignedLen := len - len % 64
  let alignedEnd := alignedLen / 2
  let (cp, xp, op, out) ← asmLoop alignedLen (len + 1)
    (fun ((cp, xp, op, out) : Nat × Nat × Nat × Buf) => do
      let m0 ← ld inp cp 32
      let ymm0 := vpermq 0xD8 m0
      let cp := cp + 32
      let m1 ← ld inp xp 32
      let ymm1 := vpermq 0xD8 m1
      let xp := xp + 32
      let ymm2 := lanes2 punpckldq ymm0 ymm1
      let ymm3 := lanes2 punpckhdq ymm0 ymm1
      let out ← st out op ymm2
      let out ← st out (op + 32) ymm3
      let op := op + 64
      pure (cp, xp, op, out))
    (fun (cp, _, _, _) => decide (cp < alignedEnd)) (0, len / 2, 0, out)
  untransformPtrs .little inp cp inp xp out op (len - alignedLen)

/-- `unpck_untransform`, standard/untransform/bench/avx2.rs:144-205. -/
def benchUnUnpckAvx2 (inp out : Buf) (len : Nat) : Option Buf := do
  let alignedLen := len - len % 64
  let alignedEnd := alignedLen / 2
  let (cp, xp, op, out) ← asmLoop alignedLen (len + 1)
    (fun ((cp, xp, op, out) : Nat × Nat × Nat × Buf) => do
      let ymm0 ← ld inp cp 32
      let cp := cp + 32
      let ymm1 ← ld inp xp 32
      let xp := xp + 32
      let ymm2 := lanes2 punpckhdq ymm0 ymm1
      let ymm0 := lanes2 punpckldq ymm0 ymm1
      let ymm1 := vperm2i128 32 ymm0 ymm2
      let ymm0 := vperm2i128 49 ymm0 ymm2
      let out ← st out op ymm1
      let out ← st out (op + 32) ymm0
      let op := op + 64
      pure (cp, xp, op, out))
    (fun (cp, _, _, _) => decide (cp < alignedEnd)) (0, len / 2, 0, out)
  untransformPtrs .little inp cp inp xp out op (len - alignedLen)

/-- `unpck_untransform_unroll_2`, standard/untransform/bench/avx2.rs:213-289. -/
def benchUnUnpckAvx2x2 (inp out : Buf) (len : Nat) : Option Buf := do
  let alignedLen := len - len % 128
  let alignedEnd := alignedLen / 2
  let (cp, xp, op, out) ← asmLoop alignedLen (len + 1)
    (fun ((cp, xp, op, out) : Nat × Nat × Nat × Buf) => do
      let ymm0 ← ld inp cp 32
      let ymm3 ← ld inp (cp + 32) 32
      let cp := cp + 64
      let ymm1 ← ld inp xp 32
      let ymm4 ← ld inp (xp + 32) 32
      let xp := xp + 64
      let ymm2 := lanes2 punpckhdq ymm0 ymm1
      let ymm0 := lanes2 punpckldq ymm0 ymm1
      let ymm1 := vperm2i128 32 ymm0 ymm2
      let ymm0 := vperm2i128 49 ymm0 ymm2
      let ymm5 := lanes2 punpckhdq ymm3 ymm4
      let ymm3 := lanes2 punpckldq ymm3 ymm4
      let ymm4 := vperm2i128 32 ymm3 ymm5
      let ymm3 := vperm2i128 49 ymm3 ymm5
      let out ← st out op ymm1
      let out ← st out (op + 32) ymm0
      let out ← st out (op + 64) ymm4
      let out ← st out (op + 96) ymm3
      let op := op + 128
      pure (cp, xp, op, out))
    (fun (cp, _, _, _) => decide (cp < alignedEnd)) (0, len / 2, 0, out)
  untransformPtrs .little inp cp inp xp out op (len - alignedLen)

/-- `unpck_untransform`, standard/untransform/bench/sse2.rs:10-68. -/
def benchUnUnpck (inp out : Buf) (len : Nat) : Option Buf := do
  let alignedLen := len - len % 32
  let alignedEnd := alignedLen / 2
  let (cp, xp, op, out) ← asmLoop alignedLen (len + 1)
    (fun ((cp, xp, op, out) : Nat × Nat × Nat × Buf) => do
      let xmm0 ← ld inp cp 16
      let cp := cp + 16
      let xmm1 ← ld inp xp 16
      let xp := xp + 16
      let xmm2 := xmm0
      let xmm0 := punpckldq xmm0 xmm1
      let xmm2 := punpckhdq xmm2 xmm1
      let out ← st out op xmm0
      let out ← st out (op + 16) xmm2
      let op := op + 32
      pure (cp, xp, op, out))
    (fun (cp, _, _, _) => decide (cp < alignedEnd)) (0, len / 2, 0, out)
  untransformPtrs .little inp cp inp xp out op (len - alignedLen)

/-- `unpck_untransform_unroll_4`, standard/untransform/bench/sse2.rs:77-169. -/
def benchUnUnpck4 (inp out : Buf) (len : Nat) : Option Buf := do
  let alignedLen := len - len % 128
  let alignedEnd := alignedLen / 2
  let (cp, xp, op, out) ← asmLoop alignedLen (len + 1)
    (fun ((cp, xp, op, out) : Nat × Nat × Nat × Buf) => do
      let xmm0 ← ld inp cp 16
      let xmm3 ← ld inp (cp + 16) 16
      let xmm6 ← ld inp (cp + 32) 16
      let xmm9 ← ld inp (cp + 48) 16
      let cp := cp + 64
      let xmm1 ← ld inp xp 16
      let xmm4 ← ld inp (xp + 16) 16
      let xmm7 ← ld inp (xp + 32) 16
      let xmm10 ← ld inp (xp + 48) 16
      let xp := xp + 64
      let xmm2 := xmm0
      let xmm5 := xmm3
      let xmm8 := xmm6
      let xmm11 := xmm9
      let xmm0 := punpckldq xmm0 xmm1
      let xmm2 := punpckhdq xmm2 xmm1
      let xmm3 := punpckldq xmm3 xmm4
      let xmm5 := punpckhdq xmm5 xmm4
      let xmm6 := punpckldq xmm6 xmm7
      let xmm8 := punpckhdq xmm8 xmm7
      let xmm9 := punpckldq xmm9 xmm10
      let xmm11 := punpckhdq xmm11 xmm10
      let out ← st out op xmm0
      let out ← st out (op + 16) xmm2
      let out ← st out (op + 32) xmm3
      let out ← st out (op + 48) xmm5
      let out ← st out (op + 64) xmm6
      let out ← st out (op + 80) xmm8
      let out ← st out (op + 96) xmm9
      let out ← st out (op + 112) xmm11
      let op := op + 128
      pure (cp, xp, op, out))
    (fun (cp, _, _, _) => decide (cp < alignedEnd)) (0, len / 2, 0, out)
  untransformPtrs .little inp cp inp xp out op (len - alignedLen)

/-- `permute_512_untransform_unroll_2_with_components_intrinsics`, standard/untransform/bench/avx512f.rs:40-99.
The `if aligned_len > 0` around the loop changes nothing. -/
def benchUnPermute512 (inp out : Buf) (len : Nat) : Option Buf := do
  let alignedLen := len - len % 256
  let alignedEnd := alignedLen / 2
  let (cp, xp, op, out) ← whileM (len + 1) (fun (cp, _, _, _) => decide (cp < alignedEnd))
    (fun ((cp, xp, op, out) : Nat × Nat × Nat × Buf) => do
      let colors0 ← ld inp cp 64
      let colors1 ← ld inp (cp + 64) 64
      let cp := cp + 128
      let indices0 ← ld inp xp 64
      let indices1 ← ld inp (xp + 64) 64
      let xp := xp + 128
      let output0 := permt2d permLow colors0 indices0
      let output1 := permt2d permHigh colors0 indices0
      let output2 := permt2d permLow colors1 indices1
      let output3 := permt2d permHigh colors1 indices1
      let out ← st out op output0
      let out ← st out (op + 64) output1
      let out ← st out (op + 128) output2
      let out ← st out (op + 192) output3
      let op := op + 256
      pure (cp, xp, op, out)) (0, len / 2, 0, out)
  untransformPtrs .little inp cp inp xp out op (len - alignedLen)

/-- `u32_untransform_unroll_2`, standard/untransform/bench/portable32.rs:8-58. -/
def benchUnU32x2 (e : Endian) (inp out : Buf) (len : Nat) : Option Buf := do
  let maxAligned := len - (16 - 8)
  let (cp, xp, op, out) ← whileM (len + 1) (fun (_, xp, _, _) => decide (xp < maxAligned))
    (fun ((cp, xp, op, out) : Nat × Nat × Nat × Buf) => do
      let indexValue1 ← ld32 e inp xp
      let indexValue2 ← ld32 e inp (xp + 4)
      let xp := xp + 8
      let colorValue1 ← ld32 e inp cp
      let colorValue2 ← ld32 e inp (cp + 4)
      let cp := cp + 8
      let out ← st32 e out op colorValue1
      let out ← st32 e out (op + 4) indexValue1
      let out ← st32 e out (op + 8) colorValue2
      let out ← st32 e out (op + 12) indexValue2
      let op := op + 16
      pure (cp, xp, op, out)) (0, len / 2, 0, out)
  let (_, _, _, out) ← whileM (len + 1) (fun (_, xp, _, _) => decide (xp < len))
    (fun ((cp, xp, op, out) : Nat × Nat × Nat × Buf) => do
      let indexValue ← ld32 e inp xp
      let xp := xp + 4
      let colorValue ← ld32 e inp cp
      let cp := cp + 4
      let out ← st32 e out op colorValue
      let out ← st32 e out (op + 4) indexValue
      let op := op + 8
      pure (cp, xp, op, out)) (cp, xp, op, out)
  pure out

/-- `u32_untransform_unroll_4`, standard/untransform/bench/portable32.rs:65-125. -/
def benchUnU32x4 (e : Endian) (inp out : Buf) (len : Nat) : Option Buf := do
  let maxAligned := len - (32 - 8)
  let (cp, xp, op, out) ← whileM (len + 1) (fun (_, xp, _, _) => decide (xp < maxAligned))
    (fun ((cp, xp, op, out) : Nat × Nat × Nat × Buf) => do
      let indexValue1 ← ld32 e inp xp
      let indexValue2 ← ld32 e inp (xp + 4)
      let indexValue3 ← ld32 e inp (xp + 8)
      let indexValue4 ← ld32 e inp (xp + 12)
      let xp := xp + 16
      let colorValue1 ← ld32 e inp cp
      let colorValue2 ← ld32 e inp (cp + 4)
      let colorValue3 ← ld32 e inp (cp + 8)
      let colorValue4 ← ld32 e inp (cp + 12)
      let cp := cp + 16
      let out ← st32 e out op colorValue1
      let out ← st32 e out (op + 4) indexValue1
      let out ← st32 e out (op + 8) colorValue2
      let out ← st32 e out (op + 12) indexValue2
      let out ← st32 e out (op + 16) colorValue3
      let out ← st32 e out (op + 20) indexValue3
      let out ← st32 e out (op + 24) colorValue4
      let out ← st32 e out (op + 28) indexValue4
      let op := op + 32
      pure (cp, xp, op, out)) (0, len / 2, 0, out)
  let (_, _, _, out) ← whileM (len + 1) (fun (_, xp, _, _) => decide (xp < len))
    (fun ((cp, xp, op, out) : Nat × Nat × Nat × Buf) => do
      let indexValue ← ld32 e inp xp
      let xp := xp + 4
      let colorValue ← ld32 e inp cp
      let cp := cp + 4
      let out ← st32 e out op colorValue
      let out ← st32 e out (op + 4) indexValue
      let op := op + 8
      pure (cp, xp, op, out)) (cp, xp, op, out)
  pure out

/-- `u32_untransform_unroll_8`, standard/untransform/bench/portable32.rs:132-212. -/
def benchUnU32x8 (e : Endian) (inp out : Buf) (len : Nat) : Option Buf := do
  let maxAligned := len - (64 - 8)
  let (cp, xp, op, out) ← whileM (len + 1) (fun (_, xp, _, _) => decide (xp < maxAligned))
    (fun ((cp, xp, op, out) : Nat × Nat × Nat × Buf) => do
      let indexValue1 ← ld32 e inp xp
      let indexValue2 ← ld32 e inp (xp + 4)
      let indexValue3 ← ld32 e inp (xp + 8)
      let indexValue4 ← ld32 e inp (xp + 12)
      let indexValue5 ← ld32 e inp (xp + 16)
      let indexValue6 ← ld32 e inp (xp + 20)
      let indexValue7 ← ld32 e inp (xp + 24)
      let indexValue8 ← ld32 e inp (xp + 28)
      let xp := xp + 32
      let colorValue1 ← ld32 e inp cp
      let colorValue2 ← ld32 e inp (cp + 4)
      let colorValue3 ← ld32 e inp (cp + 8)
      let colorValue4 ← ld32 e inp (cp + 12)
      let colorValue5 ← ld32 e inp (cp + 16)
      let colorValue6 ← ld32 e inp (cp + 20)
      let colorValue7 ← ld32 e inp (cp + 24)
      let colorValue8 ← ld32 e inp (cp + 28)
      let cp := cp + 32
      let out ← st32 e out op colorValue1
      let out ← st32 e out (op + 4) indexValue1
      let out ← st32 e out (op + 8) colorValue2
      let out ← st32 e out (op + 12) indexValue2
      let out ← st32 e out (op + 16) colorValue3
      let out ← st32 e out (op + 20) indexValue3
      let out ← st32 e out (op + 24) colorValue4
      let out ← st32 e out (op + 28) indexValue4
      let out ← st32 e out (op + 32) colorValue5
      let out ← st32 e out (op + 36) indexValue5
      let out ← st32 e out (op + 40) colorValue6
      let out ← st32 e out (op + 44) indexValue6
      let out ← st32 e out (op + 48) colorValue7
      let out ← st32 e out (op + 52) indexValue7
      let out ← st32 e out (op + 56) colorValue8
      let out ← st32 e out (op + 60) indexValue8
      let op := op + 64
      pure (cp, xp, op, out)) (0, len / 2, 0, out)
  let (_, _, _, out) ← whileM (len + 1) (fun (_, xp, _, _) => decide (xp < len))
    (fun ((cp, xp, op, out) : Nat × Nat × Nat × Buf) => do
      let indexValue ← ld32 e inp xp
      let xp := xp + 4
      let colorValue ← ld32 e inp cp
      let cp := cp + 4
      let out ← st32 e out op colorValue
      let out ← st32 e out (op + 4) indexValue
      let op := op + 8
      pure (cp, xp, op, out)) (cp, xp, op, out)
  pure out

end Dlt.Bc1
