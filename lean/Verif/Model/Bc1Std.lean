import Verif.Model.Bc1Generic
import Verif.Model.Simd
/-!
# BC1: vector kernels of the standard transform

Models `/repo/src/core/dxt-lossless-transform-bc1/src/transform/standard/`.
-/

namespace Dlt.Bc1
open Simd

/-- `shufps_unroll_4_with_separate_pointers`, standard/transform/sse2.rs:28-92. -/
def transformSse2Ptrs (inp : Buf) (ip0 : Nat) (out : Buf) (cp0 xp0 len : Nat) : Option Buf := do
  let alignedLen := len - len % 64
  let alignedEnd := ip0 + alignedLen
  let (ip, cp, xp, out) ← asmLoop alignedLen (len + 1)
    (fun ((ip, cp, xp, out) : Nat × Nat × Nat × Buf) => do
      let xmm0 ← ld inp ip 16
      let xmm1 ← ld inp (ip + 16) 16
      let xmm2 ← ld inp (ip + 32) 16
      let xmm3 ← ld inp (ip + 48) 16
      let ip := ip + 64
      let xmm4 := xmm0
      let xmm5 := xmm2
      let xmm0 := shufps 0xDD xmm0 xmm1
      let xmm2 := shufps 0xDD xmm2 xmm3
      let xmm4 := shufps 0x88 xmm4 xmm1
      let xmm5 := shufps 0x88 xmm5 xmm3
      let out ← st out xp xmm0
      let out ← st out (xp + 16) xmm2
      let xp := xp + 32
      let out ← st out cp xmm4
      let out ← st out (cp + 16) xmm5
      let cp := cp + 32
      pure (ip, cp, xp, out))
    (fun (ip, _, _, _) => decide (ip < alignedEnd)) (ip0, cp0, xp0, out)
  transformPtrs .little inp ip out cp xp (len - alignedLen)

/-- `shufps_unroll_4`, standard/transform/sse2.rs:10-19. -/
def transformSse2 (inp out : Buf) (len : Nat) : Option Buf :=
  transformSse2Ptrs inp 0 out 0 (len / 2) len

/-- `shuffle_permute_unroll_2_with_separate_pointers`, standard/transform/avx2.rs:30-100. -/
def transformAvx2Ptrs (inp : Buf) (ip0 : Nat) (out : Buf) (cp0 xp0 len : Nat) : Option Buf := do
  let alignedLen := len - len % 128
  let alignedEnd := ip0 + alignedLen
  let (ip, cp, xp, out) ← asmLoop alignedLen (len + 1)
    (fun ((ip, cp, xp, out) : Nat × Nat × Nat × Buf) => do
      let ymm0 ← ld inp ip 32
      let ymm1 ← ld inp (ip + 32) 32
      let ymm4 ← ld inp (ip + 64) 32
      let ymm5 ← ld inp (ip + 96) 32
      let ip := ip + 128
      let ymm2 := vshufps 136 ymm0 ymm1
      let ymm2 := vpermq 216 ymm2
      let ymm3 := vshufps 221 ymm0 ymm1
      let ymm3 := vpermq 216 ymm3
      let ymm6 := vshufps 136 ymm4 ymm5
      let ymm6 := vpermq 216 ymm6
      let ymm7 := vshufps 221 ymm4 ymm5
      let ymm7 := vpermq 216 ymm7
      let out ← st out cp ymm2
      let out ← st out xp ymm3
      let out ← st out (cp + 32) ymm6
      let out ← st out (xp + 32) ymm7
      let cp := cp + 64
      let xp := xp + 64
      pure (ip, cp, xp, out))
    (fun (ip, _, _, _) => decide (ip < alignedEnd)) (ip0, cp0, xp0, out)
  transformPtrs .little inp ip out cp xp (len - alignedLen)

/-- `shuffle_permute_unroll_2`, standard/transform/avx2.rs:10-20. -/
def transformAvx2 (inp out : Buf) (len : Nat) : Option Buf :=
  transformAvx2Ptrs inp 0 out 0 (len / 2) len

/-- `PERM_COLORS_BYTES`, standard/transform/avx512f.rs:10. -/
def permColors : List Nat := [0, 2, 4, 6, 8, 10, 12, 14, 16, 18, 20, 22, 24, 26, 28, 30]
/-- `PERM_INDICES_BYTES`, standard/transform/avx512f.rs:13. -/
def permIndices : List Nat := [1, 3, 5, 7, 9, 11, 13, 15, 17, 19, 21, 23, 25, 27, 29, 31]

/-- `permute_512_with_separate_pointers`, standard/transform/avx512f.rs:40-106. -/
def transformAvx512Ptrs (inp : Buf) (ip0 : Nat) (out : Buf) (cp0 xp0 len : Nat) : Option Buf := do
  let alignedLen := len - len % 128
  let alignedEnd := ip0 + alignedLen
  let (ip, cp, xp, out) ← asmLoop alignedLen (len + 1)
    (fun ((ip, cp, xp, out) : Nat × Nat × Nat × Buf) => do
      let zmm2 ← ld inp ip 64
      let zmm3 ← ld inp (ip + 64) 64
      let ip := ip + 128
      let zmm6 := zmm2
      let zmm6 := permt2d permColors zmm6 zmm3
      let zmm2 := permt2d permIndices zmm2 zmm3
      let out ← st out cp zmm6
      let cp := cp + 64
      let out ← st out xp zmm2
      let xp := xp + 64
      pure (ip, cp, xp, out))
    (fun (ip, _, _, _) => decide (ip < alignedEnd)) (ip0, cp0, xp0, out)
  transformPtrs .little inp ip out cp xp (len - alignedLen)

/-- `permute_512`, standard/transform/avx512f.rs:20-27. -/
def transformAvx512 (inp out : Buf) (len : Nat) : Option Buf :=
  transformAvx512Ptrs inp 0 out 0 (len / 2) len

/-- `unpck_untransform_unroll_2_with_components`, standard/untransform/sse2.rs:29-96. -/
def untransformSse2Ptrs (inp : Buf) (cp0 xp0 : Nat) (out : Buf) (op0 len : Nat) : Option Buf := do
  let alignedLen := len - len % 64
  let alignedEnd := cp0 + alignedLen / 2
  let (cp, xp, op, out) ← asmLoop alignedLen (len + 1)
    (fun ((cp, xp, op, out) : Nat × Nat × Nat × Buf) => do
      let xmm0 ← ld inp cp 16
      let xmm3 ← ld inp (cp + 16) 16
      let cp := cp + 32
      let xmm1 ← ld inp xp 16
      let xmm4 ← ld inp (xp + 16) 16
      let xp := xp + 32
      let xmm2 := xmm0
      let xmm5 := xmm3
      let xmm0 := punpckldq xmm0 xmm1
      let xmm3 := punpckldq xmm3 xmm4
      let xmm2 := punpckhdq xmm2 xmm1
      let xmm5 := punpckhdq xmm5 xmm4
      let out ← st out op xmm0
      let out ← st out (op + 16) xmm2
      let out ← st out (op + 32) xmm3
      let out ← st out (op + 48) xmm5
      let op := op + 64
      pure (cp, xp, op, out))
    (fun (cp, _, _, _) => decide (cp < alignedEnd)) (cp0, xp0, op0, out)
  untransformPtrs .little inp cp inp xp out op (len - alignedLen)

/-- `unpck_untransform_unroll_2`, standard/untransform/sse2.rs:10-20. -/
def untransformSse2 (inp out : Buf) (len : Nat) : Option Buf :=
  untransformSse2Ptrs inp 0 (len / 2) out 0 len

/-- `permd_untransform_unroll_2_with_components`, standard/untransform/avx2.rs:30-102. -/
def untransformAvx2Ptrs (inp : Buf) (cp0 xp0 : Nat) (out : Buf) (op0 len : Nat) : Option Buf := do
  let alignedLen := len - len % 128
  let alignedEnd := cp0 + alignedLen / 2
  let (cp, xp, op, out) ← asmLoop alignedLen (len + 1)
    (fun ((cp, xp, op, out) : Nat × Nat × Nat × Buf) => do
      let m0 ← ld inp cp 32
      let ymm0 := vpermq 0xD8 m0
      let m1 ← ld inp xp 32
      let ymm1 := vpermq 0xD8 m1
      let m4 ← ld inp (cp + 32) 32
      let ymm4 := vpermq 0xD8 m4
      let m5 ← ld inp (xp + 32) 32
      let ymm5 := vpermq 0xD8 m5
      let cp := cp + 64
      let xp := xp + 64
      let ymm2 := lanes2 punpckldq ymm0 ymm1
      let ymm3 := lanes2 punpckhdq ymm0 ymm1
      let ymm6 := lanes2 punpckldq ymm4 ymm5
      let ymm7 := lanes2 punpckhdq ymm4 ymm5
      let out ← st out op ymm2
      let out ← st out (op + 32) ymm3
      let out ← st out (op + 64) ymm6
      let out ← st out (op + 96) ymm7
      let op := op + 128
      pure (cp, xp, op, out))
    (fun (cp, _, _, _) => decide (cp < alignedEnd)) (cp0, xp0, op0, out)
  untransformPtrs .little inp cp inp xp out op (len - alignedLen)

/-- `permd_untransform_unroll_2`, standard/untransform/avx2.rs:10-21. -/
def untransformAvx2 (inp out : Buf) (len : Nat) : Option Buf :=
  untransformAvx2Ptrs inp 0 (len / 2) out 0 len

/-- `PERM_LOW_BYTES`, standard/untransform/avx512f.rs:49. -/
def permLow : List Nat := [0, 16, 1, 17, 2, 18, 3, 19, 4, 20, 5, 21, 6, 22, 7, 23]
/-- `PERM_HIGH_BYTES`, standard/untransform/avx512f.rs:51-52. -/
def permHigh : List Nat := [8, 24, 9, 25, 10, 26, 11, 27, 12, 28, 13, 29, 14, 30, 15, 31]

/-- `permute_512_untransform_unroll_2_with_components`, standard/untransform/avx512f.rs:36-116. -/
def untransformAvx512Ptrs (inp : Buf) (cp0 xp0 : Nat) (out : Buf) (op0 len : Nat) : Option Buf := do
  let alignedLen := len - len % 256
  let alignedEnd := cp0 + alignedLen / 2
  let (cp, xp, op, out) ← asmLoop alignedLen (len + 1)
    (fun ((cp, xp, op, out) : Nat × Nat × Nat × Buf) => do
      let zmm4 ← ld inp cp 64
      let zmm5 ← ld inp (cp + 64) 64
      let cp := cp + 128
      let zmm3 ← ld inp xp 64
      let zmm2 ← ld inp (xp + 64) 64
      let xp := xp + 128
      let zmm6 := zmm4
      let zmm6 := permt2d permLow zmm6 zmm3
      let zmm4 := permt2d permHigh zmm4 zmm3
      let zmm3 := zmm5
      let zmm3 := permt2d permLow zmm3 zmm2
      let zmm5 := permt2d permHigh zmm5 zmm2
      let out ← st out op zmm6
      let out ← st out (op + 64) zmm4
      let out ← st out (op + 128) zmm3
      let out ← st out (op + 192) zmm5
      let op := op + 256
      pure (cp, xp, op, out))
    (fun (cp, _, _, _) => decide (cp < alignedEnd)) (cp0, xp0, op0, out)
  untransformPtrs .little inp cp inp xp out op (len - alignedLen)

/-- `permute_512_untransform_unroll_2`, standard/untransform/avx512f.rs:16-27. -/
def untransformAvx512 (inp out : Buf) (len : Nat) : Option Buf :=
  untransformAvx512Ptrs inp 0 (len / 2) out 0 len

end Dlt.Bc1
