import Verif.Model.Bc1Std
import Verif.Model.Intrinsics
/-!
# BC1: vector kernels with split endpoints and/or decorrelation

Models the x86 kernels below `/repo/src/core/dxt-lossless-transform-bc1/src/transform/`
`with_recorrelate/`, `with_split_colour/` and `with_split_colour_and_recorr/`.

Simplification: the const-generic `VARIANT` and the wrappers that select it are one `Variant`
argument; `YCoCgVariant::None` is `unreachable_unchecked` in every one of them, here `none`.
`debug_assert!(block_count > 0)` is not modelled here (see `DESIGN.md`).
-/

namespace Dlt.Bc1
open Simd

/-- `PERM_COLOR0_EPI16`, with_split_colour/transform/avx512bw.rs:44-77, the same table in
with_split_colour_and_recorr/transform/avx512bw.rs:42-75. -/
def permColor0 : List Nat :=
  [0, 2, 4, 6, 8, 10, 12, 14, 16, 18, 20, 22, 24, 26, 28, 30, 32, 34, 36, 38, 40, 42, 44, 46,
   48, 50, 52, 54, 56, 58, 60, 62]
/-- `PERM_COLOR1_EPI16`, with_split_colour/transform/avx512bw.rs:78-111, the same table in
with_split_colour_and_recorr/transform/avx512bw.rs:76-109. -/
def permColor1 : List Nat :=
  [1, 3, 5, 7, 9, 11, 13, 15, 17, 19, 21, 23, 25, 27, 29, 31, 33, 35, 37, 39, 41, 43, 45, 47,
   49, 51, 53, 55, 57, 59, 61, 63]
/-- `perm_color_interleave_low`, with_split_colour/untransform/avx512bw.rs:28-61, the same table in
with_split_colour_and_recorr/untransform/avx512bw.rs:54-87. -/
def interleaveLow : List Nat :=
  [0, 32, 1, 33, 2, 34, 3, 35, 4, 36, 5, 37, 6, 38, 7, 39, 8, 40, 9, 41, 10, 42, 11, 43, 12,
   44, 13, 45, 14, 46, 15, 47]
/-- `perm_color_interleave_high`, with_split_colour/untransform/avx512bw.rs:63-96, the same table in
with_split_colour_and_recorr/untransform/avx512bw.rs:17-50. -/
def interleaveHigh : List Nat :=
  [16, 48, 17, 49, 18, 50, 19, 51, 20, 52, 21, 53, 22, 54, 23, 55, 24, 56, 25, 57, 26, 58,
   27, 59, 28, 60, 29, 61, 30, 62, 31, 63]
/-- `perm_output_0`, with_split_colour/untransform/avx512bw.rs:100-133, the same table in
with_split_colour_and_recorr/untransform/avx512bw.rs:91-124. -/
def permOutput0 : List Nat :=
  [0, 1, 32, 33, 2, 3, 34, 35, 4, 5, 36, 37, 6, 7, 38, 39, 8, 9, 40, 41, 10, 11, 42, 43, 12,
   13, 44, 45, 14, 15, 46, 47]
/-- `perm_output_1`, with_split_colour/untransform/avx512bw.rs:135-168, the same table in
with_split_colour_and_recorr/untransform/avx512bw.rs:126-159. -/
def permOutput1 : List Nat :=
  [16, 17, 48, 49, 18, 19, 50, 51, 20, 21, 52, 53, 22, 23, 54, 55, 24, 25, 56, 57, 26, 27,
   58, 59, 28, 29, 60, 61, 30, 31, 62, 63]

/-- `transform_with_split_colour`, with_split_colour/transform/sse2.rs:10-84. -/
def transformSplitSse2 (inp : Buf) (ip0 : Nat) (out : Buf)
    (c0p0 c1p0 xp0 blockCount : Nat) : Option Buf := do
  let inputEnd := ip0 + blockCount / 8 * 8 * 8
  let (ip, c0p, c1p, xp, out) ← whileM (blockCount + 1) (fun (ip, _, _, _, _) => decide (ip < inputEnd))
    (fun ((ip, c0p, c1p, xp, out) : Nat × Nat × Nat × Nat × Buf) => do
      let data0 ← ld inp ip 16
      let data1 ← ld inp (ip + 16) 16
      let data2 ← ld inp (ip + 32) 16
      let data3 ← ld inp (ip + 48) 16
      let colours0 := shufps 0x88 data0 data1
      let colours1 := shufps 0x88 data2 data3
      let idx0 := shufps 0xDD data0 data1
      let idx1 := shufps 0xDD data2 data3
      let grouped0 := pshufhw 0xD8 (pshuflw 0xD8 colours0)
      let grouped1 := pshufhw 0xD8 (pshuflw 0xD8 colours1)
      let colours0 := shufps 0x88 grouped0 grouped1
      let colours1 := shufps 0xDD grouped0 grouped1
      let out ← st out c0p colours0
      let out ← st out c1p colours1
      let out ← st out xp idx0
      let out ← st out (xp + 16) idx1
      pure (ip + 64, c0p + 16, c1p + 16, xp + 32, out)) (ip0, c0p0, c1p0, xp0, out)
  transformSplitGeneric .little inp ip out c0p c1p xp (blockCount % 8)

/-- `transform_with_split_colour`, with_split_colour/transform/avx2.rs:10-114. -/
def transformSplitAvx2 (inp : Buf) (ip0 : Nat) (out : Buf)
    (c0p0 c1p0 xp0 blockCount : Nat) : Option Buf := do
  let len := blockCount * 8
  let alignedLen := len - len % 128
  let inputEnd := ip0 + alignedLen
  let (ip, c0p, c1p, xp, out) ← whileM (blockCount + 1) (fun (ip, _, _, _, _) => decide (ip < inputEnd))
    (fun ((ip, c0p, c1p, xp, out) : Nat × Nat × Nat × Nat × Buf) => do
      let data0 ← ld inp ip 32
      let data1 ← ld inp (ip + 32) 32
      let data2 ← ld inp (ip + 64) 32
      let data3 ← ld inp (ip + 96) 32
      let colorsOnly0 := vshufps 0x88 data0 data1
      let colorsOnly1 := vshufps 0x88 data2 data3
      let idx0 := vpermq 0xD8 (vshufps 0xDD data0 data1)
      let idx1 := vpermq 0xD8 (vshufps 0xDD data2 data3)
      let grouped0 := lanes1 (pshufhw 0xD8) (lanes1 (pshuflw 0xD8) colorsOnly0)
      let grouped1 := lanes1 (pshufhw 0xD8) (lanes1 (pshuflw 0xD8) colorsOnly1)
      let colorsGrouped0 := vshufps 0x88 grouped0 grouped1
      let colorsGrouped1 := vshufps 0xDD grouped0 grouped1
      let colours0 := vpermd [0, 4, 1, 5, 2, 6, 3, 7] colorsGrouped0
      let colours1 := vpermd [0, 4, 1, 5, 2, 6, 3, 7] colorsGrouped1
      let out ← st out c0p colours0
      let out ← st out c1p colours1
      let out ← st out xp idx0
      let out ← st out (xp + 32) idx1
      pure (ip + 128, c0p + 32, c1p + 32, xp + 64, out)) (ip0, c0p0, c1p0, xp0, out)
  transformSplitGeneric .little inp ip out c0p c1p xp ((len - alignedLen) / 8)

/-- `transform_with_split_colour`, with_split_colour/transform/avx512bw.rs:18-160. -/
def transformSplitAvx512 (inp : Buf) (ip0 : Nat) (out : Buf)
    (c0p0 c1p0 xp0 blockCount : Nat) : Option Buf := do
  let alignedBlocks := blockCount - blockCount % 32
  let inputEnd := ip0 + alignedBlocks * 8
  let (ip, c0p, c1p, xp, out) ← whileM (blockCount + 1) (fun (ip, _, _, _, _) => decide (ip < inputEnd))
    (fun ((ip, c0p, c1p, xp, out) : Nat × Nat × Nat × Nat × Buf) => do
      let data0 ← ld inp ip 64
      let data1 ← ld inp (ip + 64) 64
      let data2 ← ld inp (ip + 128) 64
      let data3 ← ld inp (ip + 192) 64
      let colors0 := permt2d permColors data0 data1
      let colors1 := permt2d permColors data2 data3
      let idx0 := permt2d permIndices data0 data1
      let idx1 := permt2d permIndices data2 data3
      let colours0 := permt2w permColor0 colors0 colors1
      let colours1 := permt2w permColor1 colors0 colors1
      let out ← st out c0p colours0
      let out ← st out c1p colours1
      let out ← st out xp idx0
      let out ← st out (xp + 64) idx1
      pure (ip + 256, c0p + 64, c1p + 64, xp + 128, out)) (ip0, c0p0, c1p0, xp0, out)
  transformSplitGeneric .little inp ip out c0p c1p xp (blockCount - alignedBlocks)

/-- `transform_impl` and its callers, with_split_colour_and_recorr/transform/sse2.rs:14-172. -/
def transformSplitRecorrSse2 (inp : Buf) (ip0 : Nat) (out : Buf)
    (c0p0 c1p0 xp0 blockCount : Nat) (v : Variant) : Option Buf := do
  if v = .none then none
  let inputEnd := ip0 + blockCount / 8 * 8 * 8
  let (ip, c0p, c1p, xp, out) ← whileM (blockCount + 1) (fun (ip, _, _, _, _) => decide (ip < inputEnd))
    (fun ((ip, c0p, c1p, xp, out) : Nat × Nat × Nat × Nat × Buf) => do
      let data0 ← ld inp ip 16
      let data1 ← ld inp (ip + 16) 16
      let data2 ← ld inp (ip + 32) 16
      let data3 ← ld inp (ip + 48) 16
      let colours0 := shufps 0x88 data0 data1
      let colours1 := shufps 0x88 data2 data3
      let idx0 := shufps 0xDD data0 data1
      let idx1 := shufps 0xDD data2 data3
      let grouped0 := pshufhw 0xD8 (pshuflw 0xD8 colours0)
      let grouped1 := pshufhw 0xD8 (pshuflw 0xD8 colours1)
      let colours0 := shufps 0x88 grouped0 grouped1
      let colours1 := shufps 0xDD grouped0 grouped1
      let colours0 := mapLanes (decorrSse2 v) colours0
      let colours1 := mapLanes (decorrSse2 v) colours1
      let out ← st out c0p colours0
      let out ← st out c1p colours1
      let out ← st out xp idx0
      let out ← st out (xp + 16) idx1
      pure (ip + 64, c0p + 16, c1p + 16, xp + 32, out)) (ip0, c0p0, c1p0, xp0, out)
  transformSplitRecorrGeneric .little inp ip out c0p c1p xp (blockCount % 8) v

/-- `transform_impl` and its callers, with_split_colour_and_recorr/transform/avx2.rs:14-194. -/
def transformSplitRecorrAvx2 (inp : Buf) (ip0 : Nat) (out : Buf)
    (c0p0 c1p0 xp0 blockCount : Nat) (v : Variant) : Option Buf := do
  if v = .none then none
  let inputEnd := ip0 + blockCount / 16 * 16 * 8
  let (ip, c0p, c1p, xp, out) ← whileM (blockCount + 1) (fun (ip, _, _, _, _) => decide (ip < inputEnd))
    (fun ((ip, c0p, c1p, xp, out) : Nat × Nat × Nat × Nat × Buf) => do
      let data0 ← ld inp ip 32
      let data1 ← ld inp (ip + 32) 32
      let data2 ← ld inp (ip + 64) 32
      let data3 ← ld inp (ip + 96) 32
      let colorsOnly0 := vshufps 0x88 data0 data1
      let colorsOnly1 := vshufps 0x88 data2 data3
      let idx0 := vpermq 0xD8 (vshufps 0xDD data0 data1)
      let idx1 := vpermq 0xD8 (vshufps 0xDD data2 data3)
      let grouped0 := lanes1 (pshufhw 0xD8) (lanes1 (pshuflw 0xD8) colorsOnly0)
      let grouped1 := lanes1 (pshufhw 0xD8) (lanes1 (pshuflw 0xD8) colorsOnly1)
      let colorsGrouped0 := vshufps 0x88 grouped0 grouped1
      let colorsGrouped1 := vshufps 0xDD grouped0 grouped1
      let colours0 := vpermd [0, 4, 1, 5, 2, 6, 3, 7] colorsGrouped0
      let colours1 := vpermd [0, 4, 1, 5, 2, 6, 3, 7] colorsGrouped1
      let colours0 := mapLanes (decorrAvx2 v) colours0
      let colours1 := mapLanes (decorrAvx2 v) colours1
      let out ← st out c0p colours0
      let out ← st out c1p colours1
      let out ← st out xp idx0
      let out ← st out (xp + 32) idx1
      pure (ip + 128, c0p + 32, c1p + 32, xp + 64, out)) (ip0, c0p0, c1p0, xp0, out)
  transformSplitRecorrGeneric .little inp ip out c0p c1p xp (blockCount % 16) v

/-- `transform_impl` and its callers, with_split_colour_and_recorr/transform/avx512bw.rs:16-246. -/
def transformSplitRecorrAvx512 (inp : Buf) (ip0 : Nat) (out : Buf)
    (c0p0 c1p0 xp0 blockCount : Nat) (v : Variant) : Option Buf := do
  if v = .none then none
  let alignedBlocks := blockCount - blockCount % 32
  let inputEnd := ip0 + alignedBlocks * 8
  let (ip, c0p, c1p, xp, out) ← whileM (blockCount + 1) (fun (ip, _, _, _, _) => decide (ip < inputEnd))
    (fun ((ip, c0p, c1p, xp, out) : Nat × Nat × Nat × Nat × Buf) => do
      let data0 ← ld inp ip 64
      let data1 ← ld inp (ip + 64) 64
      let data2 ← ld inp (ip + 128) 64
      let data3 ← ld inp (ip + 192) 64
      let colors0 := permt2d permColors data0 data1
      let colors1 := permt2d permColors data2 data3
      let idx0 := permt2d permIndices data0 data1
      let idx1 := permt2d permIndices data2 data3
      let colours0 := permt2w permColor0 colors0 colors1
      let colours1 := permt2w permColor1 colors0 colors1
      let colours0 := mapLanes (decorrAvx512 v) colours0
      let colours1 := mapLanes (decorrAvx512 v) colours1
      let out ← st out c0p colours0
      let out ← st out c1p colours1
      let out ← st out xp idx0
      let out ← st out (xp + 64) idx1
      pure (ip + 256, c0p + 64, c1p + 64, xp + 128, out)) (ip0, c0p0, c1p0, xp0, out)
  transformSplitRecorrGeneric .little inp ip out c0p c1p xp (blockCount - alignedBlocks) v

/-- `untransform_with_split_colour`, with_split_colour/untransform/sse2.rs:9-61. -/
def untransformSplitSse2 (inp : Buf) (c0p0 c1p0 xp0 : Nat) (out : Buf)
    (op0 blockCount : Nat) : Option Buf := do
  let alignedCount := blockCount - blockCount % 8
  let color0End := c0p0 + alignedCount * 2
  let (c0p, c1p, xp, op, out) ← whileM (blockCount + 1)
    (fun (c0p, _, _, _, _) => decide (c0p < color0End))
    (fun ((c0p, c1p, xp, op, out) : Nat × Nat × Nat × Nat × Buf) => do
      let color0s ← ld inp c0p 16
      let color1s ← ld inp c1p 16
      let indices0 ← ld inp xp 16
      let indices1 ← ld inp (xp + 16) 16
      let colors0 := punpcklwd color0s color1s
      let colors1 := punpckhwd color0s color1s
      let blocks0 := punpckldq colors0 indices0
      let blocks1 := punpckhdq colors0 indices0
      let blocks2 := punpckldq colors1 indices1
      let blocks3 := punpckhdq colors1 indices1
      let out ← st out op blocks0
      let out ← st out (op + 16) blocks1
      let out ← st out (op + 32) blocks2
      let out ← st out (op + 48) blocks3
      pure (c0p + 16, c1p + 16, xp + 32, op + 64, out)) (c0p0, c1p0, xp0, op0, out)
  untransformSplitGeneric .little inp c0p c1p xp out op (blockCount - alignedCount)

/-- `untransform_with_split_colour`, with_split_colour/untransform/avx2.rs:9-70. -/
def untransformSplitAvx2 (inp : Buf) (c0p0 c1p0 xp0 : Nat) (out : Buf)
    (op0 blockCount : Nat) : Option Buf := do
  let alignedCount := blockCount - blockCount % 16
  let color0End := c0p0 + alignedCount * 2
  let (c0p, c1p, xp, op, out) ← whileM (blockCount + 1)
    (fun (c0p, _, _, _, _) => decide (c0p < color0End))
    (fun ((c0p, c1p, xp, op, out) : Nat × Nat × Nat × Nat × Buf) => do
      let color0s ← ld inp c0p 32
      let color1s ← ld inp c1p 32
      let indices0 ← ld inp xp 32
      let indices1 ← ld inp (xp + 32) 32
      let colors00 := lanes2 punpcklwd color0s color1s
      let colors10 := lanes2 punpckhwd color0s color1s
      let colors0 := vperm2i128 0x20 colors00 colors10
      let colors1 := vperm2i128 0x31 colors00 colors10
      let blocks0 := lanes2 punpckldq colors0 indices0
      let blocks1 := lanes2 punpckhdq colors0 indices0
      let blocks2 := lanes2 punpckldq colors1 indices1
      let blocks3 := lanes2 punpckhdq colors1 indices1
      let output0 := vperm2i128 0x20 blocks0 blocks1
      let output1 := vperm2i128 0x31 blocks0 blocks1
      let output2 := vperm2i128 0x20 blocks2 blocks3
      let output3 := vperm2i128 0x31 blocks2 blocks3
      let out ← st out op output0
      let out ← st out (op + 32) output1
      let out ← st out (op + 64) output2
      let out ← st out (op + 96) output3
      pure (c0p + 32, c1p + 32, xp + 64, op + 128, out)) (c0p0, c1p0, xp0, op0, out)
  untransformSplitGeneric .little inp c0p c1p xp out op (blockCount - alignedCount)

/-- `untransform_with_split_colour`, with_split_colour/untransform/avx512bw.rs:10-214. -/
def untransformSplitAvx512 (inp : Buf) (c0p0 c1p0 xp0 : Nat) (out : Buf)
    (op0 blockCount : Nat) : Option Buf := do
  let alignedCount := blockCount - blockCount % 32
  let color0End := c0p0 + alignedCount * 2
  let (c0p, c1p, xp, op, out) ← whileM (blockCount + 1)
    (fun (c0p, _, _, _, _) => decide (c0p < color0End))
    (fun ((c0p, c1p, xp, op, out) : Nat × Nat × Nat × Nat × Buf) => do
      let color0s ← ld inp c0p 64
      let color1s ← ld inp c1p 64
      let indices0 ← ld inp xp 64
      let indices1 ← ld inp (xp + 64) 64
      let colors0 := permt2w interleaveLow color0s color1s
      let colors1 := permt2w interleaveHigh color0s color1s
      let output0 := permt2w permOutput0 colors0 indices0
      let output1 := permt2w permOutput1 colors0 indices0
      let output2 := permt2w permOutput0 colors1 indices1
      let output3 := permt2w permOutput1 colors1 indices1
      let out ← st out op output0
      let out ← st out (op + 64) output1
      let out ← st out (op + 128) output2
      let out ← st out (op + 192) output3
      pure (c0p + 64, c1p + 64, xp + 128, op + 256, out)) (c0p0, c1p0, xp0, op0, out)
  untransformSplitGeneric .little inp c0p c1p xp out op (blockCount - alignedCount)

/-- `untransform_with_split_colour_and_recorr` and `untransform_recorr`, with_split_colour_and_recorr/untransform/sse2.rs:11-152. -/
def untransformSplitRecorrSse2 (inp : Buf) (c0p0 c1p0 xp0 : Nat) (out : Buf)
    (op0 blockCount : Nat) (v : Variant) : Option Buf := do
  if v = .none then none
  let alignedCount := blockCount - blockCount % 8
  let color0End := c0p0 + alignedCount * 2
  let (c0p, c1p, xp, op, out) ← whileM (blockCount + 1)
    (fun (c0p, _, _, _, _) => decide (c0p < color0End))
    (fun ((c0p, c1p, xp, op, out) : Nat × Nat × Nat × Nat × Buf) => do
      let color0s ← ld inp c0p 16
      let color1s ← ld inp c1p 16
      let indices0 ← ld inp xp 16
      let indices1 ← ld inp (xp + 16) 16
      let color0s := mapLanes (recorrSse2 v) color0s
      let color1s := mapLanes (recorrSse2 v) color1s
      let colors0 := punpcklwd color0s color1s
      let colors1 := punpckhwd color0s color1s
      let blocks0 := punpckldq colors0 indices0
      let blocks1 := punpckhdq colors0 indices0
      let blocks2 := punpckldq colors1 indices1
      let blocks3 := punpckhdq colors1 indices1
      let out ← st out op blocks0
      let out ← st out (op + 16) blocks1
      let out ← st out (op + 32) blocks2
      let out ← st out (op + 48) blocks3
      pure (c0p + 16, c1p + 16, xp + 32, op + 64, out)) (c0p0, c1p0, xp0, op0, out)
  untransformSplitRecorrLoop .little inp c0p c1p xp out op (blockCount - alignedCount) v

/-- `untransform_with_split_colour_and_recorr` and `untransform_recorr`, with_split_colour_and_recorr/untransform/avx2.rs:11-162. -/
def untransformSplitRecorrAvx2 (inp : Buf) (c0p0 c1p0 xp0 : Nat) (out : Buf)
    (op0 blockCount : Nat) (v : Variant) : Option Buf := do
  if v = .none then none
  let alignedCount := blockCount - blockCount % 16
  let color0End := c0p0 + alignedCount * 2
  let (c0p, c1p, xp, op, out) ← whileM (blockCount + 1)
    (fun (c0p, _, _, _, _) => decide (c0p < color0End))
    (fun ((c0p, c1p, xp, op, out) : Nat × Nat × Nat × Nat × Buf) => do
      let color0s ← ld inp c0p 32
      let color1s ← ld inp c1p 32
      let indices0 ← ld inp xp 32
      let indices1 ← ld inp (xp + 32) 32
      let color0s := mapLanes (recorrAvx2 v) color0s
      let color1s := mapLanes (recorrAvx2 v) color1s
      let colors00 := lanes2 punpcklwd color0s color1s
      let colors10 := lanes2 punpckhwd color0s color1s
      let colors0 := vperm2i128 0x20 colors00 colors10
      let colors1 := vperm2i128 0x31 colors00 colors10
      let blocks0 := lanes2 punpckldq colors0 indices0
      let blocks1 := lanes2 punpckhdq colors0 indices0
      let blocks2 := lanes2 punpckldq colors1 indices1
      let blocks3 := lanes2 punpckhdq colors1 indices1
      let output0 := vperm2i128 0x20 blocks0 blocks1
      let output1 := vperm2i128 0x31 blocks0 blocks1
      let output2 := vperm2i128 0x20 blocks2 blocks3
      let output3 := vperm2i128 0x31 blocks2 blocks3
      let out ← st out op output0
      let out ← st out (op + 32) output1
      let out ← st out (op + 64) output2
      let out ← st out (op + 96) output3
      pure (c0p + 32, c1p + 32, xp + 64, op + 128, out)) (c0p0, c1p0, xp0, op0, out)
  untransformSplitRecorrLoop .little inp c0p c1p xp out op (blockCount - alignedCount) v

/-- `untransform_with_split_colour_and_recorr` and `untransform_recorr`,
with_split_colour_and_recorr/untransform/avx512bw.rs:163-323. -/
def untransformSplitRecorrAvx512 (inp : Buf) (c0p0 c1p0 xp0 : Nat) (out : Buf)
    (op0 blockCount : Nat) (v : Variant) : Option Buf := do
  if v = .none then none
  let alignedCount := blockCount - blockCount % 32
  let color0End := c0p0 + alignedCount * 2
  let (c0p, c1p, xp, op, out) ← whileM (blockCount + 1)
    (fun (c0p, _, _, _, _) => decide (c0p < color0End))
    (fun ((c0p, c1p, xp, op, out) : Nat × Nat × Nat × Nat × Buf) => do
      let color0s ← ld inp c0p 64
      let color1s ← ld inp c1p 64
      let indices0 ← ld inp xp 64
      let indices1 ← ld inp (xp + 64) 64
      let color0s := mapLanes (recorrAvx512 v) color0s
      let color1s := mapLanes (recorrAvx512 v) color1s
      let colors0 := permt2w interleaveLow color0s color1s
      let colors1 := permt2w interleaveHigh color0s color1s
      let output0 := permt2w permOutput0 colors0 indices0
      let output1 := permt2w permOutput1 colors0 indices0
      let output2 := permt2w permOutput0 colors1 indices1
      let output3 := permt2w permOutput1 colors1 indices1
      let out ← st out op output0
      let out ← st out (op + 64) output1
      let out ← st out (op + 128) output2
      let out ← st out (op + 192) output3
      pure (c0p + 64, c1p + 64, xp + 128, op + 256, out)) (c0p0, c1p0, xp0, op0, out)
  untransformSplitRecorrLoop .little inp c0p c1p xp out op (blockCount - alignedCount) v

/-- `transform_decorr` and its callers, with_recorrelate/transform/sse2.rs:15-151. -/
def transformRecorrSse2 (inp : Buf) (ip0 : Nat) (out : Buf) (cp0 xp0 numBlocks : Nat)
    (v : Variant) : Option Buf := do
  if v = .none then none
  let inputEnd := ip0 + numBlocks / 8 * 8 * 8
  let (ip, cp, xp, out) ← whileM (numBlocks + 1) (fun (ip, _, _, _) => decide (ip < inputEnd))
    (fun ((ip, cp, xp, out) : Nat × Nat × Nat × Buf) => do
      let data0 ← ld inp ip 16
      let data1 ← ld inp (ip + 16) 16
      let data2 ← ld inp (ip + 32) 16
      let data3 ← ld inp (ip + 48) 16
      let colors0 := shufps 0x88 data0 data1
      let colors1 := shufps 0x88 data2 data3
      let indices0 := shufps 0xDD data0 data1
      let indices1 := shufps 0xDD data2 data3
      let colors0 := mapLanes (decorrSse2 v) colors0
      let colors1 := mapLanes (decorrSse2 v) colors1
      let out ← st out cp colors0
      let out ← st out (cp + 16) colors1
      let out ← st out xp indices0
      let out ← st out (xp + 16) indices1
      pure (ip + 64, cp + 32, xp + 32, out)) (ip0, cp0, xp0, out)
  transformRecorrGeneric .little inp ip out cp xp (numBlocks % 8) v

/-- `transform_decorr` and its callers, with_recorrelate/transform/avx2.rs:14-156. -/
def transformRecorrAvx2 (inp : Buf) (ip0 : Nat) (out : Buf) (cp0 xp0 numBlocks : Nat)
    (v : Variant) : Option Buf := do
  if v = .none then none
  let inputEnd := ip0 + numBlocks / 16 * 16 * 8
  let (ip, cp, xp, out) ← whileM (numBlocks + 1) (fun (ip, _, _, _) => decide (ip < inputEnd))
    (fun ((ip, cp, xp, out) : Nat × Nat × Nat × Buf) => do
      let data0 ← ld inp ip 32
      let data1 ← ld inp (ip + 32) 32
      let data2 ← ld inp (ip + 64) 32
      let data3 ← ld inp (ip + 96) 32
      let colors0 := vpermq 0xD8 (vshufps 0x88 data0 data1)
      let colors1 := vpermq 0xD8 (vshufps 0x88 data2 data3)
      let indices0 := vpermq 0xD8 (vshufps 0xDD data0 data1)
      let indices1 := vpermq 0xD8 (vshufps 0xDD data2 data3)
      let colors0 := mapLanes (decorrAvx2 v) colors0
      let colors1 := mapLanes (decorrAvx2 v) colors1
      let out ← st out cp colors0
      let out ← st out (cp + 32) colors1
      let out ← st out xp indices0
      let out ← st out (xp + 32) indices1
      pure (ip + 128, cp + 64, xp + 64, out)) (ip0, cp0, xp0, out)
  transformRecorrGeneric .little inp ip out cp xp (numBlocks % 16) v

/-- `transform_decorr` and its callers, with_recorrelate/transform/avx512bw.rs:19-147; the permutation tables (lines
14-15) are those of the standard kernel. -/
def transformRecorrAvx512 (inp : Buf) (ip0 : Nat) (out : Buf) (cp0 xp0 numBlocks : Nat)
    (v : Variant) : Option Buf := do
  if v = .none then none
  let inputEnd := ip0 + numBlocks / 32 * 32 * 8
  let (ip, cp, xp, out) ← whileM (numBlocks + 1) (fun (ip, _, _, _) => decide (ip < inputEnd))
    (fun ((ip, cp, xp, out) : Nat × Nat × Nat × Buf) => do
      let data0 ← ld inp ip 64
      let data1 ← ld inp (ip + 64) 64
      let data2 ← ld inp (ip + 128) 64
      let data3 ← ld inp (ip + 192) 64
      let colors0 := mapLanes (decorrAvx512 v) (permt2d permColors data0 data1)
      let colors1 := mapLanes (decorrAvx512 v) (permt2d permColors data2 data3)
      let indices0 := permt2d permIndices data0 data1
      let indices1 := permt2d permIndices data2 data3
      let out ← st out cp colors0
      let out ← st out (cp + 64) colors1
      let out ← st out xp indices0
      let out ← st out (xp + 64) indices1
      pure (ip + 256, cp + 128, xp + 128, out)) (ip0, cp0, xp0, out)
  transformRecorrGeneric .little inp ip out cp xp (numBlocks % 32) v

/-- `untransform_with_recorrelate` and `untransform_recorr`, with_recorrelate/untransform/sse2.rs:13-143.
`num_blocks & !7` is `num_blocks - num_blocks % 8`. -/
def untransformRecorrSse2 (inp : Buf) (cp0 xp0 : Nat) (out : Buf) (op0 numBlocks : Nat)
    (v : Variant) : Option Buf := do
  if v = .none then none
  let vectorized := numBlocks - numBlocks % 8
  let colorsEnd := cp0 + vectorized * 4
  let (cp, xp, op, out) ← whileM (numBlocks + 1) (fun (cp, _, _, _) => decide (cp < colorsEnd))
    (fun ((cp, xp, op, out) : Nat × Nat × Nat × Buf) => do
      let colors0 ← ld inp cp 16
      let colors1 ← ld inp (cp + 16) 16
      let indices0 ← ld inp xp 16
      let indices1 ← ld inp (xp + 16) 16
      let recorr0 := mapLanes (recorrSse2 v) colors0
      let recorr1 := mapLanes (recorrSse2 v) colors1
      let interleaved0 := punpckldq recorr0 indices0
      let interleaved1 := punpckldq recorr1 indices1
      let interleaved2 := punpckhdq recorr0 indices0
      let interleaved3 := punpckhdq recorr1 indices1
      let out ← st out op interleaved0
      let out ← st out (op + 16) interleaved2
      let out ← st out (op + 32) interleaved1
      let out ← st out (op + 48) interleaved3
      pure (cp + 32, xp + 32, op + 64, out)) (cp0, xp0, op0, out)
  untransformRecorrGeneric .little inp cp xp out op (numBlocks - vectorized) v

/-- `untransform_with_recorrelate` and `untransform_recorr`, with_recorrelate/untransform/avx2.rs:11-141.
`num_blocks & !15` is `num_blocks - num_blocks % 16`. -/
def untransformRecorrAvx2 (inp : Buf) (cp0 xp0 : Nat) (out : Buf) (op0 numBlocks : Nat)
    (v : Variant) : Option Buf := do
  if v = .none then none
  let vectorized := numBlocks - numBlocks % 16
  let colorsEnd := cp0 + vectorized * 4
  let (cp, xp, op, out) ← whileM (numBlocks + 1) (fun (cp, _, _, _) => decide (cp < colorsEnd))
    (fun ((cp, xp, op, out) : Nat × Nat × Nat × Buf) => do
      let colors0 ← ld inp cp 32
      let colors1 ← ld inp (cp + 32) 32
      let indices0 ← ld inp xp 32
      let indices1 ← ld inp (xp + 32) 32
      let colorsPerm0 := vpermq 0xD8 colors0
      let colorsPerm1 := vpermq 0xD8 colors1
      let indicesPerm0 := vpermq 0xD8 indices0
      let indicesPerm1 := vpermq 0xD8 indices1
      let recorr0 := mapLanes (recorrAvx2 v) colorsPerm0
      let recorr1 := mapLanes (recorrAvx2 v) colorsPerm1
      let output0 := lanes2 punpckldq recorr0 indicesPerm0
      let output1 := lanes2 punpckhdq recorr0 indicesPerm0
      let output2 := lanes2 punpckldq recorr1 indicesPerm1
      let output3 := lanes2 punpckhdq recorr1 indicesPerm1
      let out ← st out op output0
      let out ← st out (op + 32) output1
      let out ← st out (op + 64) output2
      let out ← st out (op + 96) output3
      pure (cp + 64, xp + 64, op + 128, out)) (cp0, xp0, op0, out)
  untransformRecorrGeneric .little inp cp xp out op (numBlocks - vectorized) v

/-- `untransform_with_recorrelate` and `untransform_recorr`, with_recorrelate/untransform/avx512bw.rs:12-148.
`num_blocks & !31` is `num_blocks - num_blocks % 32`.  The tables (lines 79-81) are those of the
standard kernel. -/
def untransformRecorrAvx512 (inp : Buf) (cp0 xp0 : Nat) (out : Buf) (op0 numBlocks : Nat)
    (v : Variant) : Option Buf := do
  if v = .none then none
  let vectorized := numBlocks - numBlocks % 32
  let colorsEnd := cp0 + vectorized * 4
  let (_, _, _, out) ← whileM (numBlocks + 1) (fun (cp, _, _, _) => decide (cp < colorsEnd))
    (fun ((cp, xp, op, out) : Nat × Nat × Nat × Buf) => do
      let colors0 ← ld inp cp 64
      let colors1 ← ld inp (cp + 64) 64
      let indices0 ← ld inp xp 64
      let indices1 ← ld inp (xp + 64) 64
      let recorr0 := mapLanes (recorrAvx512 v) colors0
      let recorr1 := mapLanes (recorrAvx512 v) colors1
      let output0 := permt2d permLow recorr0 indices0
      let output1 := permt2d permHigh recorr0 indices0
      let output2 := permt2d permLow recorr1 indices1
      let output3 := permt2d permHigh recorr1 indices1
      let out ← st out op output0
      let out ← st out (op + 64) output1
      let out ← st out (op + 128) output2
      let out ← st out (op + 192) output3
      pure (cp + 128, xp + 128, op + 256, out)) (cp0, xp0, op0, out)
  untransformRecorrGeneric .little inp (cp0 + vectorized * 4) (xp0 + vectorized * 4) out
    (op0 + vectorized * 8) (numBlocks - vectorized) v

end Dlt.Bc1
