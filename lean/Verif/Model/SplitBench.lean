import Verif.Model.SplitEndpoints
/-!
# Splitting colour endpoints: the implementations kept for benchmarking

Models `/repo/src/core/dxt-lossless-transform-common/src/transforms/split_565_color_endpoints/bench/`,
compiled with the feature `bench`.

Simplification: as in `Verif.Model.SplitEndpoints`, `input < end.sub(k)` is a comparison of integers, so
a pointer before the buffer (for short inputs) is not an error.
-/

namespace Dlt.Split
open Simd

/-- `get_first2bytes`, bench/portable64.rs:647-651 (big-endian) and 671-675 (little-endian). -/
def getFirst64 : Endian → U64 → U16
  | .big, v => (v >>> 48).setWidth 16
  | .little, v => v.setWidth 16

/-- `get_second2bytes`, bench/portable64.rs:653-657 (big-endian) and 677-681 (little-endian). -/
def getSecond64 : Endian → U64 → U16
  | .big, v => (v >>> 32).setWidth 16
  | .little, v => (v >>> 16).setWidth 16

/-- `get_third2bytes`, bench/portable64.rs:659-663 (big-endian) and 683-687 (little-endian). -/
def getThird64 : Endian → U64 → U16
  | .big, v => (v >>> 16).setWidth 16
  | .little, v => (v >>> 32).setWidth 16

/-- `get_fourth2bytes`, bench/portable64.rs:665-669 (big-endian) and 689-693 (little-endian). -/
def getFourth64 : Endian → U64 → U16
  | .big, v => v.setWidth 16
  | .little, v => (v >>> 48).setWidth 16

/-- `combine_u16_pair_u32`, bench/portable64.rs:634-638 (big-endian) and 620-624 (little-endian). -/
def combinePair : Endian → U16 → U16 → U32
  | .big, low, high => (low.zeroExtend 32 <<< 16) ||| high.zeroExtend 32
  | .little, low, high => low.zeroExtend 32 ||| (high.zeroExtend 32 <<< 16)

/-- `combine_u16_quad_u64`, bench/portable64.rs:641-645 (big-endian) and 627-631 (little-endian). -/
def combineQuad : Endian → U16 → U16 → U16 → U16 → U64
  | .big, a, b, c, d =>
    (a.zeroExtend 64 <<< 48) ||| (b.zeroExtend 64 <<< 32) ||| (c.zeroExtend 64 <<< 16) ||| d.zeroExtend 64
  | .little, a, b, c, d =>
    a.zeroExtend 64 ||| (b.zeroExtend 64 <<< 16) ||| (c.zeroExtend 64 <<< 32) ||| (d.zeroExtend 64 <<< 48)

/-- Apply an operation to each double word of a 128-bit register. -/
def dwords (f : U32 → U32) (r : Buf) : Buf :=
  [0, 1, 2, 3].flatMap (fun i => to32 .little (f (of32 .little (elem 4 r i))))

/-- `pslld a, imm` (`_mm_slli_epi32`). -/
def pslld (k : Nat) (r : Buf) : Buf := dwords (fun w => w <<< k) r

/-- `psrad a, imm` (`_mm_srai_epi32`): arithmetic shift. -/
def psrad (k : Nat) (r : Buf) : Buf := dwords (fun w => w.sshiftRight k) r

/-- Signed saturation of a double word to a word. -/
def satI16 (w : U32) : U16 :=
  if w.toInt < -32768 then 0x8000 else if 32767 < w.toInt then 0x7FFF else w.setWidth 16

/-- `packssdw a, b` (`_mm_packs_epi32`): the double words of `a`, then those of `b`, saturated to words. -/
def packssdw (a b : Buf) : Buf :=
  [0, 1, 2, 3].flatMap (fun i => to16 .little (satI16 (of32 .little (elem 4 a i)))) ++
  [0, 1, 2, 3].flatMap (fun i => to16 .little (satI16 (of32 .little (elem 4 b i))))

/-- `u64`, bench/portable64.rs:19-55. -/
def benchU64 (e : Endian) (inp out : Buf) (len : Nat) : Option Buf := do
  let (ip, lo, hi, out) ← whileM (len + 1) (fun ((ip, _, _, _) : Nat × Nat × Nat × Buf) => decide (ip + 8 < len))
    (fun ((ip, lo, hi, out) : Nat × Nat × Nat × Buf) => do
      let color0 ← ld64 e inp ip
      let ip := ip + 8
      let out ← st16 e out lo (getFirst64 e color0)
      let out ← st16 e out hi (getSecond64 e color0)
      let out ← st16 e out (lo + 2) (getThird64 e color0)
      let out ← st16 e out (hi + 2) (getFourth64 e color0)
      let lo := lo + 4
      let hi := hi + 4
      pure (ip, lo, hi, out)) (0, 0, len / 2, out)
  if ip < len then portablePtrs e inp len ip out lo hi
  else pure out

/-- `u64_unroll_2`, bench/portable64.rs:71-113. -/
def benchU64x2 (e : Endian) (inp out : Buf) (len : Nat) : Option Buf := do
  let (ip, lo, hi, out) ← whileM (len + 1) (fun ((ip, _, _, _) : Nat × Nat × Nat × Buf) => decide (ip + 16 < len))
    (fun ((ip, lo, hi, out) : Nat × Nat × Nat × Buf) => do
      let color0 ← ld64 e inp ip
      let color1 ← ld64 e inp (ip + 8)
      let ip := ip + 16
      let out ← st16 e out lo (getFirst64 e color0)
      let out ← st16 e out (lo + 4) (getFirst64 e color1)
      let out ← st16 e out hi (getSecond64 e color0)
      let out ← st16 e out (hi + 4) (getSecond64 e color1)
      let out ← st16 e out (lo + 2) (getThird64 e color0)
      let out ← st16 e out (lo + 6) (getThird64 e color1)
      let out ← st16 e out (hi + 2) (getFourth64 e color0)
      let out ← st16 e out (hi + 6) (getFourth64 e color1)
      let lo := lo + 8
      let hi := hi + 8
      pure (ip, lo, hi, out)) (0, 0, len / 2, out)
  if ip < len then portablePtrs e inp len ip out lo hi
  else pure out

/-- `u64_unroll_4`, bench/portable64.rs:129-181. -/
def benchU64x4 (e : Endian) (inp out : Buf) (len : Nat) : Option Buf := do
  let (ip, lo, hi, out) ← whileM (len + 1) (fun ((ip, _, _, _) : Nat × Nat × Nat × Buf) => decide (ip + 32 < len))
    (fun ((ip, lo, hi, out) : Nat × Nat × Nat × Buf) => do
      let color0 ← ld64 e inp ip
      let color1 ← ld64 e inp (ip + 8)
      let color2 ← ld64 e inp (ip + 16)
      let color3 ← ld64 e inp (ip + 24)
      let ip := ip + 32
      let out ← st16 e out lo (getFirst64 e color0)
      let out ← st16 e out (lo + 4) (getFirst64 e color1)
      let out ← st16 e out (lo + 8) (getFirst64 e color2)
      let out ← st16 e out (lo + 12) (getFirst64 e color3)
      let out ← st16 e out hi (getSecond64 e color0)
      let out ← st16 e out (hi + 4) (getSecond64 e color1)
      let out ← st16 e out (hi + 8) (getSecond64 e color2)
      let out ← st16 e out (hi + 12) (getSecond64 e color3)
      let out ← st16 e out (lo + 2) (getThird64 e color0)
      let out ← st16 e out (lo + 6) (getThird64 e color1)
      let out ← st16 e out (lo + 10) (getThird64 e color2)
      let out ← st16 e out (lo + 14) (getThird64 e color3)
      let out ← st16 e out (hi + 2) (getFourth64 e color0)
      let out ← st16 e out (hi + 6) (getFourth64 e color1)
      let out ← st16 e out (hi + 10) (getFourth64 e color2)
      let out ← st16 e out (hi + 14) (getFourth64 e color3)
      let lo := lo + 16
      let hi := hi + 16
      pure (ip, lo, hi, out)) (0, 0, len / 2, out)
  if ip < len then portablePtrs e inp len ip out lo hi
  else pure out

/-- `u64_unroll_8`, bench/portable64.rs:197-272. -/
def benchU64x8 (e : Endian) (inp out : Buf) (len : Nat) : Option Buf := do
  let (ip, lo, hi, out) ← whileM (len + 1) (fun ((ip, _, _, _) : Nat × Nat × Nat × Buf) => decide (ip + 64 < len))
    (fun ((ip, lo, hi, out) : Nat × Nat × Nat × Buf) => do
      let color0 ← ld64 e inp ip
      let color1 ← ld64 e inp (ip + 8)
      let color2 ← ld64 e inp (ip + 16)
      let color3 ← ld64 e inp (ip + 24)
      let color4 ← ld64 e inp (ip + 32)
      let color5 ← ld64 e inp (ip + 40)
      let color6 ← ld64 e inp (ip + 48)
      let color7 ← ld64 e inp (ip + 56)
      let ip := ip + 64
      let out ← st16 e out lo (getFirst64 e color0)
      let out ← st16 e out (lo + 4) (getFirst64 e color1)
      let out ← st16 e out (lo + 8) (getFirst64 e color2)
      let out ← st16 e out (lo + 12) (getFirst64 e color3)
      let out ← st16 e out (lo + 16) (getFirst64 e color4)
      let out ← st16 e out (lo + 20) (getFirst64 e color5)
      let out ← st16 e out (lo + 24) (getFirst64 e color6)
      let out ← st16 e out (lo + 28) (getFirst64 e color7)
      let out ← st16 e out hi (getSecond64 e color0)
      let out ← st16 e out (hi + 4) (getSecond64 e color1)
      let out ← st16 e out (hi + 8) (getSecond64 e color2)
      let out ← st16 e out (hi + 12) (getSecond64 e color3)
      let out ← st16 e out (hi + 16) (getSecond64 e color4)
      let out ← st16 e out (hi + 20) (getSecond64 e color5)
      let out ← st16 e out (hi + 24) (getSecond64 e color6)
      let out ← st16 e out (hi + 28) (getSecond64 e color7)
      let out ← st16 e out (lo + 2) (getThird64 e color0)
      let out ← st16 e out (lo + 6) (getThird64 e color1)
      let out ← st16 e out (lo + 10) (getThird64 e color2)
      let out ← st16 e out (lo + 14) (getThird64 e color3)
      let out ← st16 e out (lo + 18) (getThird64 e color4)
      let out ← st16 e out (lo + 22) (getThird64 e color5)
      let out ← st16 e out (lo + 26) (getThird64 e color6)
      let out ← st16 e out (lo + 30) (getThird64 e color7)
      let out ← st16 e out (hi + 2) (getFourth64 e color0)
      let out ← st16 e out (hi + 6) (getFourth64 e color1)
      let out ← st16 e out (hi + 10) (getFourth64 e color2)
      let out ← st16 e out (hi + 14) (getFourth64 e color3)
      let out ← st16 e out (hi + 18) (getFourth64 e color4)
      let out ← st16 e out (hi + 22) (getFourth64 e color5)
      let out ← st16 e out (hi + 26) (getFourth64 e color6)
      let out ← st16 e out (hi + 30) (getFourth64 e color7)
      let lo := lo + 32
      let hi := hi + 32
      pure (ip, lo, hi, out)) (0, 0, len / 2, out)
  if ip < len then portablePtrs e inp len ip out lo hi
  else pure out

/-- `u64_mix`, bench/portable64.rs:288-329. -/
def benchMix (e : Endian) (inp out : Buf) (len : Nat) : Option Buf := do
  let (ip, lo, hi, out) ← whileM (len + 1) (fun ((ip, _, _, _) : Nat × Nat × Nat × Buf) => decide (ip + 8 < len))
    (fun ((ip, lo, hi, out) : Nat × Nat × Nat × Buf) => do
      let color0 ← ld64 e inp ip
      let ip := ip + 8
      let firstPair := combinePair e (getFirst64 e color0) (getThird64 e color0)
      let secondPair := combinePair e (getSecond64 e color0) (getFourth64 e color0)
      let out ← st32 e out lo firstPair
      let out ← st32 e out hi secondPair
      let lo := lo + 4
      let hi := hi + 4
      pure (ip, lo, hi, out)) (0, 0, len / 2, out)
  if ip < len then portablePtrs e inp len ip out lo hi
  else pure out

/-- `u64_mix_unroll_2`, bench/portable64.rs:346-401. -/
def benchMix2 (e : Endian) (inp out : Buf) (len : Nat) : Option Buf := do
  let (ip, lo, hi, out) ← whileM (len + 1) (fun ((ip, _, _, _) : Nat × Nat × Nat × Buf) => decide (ip + 16 < len))
    (fun ((ip, lo, hi, out) : Nat × Nat × Nat × Buf) => do
      let color0 ← ld64 e inp ip
      let color1 ← ld64 e inp (ip + 8)
      let ip := ip + 16
      let firstCombined := combineQuad e (getFirst64 e color0) (getThird64 e color0) (getFirst64 e color1) (getThird64 e color1)
      let secondCombined := combineQuad e (getSecond64 e color0) (getFourth64 e color0) (getSecond64 e color1) (getFourth64 e color1)
      let out ← st64 e out lo firstCombined
      let out ← st64 e out hi secondCombined
      let lo := lo + 8
      let hi := hi + 8
      pure (ip, lo, hi, out)) (0, 0, len / 2, out)
  if ip < len then portablePtrs e inp len ip out lo hi
  else pure out

/-- `u64_mix_unroll_4`, bench/portable64.rs:418-491. -/
def benchMix4 (e : Endian) (inp out : Buf) (len : Nat) : Option Buf := do
  let (ip, lo, hi, out) ← whileM (len + 1) (fun ((ip, _, _, _) : Nat × Nat × Nat × Buf) => decide (ip + 32 < len))
    (fun ((ip, lo, hi, out) : Nat × Nat × Nat × Buf) => do
      let color0 ← ld64 e inp ip
      let color1 ← ld64 e inp (ip + 8)
      let color2 ← ld64 e inp (ip + 16)
      let color3 ← ld64 e inp (ip + 24)
      let ip := ip + 32
      let firstCombined0 := combineQuad e (getFirst64 e color0) (getThird64 e color0) (getFirst64 e color1) (getThird64 e color1)
      let firstCombined1 := combineQuad e (getFirst64 e color2) (getThird64 e color2) (getFirst64 e color3) (getThird64 e color3)
      let out ← st64 e out lo firstCombined0
      let out ← st64 e out (lo + 8) firstCombined1
      let secondCombined0 := combineQuad e (getSecond64 e color0) (getFourth64 e color0) (getSecond64 e color1) (getFourth64 e color1)
      let secondCombined1 := combineQuad e (getSecond64 e color2) (getFourth64 e color2) (getSecond64 e color3) (getFourth64 e color3)
      let out ← st64 e out hi secondCombined0
      let out ← st64 e out (hi + 8) secondCombined1
      let lo := lo + 16
      let hi := hi + 16
      pure (ip, lo, hi, out)) (0, 0, len / 2, out)
  if ip < len then portablePtrs e inp len ip out lo hi
  else pure out

/-- `u64_mix_unroll_8`, bench/portable64.rs:508-617. -/
def benchMix8 (e : Endian) (inp out : Buf) (len : Nat) : Option Buf := do
  let (ip, lo, hi, out) ← whileM (len + 1) (fun ((ip, _, _, _) : Nat × Nat × Nat × Buf) => decide (ip + 64 < len))
    (fun ((ip, lo, hi, out) : Nat × Nat × Nat × Buf) => do
      let color0 ← ld64 e inp ip
      let color1 ← ld64 e inp (ip + 8)
      let color2 ← ld64 e inp (ip + 16)
      let color3 ← ld64 e inp (ip + 24)
      let color4 ← ld64 e inp (ip + 32)
      let color5 ← ld64 e inp (ip + 40)
      let color6 ← ld64 e inp (ip + 48)
      let color7 ← ld64 e inp (ip + 56)
      let ip := ip + 64
      let firstCombined0 := combineQuad e (getFirst64 e color0) (getThird64 e color0) (getFirst64 e color1) (getThird64 e color1)
      let firstCombined1 := combineQuad e (getFirst64 e color2) (getThird64 e color2) (getFirst64 e color3) (getThird64 e color3)
      let firstCombined2 := combineQuad e (getFirst64 e color4) (getThird64 e color4) (getFirst64 e color5) (getThird64 e color5)
      let firstCombined3 := combineQuad e (getFirst64 e color6) (getThird64 e color6) (getFirst64 e color7) (getThird64 e color7)
      let out ← st64 e out lo firstCombined0
      let out ← st64 e out (lo + 8) firstCombined1
      let out ← st64 e out (lo + 16) firstCombined2
      let out ← st64 e out (lo + 24) firstCombined3
      let secondCombined0 := combineQuad e (getSecond64 e color0) (getFourth64 e color0) (getSecond64 e color1) (getFourth64 e color1)
      let secondCombined1 := combineQuad e (getSecond64 e color2) (getFourth64 e color2) (getSecond64 e color3) (getFourth64 e color3)
      let secondCombined2 := combineQuad e (getSecond64 e color4) (getFourth64 e color4) (getSecond64 e color5) (getFourth64 e color5)
      let secondCombined3 := combineQuad e (getSecond64 e color6) (getFourth64 e color6) (getSecond64 e color7) (getFourth64 e color7)
      let out ← st64 e out hi secondCombined0
      let out ← st64 e out (hi + 8) secondCombined1
      let out ← st64 e out (hi + 16) secondCombined2
      let out ← st64 e out (hi + 24) secondCombined3
      let lo := lo + 32
      let hi := hi + 32
      pure (ip, lo, hi, out)) (0, 0, len / 2, out)
  if ip < len then portablePtrs e inp len ip out lo hi
  else pure out

/-- `sse2_shift_impl`, bench/sse2.rs:23-83. -/
def benchSse2Shift (inp out : Buf) (len : Nat) : Option Buf := do
  let (ip, lo, hi, out) ← whileM (len + 1) (fun ((ip, _, _, _) : Nat × Nat × Nat × Buf) => decide (ip + 16 < len))
    (fun ((ip, lo, hi, out) : Nat × Nat × Nat × Buf) => do
      let colorChunk ← ld inp ip 16
      let colorCopy := colorChunk
      let shiftedLeft := pslld 16 colorCopy
      let lowParts := psrad 16 shiftedLeft
      let packedLow := packssdw lowParts lowParts
      let highParts := psrad 16 colorChunk
      let packedHigh := packssdw highParts highParts
      let out ← st out lo (elem 8 packedLow 0)
      let out ← st out hi (elem 8 packedHigh 0)
      let ip := ip + 16
      let lo := lo + 8
      let hi := hi + 8
      pure (ip, lo, hi, out)) (0, 0, len / 2, out)
  portablePtrs .little inp len ip out lo hi

/-- `sse2_shuf_impl`, bench/sse2.rs:102-166. -/
def benchSse2Shuf (inp out : Buf) (len : Nat) : Option Buf := do
  let (ip, lo, hi, out) ← whileM (len + 1) (fun ((ip, _, _, _) : Nat × Nat × Nat × Buf) => decide (ip + 32 < len))
    (fun ((ip, lo, hi, out) : Nat × Nat × Nat × Buf) => do
      let chunk0 ← ld inp ip 16
      let chunk1 ← ld inp (ip + 16) 16
      let shuffled0Low := pshuflw 216 chunk0
      let shuffled0 := pshufhw 216 shuffled0Low
      let shuffled1Low := pshuflw 216 chunk1
      let shuffled1 := pshufhw 216 shuffled1Low
      let interleavedU32s0 := shufps 216 shuffled0 shuffled0
      let interleavedU32s1 := shufps 216 shuffled1 shuffled1
      let colors0 := shufps 68 interleavedU32s0 interleavedU32s1
      let colors1 := shufps 238 interleavedU32s0 interleavedU32s1
      let out ← st out lo colors0
      let out ← st out hi colors1
      let ip := ip + 32
      let lo := lo + 16
      let hi := hi + 16
      pure (ip, lo, hi, out)) (0, 0, len / 2, out)
  portablePtrs .little inp len ip out lo hi

/-- `sse2_shuf_unroll2_impl`, bench/sse2.rs:185-279. -/
def benchSse2Shuf2 (inp out : Buf) (len : Nat) : Option Buf := do
  let (ip, lo, hi, out) ← whileM (len + 1) (fun ((ip, _, _, _) : Nat × Nat × Nat × Buf) => decide (ip + 64 < len))
    (fun ((ip, lo, hi, out) : Nat × Nat × Nat × Buf) => do
      let chunk0 ← ld inp ip 16
      let chunk1 ← ld inp (ip + 16) 16
      let chunk2 ← ld inp (ip + 32) 16
      let chunk3 ← ld inp (ip + 48) 16
      let shuffled0Low := pshuflw 216 chunk0
      let shuffled0 := pshufhw 216 shuffled0Low
      let shuffled1Low := pshuflw 216 chunk1
      let shuffled1 := pshufhw 216 shuffled1Low
      let shuffled2Low := pshuflw 216 chunk2
      let shuffled2 := pshufhw 216 shuffled2Low
      let shuffled3Low := pshuflw 216 chunk3
      let shuffled3 := pshufhw 216 shuffled3Low
      let interleavedU32s0 := shufps 216 shuffled0 shuffled0
      let interleavedU32s1 := shufps 216 shuffled1 shuffled1
      let interleavedU32s2 := shufps 216 shuffled2 shuffled2
      let interleavedU32s3 := shufps 216 shuffled3 shuffled3
      let colors0 := shufps 68 interleavedU32s0 interleavedU32s1
      let colors1 := shufps 68 interleavedU32s2 interleavedU32s3
      let colors02 := shufps 238 interleavedU32s0 interleavedU32s1
      let colors12 := shufps 238 interleavedU32s2 interleavedU32s3
      let out ← st out lo colors0
      let out ← st out (lo + 16) colors1
      let out ← st out hi colors02
      let out ← st out (hi + 16) colors12
      let ip := ip + 64
      let lo := lo + 32
      let hi := hi + 32
      pure (ip, lo, hi, out)) (0, 0, len / 2, out)
  portablePtrs .little inp len ip out lo hi

/-- `shuffle_mask` of `ssse3_pshufb_unroll2_impl` (least significant byte first), bench/ssse3.rs:24-84. -/
def ssse3Mask2 : List Nat := [0, 1, 4, 5, 8, 9, 12, 13, 2, 3, 6, 7, 10, 11, 14, 15]

/-- `ssse3_pshufb_unroll2_impl`, bench/ssse3.rs:24-84. -/
def benchSsse3x2 (inp out : Buf) (len : Nat) : Option Buf := do
  let (ip, lo, hi, out) ← whileM (len + 1) (fun ((ip, _, _, _) : Nat × Nat × Nat × Buf) => decide (ip + 32 < len))
    (fun ((ip, lo, hi, out) : Nat × Nat × Nat × Buf) => do
      let chunk0 ← ld inp ip 16
      let chunk1 ← ld inp (ip + 16) 16
      let shuffled0 := pshufb ssse3Mask2 chunk0
      let shuffled1 := pshufb ssse3Mask2 chunk1
      let temp0 := shuffled0
      let temp1 := shuffled1
      let colors0 := shufps 68 temp0 temp1
      let colors1 := shufps 238 temp0 temp1
      let out ← st out lo colors0
      let out ← st out hi colors1
      let ip := ip + 32
      let lo := lo + 16
      let hi := hi + 16
      pure (ip, lo, hi, out)) (0, 0, len / 2, out)
  portablePtrs .little inp len ip out lo hi

/-- `shuffle_mask` of `ssse3_pshufb_unroll4_impl` (least significant byte first), bench/ssse3.rs:103-183. -/
def ssse3Mask4 : List Nat := [0, 1, 4, 5, 8, 9, 12, 13, 2, 3, 6, 7, 10, 11, 14, 15]

/-- `ssse3_pshufb_unroll4_impl`, bench/ssse3.rs:103-183. -/
def benchSsse3x4 (inp out : Buf) (len : Nat) : Option Buf := do
  let (ip, lo, hi, out) ← whileM (len + 1) (fun ((ip, _, _, _) : Nat × Nat × Nat × Buf) => decide (ip + 64 < len))
    (fun ((ip, lo, hi, out) : Nat × Nat × Nat × Buf) => do
      let chunk0 ← ld inp ip 16
      let chunk1 ← ld inp (ip + 16) 16
      let chunk2 ← ld inp (ip + 32) 16
      let chunk3 ← ld inp (ip + 48) 16
      let shuffled0 := pshufb ssse3Mask4 chunk0
      let shuffled1 := pshufb ssse3Mask4 chunk1
      let shuffled2 := pshufb ssse3Mask4 chunk2
      let shuffled3 := pshufb ssse3Mask4 chunk3
      let temp0 := shuffled0
      let temp1 := shuffled1
      let temp2 := shuffled2
      let temp3 := shuffled3
      let colors0 := shufps 68 temp0 temp1
      let colors1 := shufps 68 temp2 temp3
      let colors02 := shufps 238 temp0 temp1
      let colors12 := shufps 238 temp2 temp3
      let out ← st out lo colors0
      let out ← st out (lo + 16) colors1
      let out ← st out hi colors02
      let out ← st out (hi + 16) colors12
      let ip := ip + 64
      let lo := lo + 32
      let hi := hi + 32
      pure (ip, lo, hi, out)) (0, 0, len / 2, out)
  portablePtrs .little inp len ip out lo hi

/-- `shuffle_mask` of `avx2_shuf_impl` (least significant byte first, one lane), bench/avx2.rs:27-104. -/
def avx2MaskBench : List Nat := [2, 3, 6, 7, 0, 1, 4, 5, 10, 11, 14, 15, 8, 9, 12, 13]

/-- `avx2_shuf_impl`, bench/avx2.rs:27-104. -/
def benchAvx2Shuf (inp out : Buf) (len : Nat) : Option Buf := do
  let (ip, lo, hi, out) ← whileM (len + 1) (fun ((ip, _, _, _) : Nat × Nat × Nat × Buf) => decide (ip + 64 < len))
    (fun ((ip, lo, hi, out) : Nat × Nat × Nat × Buf) => do
      let chunk1 ← ld inp ip 32
      let chunk2 ← ld inp (ip + 32) 32
      let shuffled1 := vpshufb avx2MaskBench chunk1
      let shuffled2 := vpshufb avx2MaskBench chunk2
      let shuffled1Ps := shuffled1
      let shuffled2Ps := shuffled2
      let color0Combined := vshufps 221 shuffled1Ps shuffled2Ps
      let color1Combined := vshufps 136 shuffled1Ps shuffled2Ps
      let shuffled1Pd := color0Combined
      let shuffled2Pd := color1Combined
      let color0Rearranged := vpermq 216 shuffled1Pd
      let color1Rearranged := vpermq 216 shuffled2Pd
      let out ← st out lo color0Rearranged
      let out ← st out hi color1Rearranged
      let ip := ip + 64
      let lo := lo + 32
      let hi := hi + 32
      pure (ip, lo, hi, out)) (0, 0, len / 2, out)
  portablePtrs .little inp len ip out lo hi

/-- `shuffle_mask` of `avx2_shuf_impl_unroll_2` (least significant byte first, one lane), bench/avx2.rs:122-223. -/
def avx2MaskBench2 : List Nat := [2, 3, 6, 7, 0, 1, 4, 5, 10, 11, 14, 15, 8, 9, 12, 13]

/-- `avx2_shuf_impl_unroll_2`, bench/avx2.rs:122-223. -/
def benchAvx2Shuf2 (inp out : Buf) (len : Nat) : Option Buf := do
  let (ip, lo, hi, out) ← whileM (len + 1) (fun ((ip, _, _, _) : Nat × Nat × Nat × Buf) => decide (ip + 128 < len))
    (fun ((ip, lo, hi, out) : Nat × Nat × Nat × Buf) => do
      let chunk1A ← ld inp ip 32
      let chunk2A ← ld inp (ip + 32) 32
      let shuffled1A := vpshufb avx2MaskBench2 chunk1A
      let shuffled2A := vpshufb avx2MaskBench2 chunk2A
      let shuffled1PsA := shuffled1A
      let shuffled2PsA := shuffled2A
      let color0CombinedA := vshufps 221 shuffled1PsA shuffled2PsA
      let color1CombinedA := vshufps 136 shuffled1PsA shuffled2PsA
      let shuffled1PdA := color0CombinedA
      let shuffled2PdA := color1CombinedA
      let color0RearrangedA := vpermq 216 shuffled1PdA
      let color1RearrangedA := vpermq 216 shuffled2PdA
      let chunk1B ← ld inp (ip + 64) 32
      let chunk2B ← ld inp (ip + 96) 32
      let shuffled1B := vpshufb avx2MaskBench2 chunk1B
      let shuffled2B := vpshufb avx2MaskBench2 chunk2B
      let shuffled1PsB := shuffled1B
      let shuffled2PsB := shuffled2B
      let color0CombinedB := vshufps 221 shuffled1PsB shuffled2PsB
      let color1CombinedB := vshufps 136 shuffled1PsB shuffled2PsB
      let shuffled1PdB := color0CombinedB
      let shuffled2PdB := color1CombinedB
      let color0RearrangedB := vpermq 216 shuffled1PdB
      let color1RearrangedB := vpermq 216 shuffled2PdB
      let out ← st out lo color0RearrangedA
      let out ← st out (lo + 32) color0RearrangedB
      let out ← st out hi color1RearrangedA
      let out ← st out (hi + 32) color1RearrangedB
      let ip := ip + 128
      let lo := lo + 64
      let hi := hi + 64
      pure (ip, lo, hi, out)) (0, 0, len / 2, out)
  portablePtrs .little inp len ip out lo hi

/-- `shuffle_mask_color0` of `avx512_impl_unroll2` (least significant byte first), bench/avx512.rs:24-112. -/
def mask0Bench : List Nat := [0, 1, 4, 5, 8, 9, 12, 13, 16, 17, 20, 21, 24, 25, 28, 29, 32, 33, 36, 37, 40, 41, 44, 45, 48, 49, 52, 53, 56, 57, 60, 61, 64, 65, 68, 69, 72, 73, 76, 77, 80, 81, 84, 85, 88, 89, 92, 93, 96, 97, 100, 101, 104, 105, 108, 109, 112, 113, 116, 117, 120, 121, 124, 125]

/-- `shuffle_mask_color1` of `avx512_impl_unroll2` (least significant byte first), bench/avx512.rs:24-112. -/
def mask1Bench : List Nat := [2, 3, 6, 7, 10, 11, 14, 15, 18, 19, 22, 23, 26, 27, 30, 31, 34, 35, 38, 39, 42, 43, 46, 47, 50, 51, 54, 55, 58, 59, 62, 63, 66, 67, 70, 71, 74, 75, 78, 79, 82, 83, 86, 87, 90, 91, 94, 95, 98, 99, 102, 103, 106, 107, 110, 111, 114, 115, 118, 119, 122, 123, 126, 127]

/-- `avx512_impl_unroll2`, bench/avx512.rs:24-112. -/
def benchAvx512x2 (inp out : Buf) (len : Nat) : Option Buf := do
  let alignedEnd := len - len % 256
  let (ip, lo, hi, out) ← whileM (len + 1) (fun ((ip, _, _, _) : Nat × Nat × Nat × Buf) => decide (ip < alignedEnd))
    (fun ((ip, lo, hi, out) : Nat × Nat × Nat × Buf) => do
      let chunk1 ← ld inp ip 64
      let chunk2 ← ld inp (ip + 64) 64
      let chunk3 ← ld inp (ip + 128) 64
      let chunk4 ← ld inp (ip + 192) 64
      let ip := ip + 256
      let color0Rearranged0 := permt2b mask0Bench chunk1 chunk2
      let color1Rearranged0 := permt2b mask1Bench chunk1 chunk2
      let color2Rearranged1 := permt2b mask0Bench chunk3 chunk4
      let color3Rearranged1 := permt2b mask1Bench chunk3 chunk4
      let out ← st out lo color0Rearranged0
      let out ← st out (lo + 64) color2Rearranged1
      let lo := lo + 128
      let out ← st out hi color1Rearranged0
      let out ← st out (hi + 64) color3Rearranged1
      let hi := hi + 128
      pure (ip, lo, hi, out)) (0, 0, len / 2, out)
  portablePtrs .little inp len ip out lo hi

end Dlt.Split
