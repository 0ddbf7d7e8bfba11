import Verif.Model.Color565
import Verif.Model.Simd
/-!
# Vector decorrelation of RGB565 colours

Models `/repo/src/core/dxt-lossless-transform-common/src/intrinsics/color_565/`.

Every instruction used there (`srli/slli/add/sub_epi16`, `and/or`, `ternarylogic`) acts on the 16-bit
lanes of the register independently, and every constant has the same value in each lane (the
`set1_epi32` constants repeat a 16-bit pattern).  So each intrinsic function is modelled by its
action on one lane, and `mapLanes` applies it to a register.
-/

namespace Dlt.Simd

/-- Apply `f` to every 16-bit lane of a register (x86: little endian). -/
def mapLanes (f : U16 → U16) : Buf → Buf
  | a :: b :: r => to16 .little (f (of16 .little [a, b])) ++ mapLanes f r
  | _ => []

/-- One operand of a minterm. -/
def minterm (bit : Bool) (x : U16) : U16 := if bit then x else ~~~x

/-- `_mm512_ternarylogic_epi32(a, b, c, imm)`: result bit = bit `4a+2b+c` of `imm`. -/
def ternlog (a b c : U16) (imm : Nat) : U16 :=
  (List.range 8).foldl (fun acc i =>
    if imm.testBit i then
      acc ||| (minterm (i.testBit 2) a &&& minterm (i.testBit 1) b &&& minterm (i.testBit 0) c)
    else acc) 0#16

/-- `decorrelate_ycocg_r_var1_sse2`, decorrelate/sse2.rs:23-60. -/
def decorr1Sse2 (w : U16) : U16 :=
  let xmm2 := w &&& 32#16
  let xmm0 := w >>> 11
  let xmm0 := xmm0 - w
  let xmm0 := xmm0 &&& 31#16
  let xmm4 := xmm0 >>> 1
  let xmm4 := xmm4 + w
  let xmm1 := w >>> 6
  let xmm1 := xmm1 - xmm4
  let xmm1 := xmm1 &&& 31#16
  let xmm0 := xmm0 <<< 6
  let xmm0 := xmm0 ||| xmm2
  let xmm0 := xmm0 ||| xmm1
  let xmm1 := xmm1 >>> 1
  let xmm1 := xmm1 + xmm4
  let xmm1 := xmm1 <<< 11
  xmm0 ||| xmm1

/-- `decorrelate_ycocg_r_var2_sse2`, decorrelate/sse2.rs:76-133. -/
def decorr2Sse2 (w : U16) : U16 :=
  let red := w >>> 11
  let green := w >>> 6
  let co := (red - w) &&& 31#16
  let coHalf := co >>> 1
  let t := w + coHalf
  let cg := (green - t) &&& 31#16
  let cgHalf := cg >>> 1
  let y := (t + cgHalf) &&& 31#16
  let gLow := (w <<< 10) &&& 0x8000#16
  let yShifted := (y <<< 10) &&& 0x7C00#16
  let coShifted := co <<< 5
  gLow ||| yShifted ||| coShifted ||| cg

/-- `decorrelate_ycocg_r_var3_sse2`, decorrelate/sse2.rs:149-189. -/
def decorr3Sse2 (w : U16) : U16 :=
  let r := w >>> 11
  let g := w >>> 6
  let gLow := (w >>> 5) &&& 1#16
  let b := w &&& 31#16
  let co := (r - b) &&& 31#16
  let t := b + (co >>> 1)
  let cg := ((g &&& 31#16) - t) &&& 31#16
  let y := t + (cg >>> 1)
  (y <<< 11) ||| (co <<< 6) ||| (cg <<< 1) ||| gLow

/-- `decorrelate_ycocg_r_var1_avx2`, decorrelate/avx2.rs:41-74. -/
def decorr1Avx2 (w : U16) : U16 :=
  let r := w >>> 11
  let g := w >>> 6
  let gLow := (w >>> 5) &&& 1#16
  let b := w &&& 31#16
  let co := (r - b) &&& 31#16
  let t := (b + (co >>> 1)) &&& 31#16
  let cg := (g - t) &&& 31#16
  let y := (t + (cg >>> 1)) &&& 31#16
  ((y <<< 11) ||| (co <<< 6)) ||| ((gLow <<< 5) ||| cg)

/-- `decorrelate_ycocg_r_var2_avx2`, decorrelate/avx2.rs:96-129. -/
def decorr2Avx2 (w : U16) : U16 :=
  let r := w >>> 11
  let g := w >>> 6
  let gLow := (w >>> 5) &&& 1#16
  let b := w &&& 31#16
  let co := (r - b) &&& 31#16
  let t := (b + (co >>> 1)) &&& 31#16
  let cg := (g - t) &&& 31#16
  let y := (t + (cg >>> 1)) &&& 31#16
  ((gLow <<< 15) ||| (y <<< 10)) ||| ((co <<< 5) ||| cg)

/-- `decorrelate_ycocg_r_var3_avx2`, decorrelate/avx2.rs:151-184. -/
def decorr3Avx2 (w : U16) : U16 :=
  let r := w >>> 11
  let g := w >>> 6
  let gLow := (w >>> 5) &&& 1#16
  let b := w &&& 31#16
  let co := (r - b) &&& 31#16
  let t := (b + (co >>> 1)) &&& 31#16
  let cg := (g - t) &&& 31#16
  let y := (t + (cg >>> 1)) &&& 31#16
  ((y <<< 11) ||| (co <<< 6)) ||| ((cg <<< 1) ||| gLow)

/-- `decorrelate_ycocg_r_var1_avx512bw`, decorrelate/avx512bw.rs:42-96. -/
def decorr1Avx512 (w : U16) : U16 :=
  let red := w >>> 11
  let green := w >>> 6
  let red := red - w
  let red := red &&& 31#16
  let coHalf := red >>> 1
  let coShifted := red <<< 6
  let t := coHalf + w
  let gLow := w &&& 0x20#16
  let green := green - t
  let green := green &&& 31#16
  let cgHalf := green >>> 1
  let y := cgHalf + t
  let yShifted := y <<< 11
  let partialResult := yShifted ||| coShifted
  ternlog gLow green partialResult 254

/-- `decorrelate_ycocg_r_var2_avx512bw`, decorrelate/avx512bw.rs:119-177. -/
def decorr2Avx512 (w : U16) : U16 :=
  let red := w >>> 11
  let green := w >>> 6
  let red := red - w
  let red := red &&& 31#16
  let coHalf := red >>> 1
  let coShifted := red <<< 5
  let t := coHalf + w
  let colorsShifted := w <<< 10
  let coWithGLow := ternlog colorsShifted coShifted 0x8000#16 236
  let green := green - t
  let green := green &&& 31#16
  let cgHalf := green >>> 1
  let y := cgHalf + t
  let yShifted := y <<< 10
  let yMasked := yShifted &&& 0x7C00#16
  ternlog yMasked green coWithGLow 254

/-- `decorrelate_ycocg_r_var3_avx512bw`, decorrelate/avx512bw.rs:202-262. -/
def decorr3Avx512 (w : U16) : U16 :=
  let red := w >>> 11
  let green := w >>> 6
  let gLow := w >>> 5
  let red := red - w
  let red := red &&& 31#16
  let coHalf := red >>> 1
  let coShifted := red <<< 6
  let colors := coHalf + w
  let green := green - colors
  let green := green &&& 31#16
  let cgHalf := green >>> 1
  let cgShifted := green + green
  let colors := cgHalf + colors
  let yShifted := colors <<< 11
  let result := ternlog cgShifted yShifted coShifted 254
  ternlog result gLow 1#16 248

/-- `recorrelate_ycocg_r_var1_sse2`, recorrelate/sse2.rs:23-50. -/
def recorr1Sse2 (w : U16) : U16 :=
  let xmm3 := w &&& 32#16
  let xmm4 := (w >>> 1) &&& 15#16
  let xmm0 := w >>> 11
  let xmm2 := w >>> 6
  let xmm0 := xmm0 - xmm4
  let xmm4 := xmm0 + w
  let xmm1 := (w >>> 7) &&& 15#16
  let xmm0 := xmm0 - xmm1
  let xmm5 := xmm0 &&& 31#16
  let xmm0 := xmm0 + xmm2
  let xmm0 := xmm0 <<< 11
  let xmm4 := (xmm4 <<< 6) &&& 1984#16
  xmm0 ||| xmm3 ||| xmm5 ||| xmm4

/-- `recorrelate_ycocg_r_var2_sse2`, recorrelate/sse2.rs:65-93. -/
def recorr2Sse2 (w : U16) : U16 :=
  let xmm3 := (w >>> 1) &&& 15#16
  let xmm0 := w >>> 10
  let xmm2 := w >>> 5
  let xmm5 := xmm0
  let xmm0 := xmm0 &&& 32#16
  let xmm5 := xmm5 - xmm3
  let xmm3 := xmm5 + w
  let xmm1 := (w >>> 6) &&& 15#16
  let xmm3 := (xmm3 <<< 6) &&& 1984#16
  let xmm5 := xmm5 - xmm1
  let xmm4 := xmm5 &&& 31#16
  let xmm5 := xmm5 + xmm2
  let xmm5 := xmm5 <<< 11
  xmm0 ||| xmm5 ||| xmm4 ||| xmm3

/-- `recorrelate_ycocg_r_var3_sse2`, recorrelate/sse2.rs:108-136. -/
def recorr3Sse2 (w : U16) : U16 :=
  let xmm4 := (w >>> 2) &&& 15#16
  let xmm6 := (w >>> 7) &&& 15#16
  let xmm1 := w >>> 11
  let xmm3 := w >>> 6
  let xmm0 := (w <<< 5) &&& 32#16
  let xmm2 := w >>> 1
  let xmm1 := xmm1 - xmm4
  let xmm2 := xmm2 + xmm1
  let xmm1 := xmm1 - xmm6
  let xmm2 := (xmm2 <<< 6) &&& 1984#16
  let xmm5 := xmm1 &&& 31#16
  let xmm1 := xmm1 + xmm3
  let xmm1 := xmm1 <<< 11
  xmm0 ||| xmm1 ||| xmm5 ||| xmm2

/-- `recorrelate_ycocg_r_var1_avx2`, recorrelate/avx2.rs:23-76. -/
def recorr1Avx2 (w : U16) : U16 :=
  let ymm3 := w &&& 32#16
  let ymm4 := w >>> 1
  let ymm4 := ymm4 &&& 15#16
  let ymm1 := w >>> 11
  let ymm1 := ymm1 - ymm4
  let ymm2 := w >>> 6
  let ymm4 := ymm1 + w
  let colors := w >>> 7
  let colors := colors &&& 15#16
  let colors := ymm1 - colors
  let ymm1 := colors &&& 31#16
  let colors := colors + ymm2
  let colors := colors <<< 11
  let colors := colors ||| ymm3
  let colors := colors ||| ymm1
  let ymm1 := ymm4 <<< 6
  let ymm1 := ymm1 &&& 1984#16
  colors ||| ymm1

/-- `recorrelate_ycocg_r_var2_avx2`, recorrelate/avx2.rs:91-146. -/
def recorr2Avx2 (w : U16) : U16 :=
  let ymm3 := w >>> 1
  let ymm3 := ymm3 &&& 15#16
  let ymm1 := w >>> 10
  let ymm3 := ymm1 - ymm3
  let ymm2 := w >>> 5
  let ymm1 := ymm1 &&& 32#16
  let ymm5 := ymm3 + w
  let colors := w >>> 6
  let colors := colors &&& 15#16
  let colors := ymm3 - colors
  let ymm3 := colors &&& 31#16
  let colors := colors + ymm2
  let ymm2 := ymm5 <<< 6
  let ymm2 := ymm2 &&& 1984#16
  let colors := colors <<< 11
  let colors := colors ||| ymm1
  let colors := colors ||| ymm3
  colors ||| ymm2

/-- `recorrelate_ycocg_r_var3_avx2`, recorrelate/avx2.rs:161-220. -/
def recorr3Avx2 (w : U16) : U16 :=
  let ymm4 := w >>> 2
  let ymm4 := ymm4 &&& 15#16
  let ymm1 := w >>> 11
  let ymm1 := ymm1 - ymm4
  let ymm2 := w >>> 6
  let ymm3 := w >>> 1
  let ymm4 := w >>> 7
  let colors := w <<< 5
  let colors := colors &&& 32#16
  let ymm4 := ymm4 &&& 15#16
  let ymm3 := ymm1 + ymm3
  let ymm1 := ymm1 - ymm4
  let ymm4 := ymm1 &&& 31#16
  let ymm1 := ymm1 + ymm2
  let ymm2 := ymm3 <<< 6
  let ymm2 := ymm2 &&& 1984#16
  let ymm1 := ymm1 <<< 11
  let colors := ymm1 ||| colors
  let colors := colors ||| ymm4
  colors ||| ymm2

/-- `recorrelate_ycocg_r_var1_avx512bw`, recorrelate/avx512bw.rs:24-62. -/
def recorr1Avx512 (w : U16) : U16 :=
  let shifted1 := w >>> 1
  let blueShifted := w >>> 11
  let shifted7 := w >>> 7
  let greenShifted := w >>> 6
  let masked1 := shifted1 &&& 15#16
  let masked7 := shifted7 &&& 15#16
  let blueShifted := blueShifted - masked1
  let intermediate := blueShifted + w
  let blueShifted := blueShifted - masked7
  let greenShifted := blueShifted + greenShifted
  let shifted6 := intermediate <<< 6
  let shifted11 := greenShifted <<< 11
  let result := ternlog shifted6 shifted11 0x7C0#16 236
  let result := ternlog result w 0x20#16 248
  ternlog result blueShifted 0x1F#16 248

/-- `recorrelate_ycocg_r_var2_avx512bw`, recorrelate/avx512bw.rs:78-124. -/
def recorr2Avx512 (w : U16) : U16 :=
  let shifted1 := w >>> 1
  let shifted10 := w >>> 10
  let shifted5 := w >>> 5
  let shifted1 := shifted1 &&& 15#16
  let shifted1 := shifted10 - shifted1
  let intermediate := shifted1 + w
  let colors := w >>> 6
  let colors := colors &&& 15#16
  let colors := shifted1 - colors
  let shifted6 := intermediate <<< 6
  let shifted5 := colors + shifted5
  let shifted11 := shifted5 <<< 11
  let result := ternlog shifted6 shifted11 0x7C0#16 236
  let result := ternlog result shifted10 0x20#16 248
  ternlog result colors 0x1F#16 248

/-- `recorrelate_ycocg_r_var3_avx512bw`, recorrelate/avx512bw.rs:140-190. -/
def recorr3Avx512 (w : U16) : U16 :=
  let shifted2 := w >>> 2
  let blueShifted := w >>> 11
  let shifted7 := w >>> 7
  let shifted1 := w >>> 1
  let greenShifted := w >>> 6
  let colors := w <<< 5
  let shifted2 := shifted2 &&& 15#16
  let blueShifted := blueShifted - shifted2
  let shifted2 := shifted7 &&& 15#16
  let shifted1 := blueShifted + shifted1
  let blueShifted := blueShifted - shifted2
  let greenShifted := blueShifted + greenShifted
  let shifted6 := shifted1 <<< 6
  let shifted11 := greenShifted <<< 11
  let combined := ternlog shifted6 shifted11 0x7C0#16 236
  let colors := ternlog colors combined 0x20#16 236
  ternlog colors blueShifted 0x1F#16 248

/-- The SSE2 functions by variant (`match VARIANT` in the kernels; other values unreachable). -/
def decorrSse2 : Variant → U16 → U16
  | .v1 => decorr1Sse2 | .v2 => decorr2Sse2 | .v3 => decorr3Sse2 | .none => id
/-- The AVX2 functions by variant. -/
def decorrAvx2 : Variant → U16 → U16
  | .v1 => decorr1Avx2 | .v2 => decorr2Avx2 | .v3 => decorr3Avx2 | .none => id
/-- The AVX-512BW functions by variant. -/
def decorrAvx512 : Variant → U16 → U16
  | .v1 => decorr1Avx512 | .v2 => decorr2Avx512 | .v3 => decorr3Avx512 | .none => id
/-- The SSE2 functions by variant. -/
def recorrSse2 : Variant → U16 → U16
  | .v1 => recorr1Sse2 | .v2 => recorr2Sse2 | .v3 => recorr3Sse2 | .none => id
/-- The AVX2 functions by variant. -/
def recorrAvx2 : Variant → U16 → U16
  | .v1 => recorr1Avx2 | .v2 => recorr2Avx2 | .v3 => recorr3Avx2 | .none => id
/-- The AVX-512BW functions by variant. -/
def recorrAvx512 : Variant → U16 → U16
  | .v1 => recorr1Avx512 | .v2 => recorr2Avx512 | .v3 => recorr3Avx512 | .none => id

end Dlt.Simd
