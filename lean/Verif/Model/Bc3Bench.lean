import Verif.Model.Bc3Simd
/-!
# BC3: the implementations kept for benchmarking

Models the kernels of
`/repo/src/core/dxt-lossless-transform-bc3/src/transform/standard/transform/bench/portable32.rs` and
`.../standard/untransform/bench/portable.rs`, compiled with the feature `bench` and exported by
`src/bench/mod.rs`.  They are alternatives to the production kernels for the settings "no
decorrelation, no splitting".
-/

namespace Dlt.Bc3

/-- `u32_unroll_2`, standard/transform/bench/portable32.rs:6-65. -/
def benchU32x2 (e : Endian) (inp out : Buf) (len : Nat) : Option Buf := do
  let alphaEnd := len / 16 * 2 - 16
  let (ip, ap, bp, cp, xp, out) ← whileM (len + 1)
    (fun (_, ap, _, _, _, _) => decide (ap < alphaEnd))
    (fun ((ip, ap, bp, cp, xp, out) : Nat × Nat × Nat × Nat × Nat × Buf) => do
      let alphaBytes1 ← ld16 e inp ip
      let alphaBits1A ← ld16 e inp (ip + 2)
      let alphaBits1B ← ld32 e inp (ip + 4)
      let colorBytes1 ← ld32 e inp (ip + 8)
      let indexBytes1 ← ld32 e inp (ip + 12)
      let alphaBytes2 ← ld16 e inp (ip + 16)
      let alphaBits2A ← ld16 e inp (ip + 18)
      let alphaBits2B ← ld32 e inp (ip + 20)
      let colorBytes2 ← ld32 e inp (ip + 24)
      let indexBytes2 ← ld32 e inp (ip + 28)
      let out ← st16 e out ap alphaBytes1
      let out ← st16 e out bp alphaBits1A
      let out ← st32 e out (bp + 2) alphaBits1B
      let out ← st32 e out cp colorBytes1
      let out ← st32 e out xp indexBytes1
      let out ← st16 e out (ap + 2) alphaBytes2
      let out ← st16 e out (bp + 6) alphaBits2A
      let out ← st32 e out (bp + 8) alphaBits2B
      let out ← st32 e out (cp + 4) colorBytes2
      let out ← st32 e out (xp + 4) indexBytes2
      pure (ip + 32, ap + 4, bp + 12, cp + 8, xp + 8, out))
    (0, 0, len / 16 * 2, len / 16 * 8, len / 16 * 12, out)
  transformPtrs e inp ip out ap bp cp xp (len / 16 * 2)

/-- `u32_untransform`, standard/untransform/bench/portable.rs:8-27. -/
def benchUnU32 (e : Endian) (inp out : Buf) (len : Nat) : Option Buf :=
  untransformPtrs e inp 0 (len / 16 * 2) (len / 16 * 8) (len / 16 * 12) out 0 len

/-- `color_index_bytes_0` of `u64_untransform`, standard/untransform/bench/portable.rs:84-85
(little endian), 92 (big endian). -/
def colorIndex0 : Endian → U64 → U64 → U64
  | .little, color, index => (color &&& 0xFFFFFFFF#64) ||| ((index &&& 0xFFFFFFFF#64) <<< 32)
  | .big, color, index => (index >>> 32) ||| ((color >>> 32) <<< 32)

/-- `color_index_bytes_1` of `u64_untransform`, standard/untransform/bench/portable.rs:86
(little endian), 93-94 (big endian). -/
def colorIndex1 : Endian → U64 → U64 → U64
  | .little, color, index => (color >>> 32) ||| ((index >>> 32) <<< 32)
  | .big, color, index => (index &&& 0xFFFFFFFF#64) ||| ((color &&& 0xFFFFFFFF#64) <<< 32)

/-- `u64_untransform`, standard/untransform/bench/portable.rs:34-113.  The two halves of
`alpha_bytes` are `getFirst` and `getSecond`, which the code spells out (:57-68).  The test
`aligned_len > 0` is left out: without it the loop does nothing. -/
def benchUnU64 (e : Endian) (inp out : Buf) (len : Nat) : Option Buf := do
  let alignedLen := len - len % 32
  let alphaEnd := alignedLen / 16 * 2
  let (ap, bp, cp, xp, op, out) ← whileM (len + 1)
    (fun (ap, _, _, _, _, _) => decide (ap < alphaEnd))
    (fun ((ap, bp, cp, xp, op, out) : Nat × Nat × Nat × Nat × Nat × Buf) => do
      let alphaBytes ← ld32 e inp ap
      let colorBytes ← ld64 e inp cp
      let indexBytes ← ld64 e inp xp
      let out ← st16 e out op (getFirst e alphaBytes)
      let out ← st16 e out (op + 16) (getSecond e alphaBytes)
      let b0 ← ld16 e inp bp
      let out ← st16 e out (op + 2) b0
      let b1 ← ld32 e inp (bp + 2)
      let out ← st32 e out (op + 4) b1
      let b2 ← ld16 e inp (bp + 6)
      let out ← st16 e out (op + 18) b2
      let b3 ← ld32 e inp (bp + 8)
      let out ← st32 e out (op + 20) b3
      let out ← st64 e out (op + 8) (colorIndex0 e colorBytes indexBytes)
      let out ← st64 e out (op + 24) (colorIndex1 e colorBytes indexBytes)
      pure (ap + 4, bp + 12, cp + 8, xp + 8, op + 32, out))
    (0, len / 16 * 2, len / 16 * 8, len / 16 * 12, 0, out)
  untransformPtrs e inp ap bp cp xp out op (len - alignedLen)

end Dlt.Bc3
