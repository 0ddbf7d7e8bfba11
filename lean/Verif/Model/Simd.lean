import Verif.Model.Mem
/-!
# x86 vector instructions

Vector registers are byte lists, least significant byte first (16, 32 or 64 bytes).  Each definition
below is the instruction set manual's meaning of one instruction (or intrinsic) used by the kernels
in `/repo/src/core`.  These meanings are part of the trusted base.

Simplification: flags, alignment hints and prefetching are not modelled; AVX-512 masks do not occur
unless stated.
-/

namespace Dlt.Simd

/-- Element `i` of width `w` bytes. -/
def elem (w : Nat) (r : Buf) (i : Nat) : Buf := slice r (w * i) w

/-- Select elements of width `w` by index. -/
def pick (w : Nat) (r : Buf) (idx : List Nat) : Buf := idx.flatMap (elem w r)

/-- Apply a two-operand instruction in each 128-bit lane of a 256-bit register. -/
def lanes2 (f : Buf → Buf → Buf) (a b : Buf) : Buf :=
  f (elem 16 a 0) (elem 16 b 0) ++ f (elem 16 a 1) (elem 16 b 1)

/-- Apply a one-operand instruction in each 128-bit lane of a 256-bit register. -/
def lanes1 (f : Buf → Buf) (a : Buf) : Buf := f (elem 16 a 0) ++ f (elem 16 a 1)

/-- Apply a two-operand instruction in each 128-bit lane of a 512-bit register. -/
def lanes2x4 (f : Buf → Buf → Buf) (a b : Buf) : Buf :=
  f (elem 16 a 0) (elem 16 b 0) ++ f (elem 16 a 1) (elem 16 b 1) ++
  f (elem 16 a 2) (elem 16 b 2) ++ f (elem 16 a 3) (elem 16 b 3)

/-- The four two-bit fields of an immediate operand. -/
def imm4 (imm : Nat) : List Nat := [imm % 4, imm / 4 % 4, imm / 16 % 4, imm / 64 % 4]

/-- `shufps a, b, imm` (128 bit): two dwords of `a`, then two dwords of `b`. -/
def shufps (imm : Nat) (a b : Buf) : Buf :=
  elem 4 a (imm % 4) ++ elem 4 a (imm / 4 % 4) ++ elem 4 b (imm / 16 % 4) ++ elem 4 b (imm / 64 % 4)

/-- `vshufps` (256 bit). -/
def vshufps (imm : Nat) (a b : Buf) : Buf := lanes2 (shufps imm) a b

/-- `vpermq`/`vpermpd ymm, ymm, imm`: arbitrary choice of four quadwords. -/
def vpermq (imm : Nat) (a : Buf) : Buf := pick 8 a (imm4 imm)

/-- `pshufd a, imm` (128 bit). -/
def pshufd (imm : Nat) (a : Buf) : Buf := pick 4 a (imm4 imm)

/-- `pshuflw a, imm`: shuffles the four low words. -/
def pshuflw (imm : Nat) (a : Buf) : Buf := pick 2 a (imm4 imm) ++ elem 8 a 1

/-- `pshufhw a, imm`: shuffles the four high words. -/
def pshufhw (imm : Nat) (a : Buf) : Buf := elem 8 a 0 ++ pick 2 (elem 8 a 1) (imm4 imm)

/-- `punpckldq` (128 bit). -/
def punpckldq (a b : Buf) : Buf := elem 4 a 0 ++ elem 4 b 0 ++ elem 4 a 1 ++ elem 4 b 1
/-- `punpckhdq` (128 bit). -/
def punpckhdq (a b : Buf) : Buf := elem 4 a 2 ++ elem 4 b 2 ++ elem 4 a 3 ++ elem 4 b 3
/-- `punpcklqdq` (128 bit). -/
def punpcklqdq (a b : Buf) : Buf := elem 8 a 0 ++ elem 8 b 0
/-- `punpckhqdq` (128 bit). -/
def punpckhqdq (a b : Buf) : Buf := elem 8 a 1 ++ elem 8 b 1
/-- `movhlps a, b`: low half from the high half of `b`, high half kept. -/
def movhlps (a b : Buf) : Buf := elem 8 b 1 ++ elem 8 a 1

/-- Interleave four words of `a` and `b` starting with word `i`. -/
def interleave2 (i : Nat) (a b : Buf) : Buf :=
  elem 2 a i ++ elem 2 b i ++ elem 2 a (i + 1) ++ elem 2 b (i + 1) ++
  elem 2 a (i + 2) ++ elem 2 b (i + 2) ++ elem 2 a (i + 3) ++ elem 2 b (i + 3)
/-- `punpcklwd` (128 bit). -/
def punpcklwd (a b : Buf) : Buf := interleave2 0 a b
/-- `punpckhwd` (128 bit). -/
def punpckhwd (a b : Buf) : Buf := interleave2 4 a b

/-- `vpermt2d`/`vpermi2d`/`_mm512_permutex2var_epi32` (512 bit, indices already decoded): dwords of
the concatenation of the two tables. -/
def permt2d (idx : List Nat) (a b : Buf) : Buf := pick 4 (a ++ b) idx

/-- `vpermt2q`/`_mm512_permutex2var_epi64(a, idx, b)` (indices already decoded): quadwords of the
concatenation. -/
def permt2q (idx : List Nat) (a b : Buf) : Buf := pick 8 (a ++ b) idx

/-- `_mm512_permutex2var_epi16(a, idx, b)` (indices already decoded): words of the concatenation. -/
def permt2w (idx : List Nat) (a b : Buf) : Buf := pick 2 (a ++ b) idx

/-- `_mm512_permutex2var_epi8(a, idx, b)` (indices already decoded): bytes of the concatenation. -/
def permt2b (idx : List Nat) (a b : Buf) : Buf := pick 1 (a ++ b) idx

/-- `_mm256_i32gather_epi32(ip, offs, 1)`: the dwords at byte offsets `offs`. -/
def gather32 (inp : Buf) (ip : Nat) : List Nat → Option Buf
  | [] => some []
  | o :: offs => do
    let d ← ld inp (ip + o) 4
    let r ← gather32 inp ip offs
    pure (d ++ r)

/-- `_mm512_castsi128_si512`, `_mm512_castsi256_si512`: the upper `n` bytes are undefined; they are
`u 0`, `u 1`, .. for an arbitrary `u`. -/
def widen (u : Nat → Byte) (x : Buf) (n : Nat) : Buf := x ++ (List.range n).map u

/-- `vpermd`/`_mm256_permutevar8x32_epi32(a, idx)`: arbitrary choice of eight dwords. -/
def vpermd (idx : List Nat) (a : Buf) : Buf := pick 4 a idx

/-- `vperm2i128`/`_mm256_permute2x128_si256(a, b, imm)` for immediates without a zeroing bit (bits 3
and 7 clear): each half of the result is one of the four 128-bit lanes of `a`, `b`. -/
def vperm2i128 (imm : Nat) (a b : Buf) : Buf :=
  elem 16 (a ++ b) (imm % 4) ++ elem 16 (a ++ b) (imm / 16 % 4)

/-- `pshufb a, mask` (128 bit) for masks whose bytes are below 16 (no zeroing). -/
def pshufb (mask : List Nat) (a : Buf) : Buf := pick 1 a mask

/-- `vpshufb` (256 bit) with the same mask in both lanes. -/
def vpshufb (mask : List Nat) (a : Buf) : Buf := lanes1 (pshufb mask) a

end Dlt.Simd
