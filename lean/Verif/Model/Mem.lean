/-!
# Machine integers, buffers and loops

The ground floor of the model of `/repo/src/core/*`.  The Rust kernels receive raw pointers into an
input region and an output region.  The model keeps one byte list per region and represents a
pointer by its offset inside the region.  Every load and store is bounds-checked: an access outside
the region yields `none`.  `none` therefore stands for undefined behaviour, a panic or a loop which
does not terminate, and a theorem `kernel ... = some out` includes memory safety and termination.

Simplification: input and output are disjoint regions (the Rust safety contracts demand this), and
pointers do not wrap around the address space.
-/

namespace Dlt

/-- `u8` -/
abbrev Byte := BitVec 8
/-- `u16` -/
abbrev U16 := BitVec 16
/-- `u32` -/
abbrev U32 := BitVec 32
/-- `u64` -/
abbrev U64 := BitVec 64
/-- A memory region. -/
abbrev Buf := List Byte

/-- Byte order of the machine that runs the code: `read_unaligned(p as *const u32)` and friends are
native-endian in all portable kernels (e.g. `/repo/src/core/dxt-lossless-transform-bc1/src/transform/
standard/transform/portable32.rs:36`). -/
inductive Endian where
  | little
  | big
  deriving DecidableEq, Repr

/-- `l[off .. off+n]` -/
def slice {α : Type} (l : List α) (off n : Nat) : List α := (l.drop off).take n

/-- Load `n` bytes at offset `off` (`core::ptr::read_unaligned` for an `n`-byte type). -/
def ld (b : Buf) (off n : Nat) : Option Buf :=
  if off + n ≤ b.length then some (slice b off n) else none

/-- Store the bytes `bs` at offset `off` (`core::ptr::write_unaligned`). -/
def st (b : Buf) (off : Nat) (bs : Buf) : Option Buf :=
  if off + bs.length ≤ b.length then some (b.take off ++ bs ++ b.drop (off + bs.length)) else none

/-- Two bytes as a `u16`. -/
def of16 : Endian → Buf → U16
  | .little, [a, b] => b ++ a
  | .big, [a, b] => a ++ b
  | _, _ => 0

/-- `u16` as two bytes. -/
def to16 : Endian → U16 → Buf
  | .little, w => [w.extractLsb' 0 8, w.extractLsb' 8 8]
  | .big, w => [w.extractLsb' 8 8, w.extractLsb' 0 8]

/-- Four bytes as a `u32`. -/
def of32 : Endian → Buf → U32
  | .little, [a, b, c, d] => d ++ (c ++ (b ++ a))
  | .big, [a, b, c, d] => a ++ (b ++ (c ++ d))
  | _, _ => 0

/-- `u32` as four bytes. -/
def to32 : Endian → U32 → Buf
  | .little, w => [w.extractLsb' 0 8, w.extractLsb' 8 8, w.extractLsb' 16 8, w.extractLsb' 24 8]
  | .big, w => [w.extractLsb' 24 8, w.extractLsb' 16 8, w.extractLsb' 8 8, w.extractLsb' 0 8]

/-- Eight bytes as a `u64`. -/
def of64 : Endian → Buf → U64
  | .little, [a, b, c, d, e, f, g, h] => h ++ (g ++ (f ++ (e ++ (d ++ (c ++ (b ++ a))))))
  | .big, [a, b, c, d, e, f, g, h] => a ++ (b ++ (c ++ (d ++ (e ++ (f ++ (g ++ h))))))
  | _, _ => 0

/-- `u64` as eight bytes. -/
def to64 : Endian → U64 → Buf
  | .little, w => [w.extractLsb' 0 8, w.extractLsb' 8 8, w.extractLsb' 16 8, w.extractLsb' 24 8,
      w.extractLsb' 32 8, w.extractLsb' 40 8, w.extractLsb' 48 8, w.extractLsb' 56 8]
  | .big, w => [w.extractLsb' 56 8, w.extractLsb' 48 8, w.extractLsb' 40 8, w.extractLsb' 32 8,
      w.extractLsb' 24 8, w.extractLsb' 16 8, w.extractLsb' 8 8, w.extractLsb' 0 8]

/-- `read_unaligned(p as *const u8)` -/
def ld8 (b : Buf) (off : Nat) : Option Byte := (ld b off 1).map (fun l => l.headD 0)
/-- `read_unaligned(p as *const u16)` -/
def ld16 (e : Endian) (b : Buf) (off : Nat) : Option U16 := (ld b off 2).map (of16 e)
/-- `read_unaligned(p as *const u32)` -/
def ld32 (e : Endian) (b : Buf) (off : Nat) : Option U32 := (ld b off 4).map (of32 e)
/-- `read_unaligned(p as *const u64)` -/
def ld64 (e : Endian) (b : Buf) (off : Nat) : Option U64 := (ld b off 8).map (of64 e)
/-- `write_unaligned(p as *mut u8, w)` -/
def st8 (b : Buf) (off : Nat) (w : Byte) : Option Buf := st b off [w]
/-- `write_unaligned(p as *mut u16, w)` -/
def st16 (e : Endian) (b : Buf) (off : Nat) (w : U16) : Option Buf := st b off (to16 e w)
/-- `write_unaligned(p as *mut u32, w)` -/
def st32 (e : Endian) (b : Buf) (off : Nat) (w : U32) : Option Buf := st b off (to32 e w)
/-- `write_unaligned(p as *mut u64, w)` -/
def st64 (e : Endian) (b : Buf) (off : Nat) (w : U64) : Option Buf := st b off (to64 e w)

/-- `while cond { body }`.  `fuel` bounds the number of evaluations of the condition; running out of
fuel is `none`, so a result `some _` certifies termination. -/
def whileM {σ : Type} (fuel : Nat) (cond : σ → Bool) (body : σ → Option σ) (s : σ) : Option σ :=
  match fuel with
  | 0 => none
  | fuel + 1 => if cond s then (body s).bind (whileM fuel cond body) else some s

/-- `do { body } while cond`: the shape of the inline-assembly loops (`2: ...; jb 2b`). -/
def doWhileM {σ : Type} (fuel : Nat) (body : σ → Option σ) (cond : σ → Bool) (s : σ) : Option σ :=
  (body s).bind (whileM fuel cond body)

/-- `if aligned_len > 0 { asm!("2:", body, "cmp ..", "jb 2b") }`. -/
def asmLoop {σ : Type} (alignedLen fuel : Nat) (body : σ → Option σ) (cond : σ → Bool) (s : σ) :
    Option σ :=
  if 0 < alignedLen then doWhileM fuel body cond s else some s

end Dlt
