import Verif.Model.Auto
import Verif.Model.Bc7
import Verif.Model.Decode
/-!
# Scalar arithmetic with overflow checks

The other modules compute scalar expressions in `Nat` or in wrapping `BitVec` arithmetic and say that nothing overflows.  Here
the same functions are written with the types of the Rust source, and with what a build with overflow checks
does: an addition, subtraction or multiplication whose result is not representable panics, and so does a shift by at least the
number of bits.  `none` is the panic (or, as elsewhere, an access outside the memory).

Covered: `color_565/decorrelate.rs`, `bc{1,2,3}_decode.rs`, `msb_extract_bits.rs`, `msb_insert_bits.rs` and the sum of the two
estimates in bc3 `transform_auto.rs`.  Conversions with `as` truncate and never panic.
-/

namespace Dlt.Checked

/-- `a + b` for unsigned integers of `w` bits. -/
def addU (w a b : Nat) : Option Nat := if a + b < 2 ^ w then some (a + b) else none

/-- `a - b` for unsigned integers. -/
def subU (a b : Nat) : Option Nat := if b ≤ a then some (a - b) else none

/-- `a * b` for unsigned integers of `w` bits. -/
def mulU (w a b : Nat) : Option Nat := if a * b < 2 ^ w then some (a * b) else none

/-- `x >> k` for unsigned integers of `w` bits. -/
def shrU {w : Nat} (x : BitVec w) (k : Nat) : Option (BitVec w) := if k < w then some (x >>> k) else none

/-- `x << k`; bits shifted out are no overflow. -/
def shlU {w : Nat} (x : BitVec w) (k : Nat) : Option (BitVec w) := if k < w then some (x <<< k) else none

/-- `a + b` for `i16`. -/
def addI16 (a b : BitVec 16) : Option (BitVec 16) :=
  if -32768 ≤ a.toInt + b.toInt ∧ a.toInt + b.toInt ≤ 32767 then some (BitVec.ofInt 16 (a.toInt + b.toInt)) else none

/-- `a - b` for `i16`. -/
def subI16 (a b : BitVec 16) : Option (BitVec 16) :=
  if -32768 ≤ a.toInt - b.toInt ∧ a.toInt - b.toInt ≤ 32767 then some (BitVec.ofInt 16 (a.toInt - b.toInt)) else none

/-- `a >> 1` for `i16`: the sign is kept. -/
def shr1I16 (a : BitVec 16) : BitVec 16 := a.sshiftRight 1

/-! ## Colours -/

/-- The steps 1 to 4 of `decorrelate_ycocg_r_var1`, `2` and `3`, decorrelate.rs:109-119, 195-205, 282-292. -/
def forward (r g b : U16) : Option (U16 × U16 × U16) := do
  let co := (← subI16 r b) &&& 0x1F#16
  let t := (← addI16 b (shr1I16 co)) &&& 0x1F#16
  let cg := (← subI16 g t) &&& 0x1F#16
  let y := (← addI16 t (shr1I16 cg)) &&& 0x1F#16
  pure (y, co, cg)

/-- The steps 1 to 4 of `recorrelate_ycocg_r_var1`, `2` and `3`, decorrelate.rs:157-167, 244-254, 330-340. -/
def backward (y co cg : U16) : Option (U16 × U16 × U16) := do
  let t := (← subI16 y (shr1I16 cg)) &&& 0x1F#16
  let g := (← addI16 cg t) &&& 0x1F#16
  let b := (← subI16 t (shr1I16 co)) &&& 0x1F#16
  let r := (← addI16 b co) &&& 0x1F#16
  pure (r, g, b)

/-- `decorrelate_ycocg_r`, decorrelate.rs:364-371, with decorrelate.rs:101-127, 187-214 and 274-300. -/
def decorr : Variant → U16 → Option U16
  | .v1, v => do
    let (y, co, cg) ← forward ((← shrU v 11) &&& 0x1F#16) ((← shrU v 6) &&& 0x1F#16) (v &&& 0x1F#16)
    let gLow := (← shrU v 5) &&& 0x1#16
    pure ((← shlU y 11) ||| (← shlU co 6) ||| (← shlU gLow 5) ||| cg)
  | .v2, v => do
    let (y, co, cg) ← forward ((← shrU v 11) &&& 0x1F#16) ((← shrU v 6) &&& 0x1F#16) (v &&& 0x1F#16)
    let gLow := (← shrU v 5) &&& 0x1#16
    pure ((← shlU gLow 15) ||| (← shlU y 10) ||| (← shlU co 5) ||| cg)
  | .v3, v => do
    let (y, co, cg) ← forward ((← shrU v 11) &&& 0x1F#16) ((← shrU v 6) &&& 0x1F#16) (v &&& 0x1F#16)
    let gLow := (← shrU v 5) &&& 0x1#16
    pure ((← shlU y 11) ||| (← shlU co 6) ||| (← shlU cg 1) ||| gLow)
  | .none, v => some v

/-- `recorrelate_ycocg_r`, decorrelate.rs:391-398, with decorrelate.rs:148-171, 235-258 and 321-344. -/
def recorr : Variant → U16 → Option U16
  | .v1, v => do
    let (r, g, b) ← backward ((← shrU v 11) &&& 0x1F#16) ((← shrU v 6) &&& 0x1F#16) (v &&& 0x1F#16)
    let gLow := (← shrU v 5) &&& 0x1#16
    pure ((← shlU r 11) ||| (← shlU g 6) ||| (← shlU gLow 5) ||| b)
  | .v2, v => do
    let (r, g, b) ← backward ((← shrU v 10) &&& 0x1F#16) ((← shrU v 5) &&& 0x1F#16) (v &&& 0x1F#16)
    let gLow ← shrU v 15
    pure ((← shlU r 11) ||| (← shlU g 6) ||| (← shlU gLow 5) ||| b)
  | .v3, v => do
    let (r, g, b) ← backward ((← shrU v 11) &&& 0x1F#16) ((← shrU v 6) &&& 0x1F#16) ((← shrU v 1) &&& 0x1F#16)
    let gLow := v &&& 0x1#16
    pure ((← shlU r 11) ||| (← shlU g 6) ||| (← shlU gLow 5) ||| b)
  | .none, v => some v

/-! ## Decoders -/

/-- `(((2 * a as u32) + b as u32) / 3) as u8`, bc1_decode.rs:70-73 and the other decoders. -/
def third (a b : Byte) : Option Byte := do
  let s ← addU 32 (← mulU 32 2 a.toNat) b.toNat
  pure (BitVec.ofNat 8 (s / 3))

/-- `((a as u32 + 2 * b as u32) / 3) as u8`, bc1_decode.rs:75-78 and the other decoders. -/
def third' (a b : Byte) : Option Byte := do
  let s ← addU 32 a.toNat (← mulU 32 2 b.toNat)
  pure (BitVec.ofNat 8 (s / 3))

/-- `((a as u32 + b as u32) / 2) as u8`, bc1_decode.rs:81-84. -/
def half (a b : Byte) : Option Byte := do
  let s ← addU 32 a.toNat b.toNat
  pure (BitVec.ofNat 8 (s / 2))

/-- The dictionary of the four-colour mode, as in `Decode.dict4`. -/
def dict4 (c0 c1 : U16) : Option (List Color8888) := do
  let (r0, g0, b0) := (Color565.red c0, Color565.green c0, Color565.blue c0)
  let (r1, g1, b1) := (Color565.red c1, Color565.green c1, Color565.blue c1)
  pure [⟨r0, g0, b0, 255⟩, ⟨r1, g1, b1, 255⟩,
   ⟨← third r0 r1, ← third g0 g1, ← third b0 b1, 255⟩,
   ⟨← third' r0 r1, ← third' g0 g1, ← third' b0 b1, 255⟩]

/-- The dictionary of the three-colour mode, as in `Decode.dict3`. -/
def dict3 (c0 c1 : U16) : Option (List Color8888) := do
  let (r0, g0, b0) := (Color565.red c0, Color565.green c0, Color565.blue c0)
  let (r1, g1, b1) := (Color565.red c1, Color565.green c1, Color565.blue c1)
  pure [⟨r0, g0, b0, 255⟩, ⟨r1, g1, b1, 255⟩, ⟨← half r0 r1, ← half g0 g1, ← half b0 b1, 255⟩, ⟨0, 0, 0, 0⟩]

/-- `set_pixel_unchecked`, decoded_4x4_block.rs:98-100, with the index computed in `usize` of `w` bits. -/
def setPixel (w : Nat) (px : Pixels) (x y : Nat) (p : Color8888) : Option Pixels := do
  let i ← addU w (← mulU w y 4) x
  if i < px.length then some (List.set px i p) else none

/-- `decode_bc1_block`, bc1_decode.rs:42-101; `index_pos` is an `i32`, non-negative. -/
def bc1 (w : Nat) (b : Buf) (src : Nat) : Option Pixels := do
  let c0 ← ld16 .little b src
  let c1 ← ld16 .little b (src + 2)
  let idx ← ld32 .little b (src + 4)
  let dict ← if Color565.greaterThan c0 c1 then dict4 c0 c1 else dict3 c0 c1
  let (px, _) ← forXY (fun x y (px, indexPos) => do
    let p ← dict[((← shrU idx indexPos) &&& 3#32).toNat]?
    let px ← setPixel w px x y p
    pure (px, ← addU 31 indexPos 2)) (Pixels.new ⟨0, 0, 0, 0⟩, 0)
  pure px

/-- `decode_bc2_block`, bc2_decode.rs:44-122; the nibble is multiplied by 17 as a `u8`. -/
def bc2 (w : Nat) (b : Buf) (src : Nat) : Option Pixels := do
  let c0 ← ld16 .little b (src + 8)
  let c1 ← ld16 .little b (src + 10)
  let idx ← ld32 .little b (src + 12)
  let dict ← dict4 c0 c1
  let alphaBytes ← ld b src 8
  let (px, _, _) ← forXY (fun x y (px, indexPos, alphaBitPos) => do
    let p ← dict[((← shrU idx indexPos) &&& 3#32).toNat]?
    let shift ← mulU w (alphaBitPos % 2) 4
    let byte ← alphaBytes[alphaBitPos / 2]?
    let alphaValue := (← shrU byte shift) &&& 0x0F#8
    let px ← setPixel w px x y { p with a := BitVec.ofNat 8 (← mulU 8 alphaValue.toNat 17) }
    pure (px, ← addU 31 indexPos 2, ← addU w alphaBitPos 1)) (Pixels.new ⟨0, 0, 0, 0⟩, 0, 0)
  pure px

/-- `((p * a0 as u16 + q * a1 as u16) / d) as u8`, bc3_decode.rs:105-120. -/
def mix (p q d : Nat) (a0 a1 : Byte) : Option Byte := do
  let s ← addU 16 (← mulU 16 p a0.toNat) (← mulU 16 q a1.toNat)
  pure (BitVec.ofNat 8 (s / d))

/-- The alpha lookup table, bc3_decode.rs:97-122. -/
def alphaValues (a0 a1 : Byte) : Option (List Byte) :=
  if a1.toNat < a0.toNat then do
    pure [a0, a1, ← mix 6 1 7 a0 a1, ← mix 5 2 7 a0 a1, ← mix 4 3 7 a0 a1, ← mix 3 4 7 a0 a1, ← mix 2 5 7 a0 a1,
      ← mix 1 6 7 a0 a1]
  else do
    pure [a0, a1, ← mix 4 1 5 a0 a1, ← mix 3 2 5 a0 a1, ← mix 2 3 5 a0 a1, ← mix 1 4 5 a0 a1, 0, 255]

/-- `decode_bc3_block`, bc3_decode.rs:43-173. -/
def bc3 (w : Nat) (b : Buf) (src : Nat) : Option Pixels := do
  let c0 ← ld16 .little b (src + 8)
  let c1 ← ld16 .little b (src + 10)
  let idx ← ld32 .little b (src + 12)
  let dict ← dict4 c0 c1
  let a0 ← ld8 b src
  let a1 ← ld8 b (src + 1)
  let values ← alphaValues a0 a1
  let indices ← ld b (src + 2) 6
  let (px, _, _) ← forXY (fun x y (px, indexPos, alphaBitPos) => do
    let p ← dict[((← shrU idx indexPos) &&& 3#32).toNat]?
    let bytePos := alphaBitPos / 8
    let bitShift := alphaBitPos % 8
    let alphaIdx ←
      if bitShift ≤ 5 then do
        let byte ← indices[bytePos]?
        pure ((← shrU byte bitShift) &&& 0b111#8)
      else do
        let cur ← indices[bytePos]?
        let cur ← shrU cur bitShift
        let next ← indices[← addU w bytePos 1]?
        let next ← shlU next (← subU 8 bitShift)
        pure ((cur ||| next) &&& 0b111#8)
    let alpha ← values[alphaIdx.toNat]?
    let px ← setPixel w px x y { p with a := alpha }
    pure (px, ← addU 31 indexPos 2, ← addU w alphaBitPos 3)) (Pixels.new ⟨0, 0, 0, 0⟩, 0, 0)
  pure px

/-! ## BC7 bit helpers -/

/-- `extract_msb_bits`, msb_extract_bits.rs:19-33, on `u8` arguments. -/
def extractMsbBits (byte start stop : Byte) : Option Byte :=
  if start.toNat ≤ stop.toNat ∧ stop.toNat ≤ 7 then do
    let numBits ← addU 8 (← subU stop.toNat start.toNat) 1
    let mask ← subU (← shlU 1#32 numBits).toNat 1
    let shift ← subU 7 stop.toNat
    pure ((← shrU byte shift) &&& (BitVec.ofNat 32 mask).setWidth 8)
  else none

/-- `insert_msb_bits`, msb_insert_bits.rs:20-39, on `u8` arguments. -/
def insertMsbBits (byte value start stop : Byte) : Option Byte :=
  if start.toNat ≤ stop.toNat ∧ stop.toNat ≤ 7 then do
    let numBits ← addU 8 (← subU stop.toNat start.toNat) 1
    let mask ← subU (← shlU 1#32 numBits).toNat 1
    let mask ← shlU (BitVec.ofNat 32 mask) (← subU 7 stop.toNat)
    let cleared := byte &&& ~~~(mask.setWidth 8)
    let shift ← subU 7 stop.toNat
    let positioned := (← shlU value shift) &&& mask.setWidth 8
    pure (cleared ||| positioned)
  else none

/-! ## The search of BC3 -/

/-- The estimator calls of one iteration, bc3 transform_auto.rs:253-279; the sum panics if it is not representable. -/
def measure {σ E : Type} (env : Env) (est : Estimator σ E) (len comp : Nat) (st : σ) (out : Buf) :
    Option (σ × Except E Nat) :=
  match est.estimate st (slice out 0 (len / 16 * 2)) comp with
  | (st, .error e) => some (st, .error e)
  | (st, .ok alpha) =>
    match est.estimate st (slice out (len / 2) (len / 16 * 4)) comp with
    | (st, .error e) => some (st, .error e)
    | (st, .ok colour) => if alpha + colour ≤ env.usizeMax then some (st, .ok (alpha + colour)) else none

/-- `Auto.loop` with a `measure` that may panic. -/
def loop {S σ E : Type} (transform : Buf → S → Option Buf) (measure : σ → Buf → Option (σ × Except E Nat)) :
    List S → (out : Buf) → (st : σ) → (best : S) → (bestSize : Nat) → (last : S) → Option (Buf × σ × Except E (S × S))
  | [], out, st, best, _, last => some (out, st, .ok (best, last))
  | cur :: rest, out, st, best, bestSize, _ => do
    let out ← transform out cur
    match ← measure st out with
    | (st, .error e) => pure (out, st, .error e)
    | (st, .ok size) =>
      if size < bestSize then loop transform measure rest out st cur size cur
      else loop transform measure rest out st best bestSize cur

/-- `transform_bc3_auto`, bc3 transform_auto.rs:196-294, with overflow checks. -/
def transformAuto {σ E : Type} (env : Env) (m : Machine) (est : Estimator σ E) (useAll : Bool)
    (inp out : Buf) (len : Nat) (st : σ) : Option (Buf × σ × Except (DetermineBestError E) Bc3.Settings) :=
  Auto.prepare env est (len / 4) out st fun comp st => do
    match ← loop (fun out s => Bc3.transformWithSettings m inp out len s) (measure env est len comp) (Bc3.testOrder useAll)
      out st Bc3.defaultSettings env.usizeMax Bc3.defaultSettings with
    | (out, st, .error e) => pure (out, st, .error (.sizeEstimation e))
    | (out, st, .ok (best, last)) =>
      if best ≠ last then
        let out ← Bc3.transformWithSettings m inp out len best
        pure (out, st, .ok best)
      else pure (out, st, .ok best)

end Dlt.Checked
