import Verif.Model.Mem
import Verif.Model.Color565
/-!
# Specification

What the transforms are documented to do, stated over whole byte strings and independently of the
kernels.  It shares with the model only the names of the settings (`Variant`) and `slice`.
-/

namespace Dlt.Spec

/-- Block number `i` of `data`, for blocks of `B` bytes. -/
def block (B : Nat) (data : Buf) (i : Nat) : Buf := slice data (i * B) B

/-- One output section: the field `f` of every block, in block order. -/
def column (B : Nat) (data : Buf) (f : Buf → Buf) : Buf :=
  (List.range (data.length / B)).flatMap (fun i => f (block B data i))

/-- Structure-of-arrays layout: one section per field, in order. -/
def columns (B : Nat) (fs : List (Buf → Buf)) (data : Buf) : Buf :=
  fs.flatMap (column B data)

/-! ## YCoCg-R

The transform of 5-bit channels `r`, `g` (top five bits of green) and `b`:
`Co = R - B`, `t = B + ⌊Co/2⌋`, `Cg = G - t`, `Y = t + ⌊Cg/2⌋`, everything modulo 32. -/

/-- `Co = R - B (mod 32)` -/
def co (r b : Int) : Int := (r - b) % 32
/-- `t = B + ⌊Co/2⌋ (mod 32)` -/
def tt (r b : Int) : Int := (b + co r b / 2) % 32
/-- `Cg = G - t (mod 32)` -/
def cg (r g b : Int) : Int := (g - tt r b) % 32
/-- `Y = t + ⌊Cg/2⌋ (mod 32)` -/
def yy (r g b : Int) : Int := (tt r b + cg r g b / 2) % 32

/-- Red channel (bits 11-15) of an RGB565 value. -/
def red5 (c : Nat) : Nat := c / 2 ^ 11 % 32
/-- Top five bits (bits 6-10) of the green channel. -/
def green5 (c : Nat) : Nat := c / 2 ^ 6 % 32
/-- Lowest bit (bit 5) of the green channel. -/
def greenLow (c : Nat) : Nat := c / 2 ^ 5 % 2
/-- Blue channel (bits 0-4). -/
def blue5 (c : Nat) : Nat := c % 32

/-- The documented 16-bit packing of the decorrelated colour for each variant. -/
def decorrelate (v : Variant) (c : Nat) : Nat :=
  let y := (yy (red5 c) (green5 c) (blue5 c)).toNat
  let o := (co (red5 c) (blue5 c)).toNat
  let g := (cg (red5 c) (green5 c) (blue5 c)).toNat
  match v with
  | .v1 => y * 2 ^ 11 + o * 2 ^ 6 + greenLow c * 2 ^ 5 + g
  | .v2 => greenLow c * 2 ^ 15 + y * 2 ^ 10 + o * 2 ^ 5 + g
  | .v3 => y * 2 ^ 11 + o * 2 ^ 6 + g * 2 + greenLow c
  | .none => c

/-- A little-endian colour (two bytes) after decorrelation. -/
def colour (v : Variant) (bs : Buf) : Buf :=
  match bs with
  | [lo, hi] =>
    let w := decorrelate v (lo.toNat + 256 * hi.toNat)
    [BitVec.ofNat 8 (w % 256), BitVec.ofNat 8 (w / 256)]
  | _ => []

/-! ## Block layouts

`col` says how the two bytes of a colour endpoint are stored; for the documented format it is
`colour v`. -/

/-- BC1 block: `color0 (2) | color1 (2) | indices (4)`. -/
def bc1Fields (col : Buf → Buf) (splitColour : Bool) : List (Buf → Buf) :=
  if splitColour then
    [fun b => col (slice b 0 2), fun b => col (slice b 2 2), fun b => slice b 4 4]
  else
    [fun b => col (slice b 0 2) ++ col (slice b 2 2), fun b => slice b 4 4]

/-- BC2 block: `alpha (8) | color0 (2) | color1 (2) | indices (4)`. -/
def bc2Fields (col : Buf → Buf) (splitColour : Bool) : List (Buf → Buf) :=
  if splitColour then
    [fun b => slice b 0 8, fun b => col (slice b 8 2), fun b => col (slice b 10 2),
      fun b => slice b 12 4]
  else
    [fun b => slice b 0 8, fun b => col (slice b 8 2) ++ col (slice b 10 2), fun b => slice b 12 4]

/-- BC3 block: `alpha0 (1) | alpha1 (1) | alpha indices (6) | color0 (2) | color1 (2) | indices (4)`. -/
def bc3Fields (col : Buf → Buf) (splitAlpha splitColour : Bool) : List (Buf → Buf) :=
  (if splitAlpha then [fun b => slice b 0 1, fun b => slice b 1 1] else [fun b => slice b 0 2]) ++
  [fun b => slice b 2 6] ++
  (if splitColour then [fun b => col (slice b 8 2), fun b => col (slice b 10 2)]
    else [fun b => col (slice b 8 2) ++ col (slice b 10 2)]) ++
  [fun b => slice b 12 4]

end Dlt.Spec
