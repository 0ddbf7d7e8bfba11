import Verif.Model.Mem
/-!
# Specification of the block formats

What the BC1, BC2 and BC3 formats say about the sixteen pixels of a block, as arithmetic on numbers.
Independent of the decoder model; pixels are quadruples `(r, g, b, a)` of numbers, pixel `k` is the
one in row `k / 4`, column `k % 4`.
-/

namespace Dlt.Spec

/-- The number written by the bytes, least significant byte first. -/
def le : Buf → Nat
  | [] => 0
  | x :: xs => x.toNat + 256 * le xs

/-- Expansion of a 5-bit channel to 8 bits: the top bits are repeated below. -/
def expand5 (v : Nat) : Nat := v * 8 + v / 4

/-- Expansion of a 6-bit channel to 8 bits. -/
def expand6 (v : Nat) : Nat := v * 4 + v / 16

/-- `(r, g, b)` -/
abbrev Rgb := Nat × Nat × Nat
/-- `(r, g, b, a)` -/
abbrev Rgba := Nat × Nat × Nat × Nat

/-- The expanded channels of an RGB565 colour. -/
def rgb565 (c : Nat) : Rgb := (expand5 (c / 2048 % 32), expand6 (c / 32 % 64), expand5 (c % 32))

/-- Weighted mean of two colours, rounded down per channel. -/
def blend (p q : Nat) (x y : Rgb) : Rgb :=
  ((p * x.1 + q * y.1) / (p + q), (p * x.2.1 + q * y.2.1) / (p + q), (p * x.2.2 + q * y.2.2) / (p + q))

/-- Palette of an opaque colour block (BC2, BC3 and BC1 with `color0 > color1`). -/
def fourColours (c0 c1 : Nat) : Nat → Rgb
  | 0 => rgb565 c0
  | 1 => rgb565 c1
  | 2 => blend 2 1 (rgb565 c0) (rgb565 c1)
  | _ => blend 1 2 (rgb565 c0) (rgb565 c1)

/-- A colour with alpha. -/
def withAlpha (c : Rgb) (a : Nat) : Rgba := (c.1, c.2.1, c.2.2, a)

/-- Palette of a BC1 block. -/
def bc1Palette (c0 c1 i : Nat) : Rgba :=
  if c1 < c0 then withAlpha (fourColours c0 c1 i) 255
  else match i with
    | 0 => withAlpha (rgb565 c0) 255
    | 1 => withAlpha (rgb565 c1) 255
    | 2 => withAlpha (blend 1 1 (rgb565 c0) (rgb565 c1)) 255
    | _ => (0, 0, 0, 0)

/-- Pixel `k` of a BC1 block: `color0 (2) | color1 (2) | sixteen 2-bit indices`. -/
def bc1Pixel (b : Buf) (k : Nat) : Rgba :=
  bc1Palette (le (slice b 0 2)) (le (slice b 2 2)) (le (slice b 4 4) / 4 ^ k % 4)

/-- The colour of pixel `k` of a BC2 or BC3 block, whose second half is a colour block that is always
in four-colour mode. -/
def opaqueColour (b : Buf) (k : Nat) : Rgb :=
  fourColours (le (slice b 8 2)) (le (slice b 10 2)) (le (slice b 12 4) / 4 ^ k % 4)

/-- Pixel `k` of a BC2 block: sixteen 4-bit alpha values, then the colour block. -/
def bc2Pixel (b : Buf) (k : Nat) : Rgba :=
  withAlpha (opaqueColour b k) (le (slice b 0 8) / 16 ^ k % 16 * 17)

/-- Alpha palette of a BC3 block. -/
def alphaPalette (a0 a1 : Nat) (i : Nat) : Nat :=
  if i = 0 then a0
  else if i = 1 then a1
  else if a1 < a0 then ((8 - i) * a0 + (i - 1) * a1) / 7
  else if i = 6 then 0
  else if i = 7 then 255
  else ((6 - i) * a0 + (i - 1) * a1) / 5

/-- Pixel `k` of a BC3 block: `alpha0 (1) | alpha1 (1) | sixteen 3-bit indices`, then the colour
block. -/
def bc3Pixel (b : Buf) (k : Nat) : Rgba :=
  withAlpha (opaqueColour b k)
    (alphaPalette (le (slice b 0 1)) (le (slice b 1 1)) (le (slice b 2 6) / 8 ^ k % 8))

end Dlt.Spec
