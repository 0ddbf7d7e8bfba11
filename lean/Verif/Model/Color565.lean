import Verif.Model.Mem
/-!
# `Color565` and its decorrelation

Models `/repo/src/core/dxt-lossless-transform-common/src/color_565/{mod,decorrelate}.rs`.
A colour is its raw `u16`.  `i16` arithmetic is the arithmetic of `BitVec 16`; the Rust code never
overflows `i16` (operands are 5-bit values) and `>>` is only applied to non-negative values, so the
logical shift of `BitVec` is exact (both proved: C85).
-/

namespace Dlt

/-- `enum YCoCgVariant`, decorrelate.rs:63-83. -/
inductive Variant where
  | v1
  | v2
  | v3
  | none
  deriving DecidableEq, Repr

namespace Color565

/-- Forward lifting steps 1-4 shared by decorrelate.rs:109-122, 195-208, 282-295.
Returns `(y, co, cg)`. -/
def forward (r g b : U16) : U16 × U16 × U16 :=
  let co := (r - b) &&& 0x1F#16
  let t := (b + (co >>> 1)) &&& 0x1F#16
  let cg := (g - t) &&& 0x1F#16
  let y := (t + (cg >>> 1)) &&& 0x1F#16
  (y, co, cg)

/-- Inverse lifting steps 1-4 shared by decorrelate.rs:157-167, 244-254, 330-340.
Returns `(r, g, b)`. -/
def backward (y co cg : U16) : U16 × U16 × U16 :=
  let t := (y - (cg >>> 1)) &&& 0x1F#16
  let g := (cg + t) &&& 0x1F#16
  let b := (t - (co >>> 1)) &&& 0x1F#16
  let r := (b + co) &&& 0x1F#16
  (r, g, b)

/-- `decorrelate_ycocg_r_var1`, decorrelate.rs:101-127. -/
def decorr1 (v : U16) : U16 :=
  let r := (v >>> 11) &&& 0x1F#16
  let g := (v >>> 6) &&& 0x1F#16
  let gLow := (v >>> 5) &&& 0x1#16
  let b := v &&& 0x1F#16
  let (y, co, cg) := forward r g b
  (y <<< 11) ||| (co <<< 6) ||| (gLow <<< 5) ||| cg

/-- `recorrelate_ycocg_r_var1`, decorrelate.rs:148-171. -/
def recorr1 (v : U16) : U16 :=
  let y := (v >>> 11) &&& 0x1F#16
  let co := (v >>> 6) &&& 0x1F#16
  let gLow := (v >>> 5) &&& 0x1#16
  let cg := v &&& 0x1F#16
  let (r, g, b) := backward y co cg
  (r <<< 11) ||| (g <<< 6) ||| (gLow <<< 5) ||| b

/-- `decorrelate_ycocg_r_var2`, decorrelate.rs:187-214. -/
def decorr2 (v : U16) : U16 :=
  let r := (v >>> 11) &&& 0x1F#16
  let g := (v >>> 6) &&& 0x1F#16
  let gLow := (v >>> 5) &&& 0x1#16
  let b := v &&& 0x1F#16
  let (y, co, cg) := forward r g b
  (gLow <<< 15) ||| (y <<< 10) ||| (co <<< 5) ||| cg

/-- `recorrelate_ycocg_r_var2`, decorrelate.rs:235-258. -/
def recorr2 (v : U16) : U16 :=
  let gLow := v >>> 15
  let y := (v >>> 10) &&& 0x1F#16
  let co := (v >>> 5) &&& 0x1F#16
  let cg := v &&& 0x1F#16
  let (r, g, b) := backward y co cg
  (r <<< 11) ||| (g <<< 6) ||| (gLow <<< 5) ||| b

/-- `decorrelate_ycocg_r_var3`, decorrelate.rs:274-300. -/
def decorr3 (v : U16) : U16 :=
  let r := (v >>> 11) &&& 0x1F#16
  let g := (v >>> 6) &&& 0x1F#16
  let gLow := (v >>> 5) &&& 0x1#16
  let b := v &&& 0x1F#16
  let (y, co, cg) := forward r g b
  (y <<< 11) ||| (co <<< 6) ||| (cg <<< 1) ||| gLow

/-- `recorrelate_ycocg_r_var3`, decorrelate.rs:321-344. -/
def recorr3 (v : U16) : U16 :=
  let y := (v >>> 11) &&& 0x1F#16
  let co := (v >>> 6) &&& 0x1F#16
  let cg := (v >>> 1) &&& 0x1F#16
  let gLow := v &&& 0x1#16
  let (r, g, b) := backward y co cg
  (r <<< 11) ||| (g <<< 6) ||| (gLow <<< 5) ||| b

/-- `decorrelate_ycocg_r`, decorrelate.rs:364-371. -/
def decorr : Variant → U16 → U16
  | .v1 => decorr1
  | .v2 => decorr2
  | .v3 => decorr3
  | .none => id

/-- `recorrelate_ycocg_r`, decorrelate.rs:391-398. -/
def recorr : Variant → U16 → U16
  | .v1 => recorr1
  | .v2 => recorr2
  | .v3 => recorr3
  | .none => id

/-- `from_rgb`, mod.rs:108-115. -/
def fromRgb (r g b : Byte) : U16 :=
  ((r.zeroExtend 16 &&& 0xF8#16) <<< 8) ||| ((g.zeroExtend 16 &&& 0xFC#16) <<< 3) |||
    (b.zeroExtend 16 >>> 3)

/-- `red`, mod.rs:154-157. -/
def red (v : U16) : Byte :=
  let r := (v &&& 0xF800#16) >>> 11
  ((r <<< 3) ||| (r >>> 2)).setWidth 8

/-- `green`, mod.rs:171-174. -/
def green (v : U16) : Byte :=
  let g := (v &&& 0x07E0#16) >>> 5
  ((g <<< 2) ||| (g >>> 4)).setWidth 8

/-- `blue`, mod.rs:188-191. -/
def blue (v : U16) : Byte :=
  let b := v &&& 0x001F#16
  ((b <<< 3) ||| (b >>> 2)).setWidth 8

/-- `greater_than`, mod.rs:198-200. -/
def greaterThan (a b : U16) : Bool := b.toNat < a.toNat

end Color565
end Dlt
