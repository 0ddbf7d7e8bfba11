import Verif.Lemmas.DdsParse
/-!
# C32, C33: what the DDS parser reports

The specification below reads the file header by itself: numbers as sums of bytes, four character codes as text.
-/

namespace Dlt.Props

open Dlt.Dds Dlt.Embed

/-! ## Specification -/

/-- The little-endian number in the four bytes at `off`. -/
def num (b : Buf) (off : Nat) : Nat :=
  (b.getD off 0).toNat + 256 * (b.getD (off + 1) 0).toNat + 65536 * (b.getD (off + 2) 0).toNat +
    16777216 * (b.getD (off + 3) 0).toNat

/-- The bytes of an ASCII text. -/
def ascii (s : String) : Buf := s.toList.map fun c => BitVec.ofNat 8 c.toNat

/-- The four character code of the pixel format. -/
def fourcc (b : Buf) : Buf := slice b 0x54 4

/-- The file has the additional DX10 header. -/
def IsDx10 (b : Buf) : Prop := fourcc b = ascii "DX10"

instance (b : Buf) : Decidable (IsDx10 b) := inferInstanceAs (Decidable (_ = _))

/-- The file starts with the DDS magic and is long enough for its headers. -/
def IsDds (b : Buf) : Prop :=
  slice b 0 4 = ascii "DDS " ∧ 128 ≤ b.length ∧ (IsDx10 b → 148 ≤ b.length)

instance (b : Buf) : Decidable (IsDds b) := inferInstanceAs (Decidable (_ ∧ _ ∧ (_ → _)))

/-- Where the texture data begins. -/
def headerSize (b : Buf) : Nat := if IsDx10 b then 148 else 128

/-- First and last DXGI format number of each format. -/
def dxgiTable : List ((Nat × Nat) × DdsFormat) :=
  [((70, 72), .bc1), ((73, 75), .bc2), ((76, 78), .bc3), ((79, 81), .bc4), ((82, 84), .bc5), ((94, 96), .bc6h),
   ((97, 99), .bc7), ((27, 32), .rgba8888), ((87, 87), .bgra8888), ((90, 91), .bgra8888)]

/-- The four character codes. -/
def fourccTable : List (String × DdsFormat) :=
  [("DXT1", .bc1), ("DXT2", .bc2), ("DXT3", .bc2), ("DXT4", .bc3), ("DXT5", .bc3), ("BC4U", .bc4), ("BC4S", .bc4),
   ("ATI1", .bc4), ("BC5U", .bc5), ("BC5S", .bc5), ("ATI2", .bc5)]

/-- A channel mask that covers byte `k` of a pixel. -/
def maskOfByte (k : Nat) : Nat := 255 * 256 ^ k

/-- Bits per pixel and the masks of red, green, blue and alpha. -/
def pixelLayout (b : Buf) : List Nat := [num b 0x58, num b 0x5C, num b 0x60, num b 0x64, num b 0x68]

/-- Bit `k` of the pixel format flags. -/
def PixelFlag (b : Buf) (k : Nat) : Prop := num b 0x50 / 2 ^ k % 2 = 1

instance (b : Buf) (k : Nat) : Decidable (PixelFlag b k) := inferInstanceAs (Decidable (_ = _))

/-- The documented classification.  Flag bit 2 announces a four character code, bit 6 uncompressed colour, bit 0 an alpha
channel. -/
def classify (b : Buf) : DdsFormat :=
  if IsDx10 b then
    ((dxgiTable.find? fun e => e.1.1 ≤ num b 0x80 ∧ num b 0x80 ≤ e.1.2).map (·.2)).getD .unknown
  else if PixelFlag b 2 then ((fourccTable.find? fun e => ascii e.1 = fourcc b).map (·.2)).getD .unknown
  else if PixelFlag b 6 then
    if pixelLayout b = [24, maskOfByte 2, maskOfByte 1, maskOfByte 0, 0] then .bgr888
    else if PixelFlag b 0 ∧ pixelLayout b = [32, maskOfByte 0, maskOfByte 1, maskOfByte 2, maskOfByte 3] then .rgba8888
    else if PixelFlag b 0 ∧ pixelLayout b = [32, maskOfByte 2, maskOfByte 1, maskOfByte 0, maskOfByte 3] then .bgra8888
    else .unknown
  else .unknown

/-- The number of mip levels: the stated one, at least one, if flag bit 17 is set. -/
def mipCount (b : Buf) : Nat := if num b 0x08 / 2 ^ 17 % 2 = 1 then max (num b 0x1C) 1 else 1

/-- Bytes per 4x4 block of the block compressed formats. -/
def blockBytes : DdsFormat → Option Nat
  | .bc1 | .bc4 => some 8
  | .bc2 | .bc3 | .bc5 | .bc6h | .bc7 => some 16
  | _ => none

/-- Bytes per pixel of the other formats; an unknown format still has a size if it is one of the uncompressed kinds
(colour, luminance, YUV, alpha) with a whole number of bytes per pixel. -/
def pixelBytes (b : Buf) : Nat :=
  match classify b with
  | .rgba8888 | .bgra8888 => 4
  | .bgr888 => 3
  | .unknown =>
    if (PixelFlag b 6 ∨ PixelFlag b 17 ∨ PixelFlag b 9 ∨ PixelFlag b 1) ∧ num b 0x58 % 8 = 0 then num b 0x58 / 8 else 0
  | _ => 0

/-- The exact size of mip level `i`; height is at 12 and width at 16. -/
def levelSize (b : Buf) (i : Nat) : Nat :=
  match blockBytes (classify b) with
  | some k => (dim (num b 0x10) i + 3) / 4 * ((dim (num b 0x0C) i + 3) / 4) * k
  | none => dim (num b 0x10) i * dim (num b 0x0C) i * pixelBytes b

/-- The exact size of the texture data. -/
def textureSize (b : Buf) : Nat := total (mipCount b) (levelSize b)

/-! ## Links between the code's reads and the specification -/

theorem slice4 {b : Buf} {off : Nat} (h : off + 4 ≤ b.length) :
    slice b off 4 = [b.getD off 0, b.getD (off + 1) 0, b.getD (off + 2) 0, b.getD (off + 3) 0] := by
  rw [slice_eq_mk h]
  rfl

theorem num_eq {b : Buf} {off : Nat} (h : off + 4 ≤ b.length) : (of32 .little (slice b off 4)).toNat = num b off := by
  rw [slice4 h, of32_little_toNat]
  unfold num
  omega

theorem num_lt (b : Buf) (off : Nat) : num b off < 2 ^ 32 := by
  unfold num
  have := (b.getD off 0).isLt
  have := (b.getD (off + 1) 0).isLt
  have := (b.getD (off + 2) 0).isLt
  have := (b.getD (off + 3) 0).isLt
  omega

theorem code_iff {b : Buf} {off : Nat} (h : off + 4 ≤ b.length) (s : String) (w : U32) (hs : ascii s = to32 .little w) :
    of32 .little (slice b off 4) = w ↔ slice b off 4 = ascii s := by
  rw [hs, slice4 h]
  constructor
  · intro h2
    rw [← h2, to32_of32]
  · intro h2
    rw [h2, of32_to32]

theorem w_eq_iff {b : Buf} {off : Nat} (h : off + 4 ≤ b.length) (w : U32) :
    of32 .little (slice b off 4) = w ↔ num b off = w.toNat := by
  rw [← num_eq h]
  exact ⟨fun h => by rw [h], fun h => BitVec.eq_of_toNat_eq h⟩

theorem dxgi_eq (w : U32) : dxgiFormat w =
    ((dxgiTable.find? fun e => e.1.1 ≤ w.toNat ∧ w.toNat ≤ e.1.2).map (·.2)).getD .unknown := by
  unfold dxgiFormat
  generalize w.toNat = n
  by_cases h : n < 100
  · revert n
    decide
  · have : ∀ e ∈ dxgiTable, ¬ (e.1.1 ≤ n ∧ n ≤ e.1.2) := by
      have : ∀ e ∈ dxgiTable, e.1.2 < 100 := by decide
      intro e he h2
      have := this e he
      omega
    rw [List.find?_eq_none.2 (by simpa using this)]
    split <;> first | omega | rfl

theorem fourcc_eq {b : Buf} (h : 128 ≤ b.length) : fourccFormat (of32 .little (slice b 0x54 4)) =
    ((fourccTable.find? fun e => ascii e.1 = fourcc b).map (·.2)).getD .unknown := by
  have l : 0x54 + 4 ≤ b.length := by omega
  unfold fourccFormat
  simp only [code_iff l "DXT1" 0x31545844#32 (by decide), code_iff l "DXT2" 0x32545844#32 (by decide),
    code_iff l "DXT3" 0x33545844#32 (by decide), code_iff l "DXT4" 0x34545844#32 (by decide),
    code_iff l "DXT5" 0x35545844#32 (by decide), code_iff l "BC4U" 0x55344342#32 (by decide),
    code_iff l "BC4S" 0x53344342#32 (by decide), code_iff l "ATI1" 0x31495441#32 (by decide),
    code_iff l "BC5U" 0x55354342#32 (by decide), code_iff l "BC5S" 0x53354342#32 (by decide),
    code_iff l "ATI2" 0x32495441#32 (by decide)]
  change _ = ((fourccTable.find? fun e => ascii e.1 = slice b 0x54 4).map (·.2)).getD .unknown
  generalize slice b 0x54 4 = c
  simp only [fourccTable, List.find?_cons, eq_comm (b := c)]
  repeat' split
  all_goals simp_all

theorem dx10_iff {b : Buf} (h : 128 ≤ b.length) : of32 .little (slice b 0x54 4) = 0x30315844#32 ↔ IsDx10 b :=
  code_iff (by omega) "DX10" _ (by decide)

theorem flag50_iff {b : Buf} (h : 128 ≤ b.length) (k : Nat) (hk : k < 32) :
    of32 .little (slice b 0x50 4) &&& BitVec.ofNat 32 (2 ^ k) ≠ 0 ↔ PixelFlag b k := by
  rw [flag_iff _ _ hk, num_eq (by omega)]
  rfl

theorem detect_eq {b : Buf} (h : 128 ≤ b.length) : detectUncompressedFormat b = some
    (if pixelLayout b = [24, maskOfByte 2, maskOfByte 1, maskOfByte 0, 0] then .bgr888
    else if PixelFlag b 0 ∧ pixelLayout b = [32, maskOfByte 0, maskOfByte 1, maskOfByte 2, maskOfByte 3] then .rgba8888
    else if PixelFlag b 0 ∧ pixelLayout b = [32, maskOfByte 2, maskOfByte 1, maskOfByte 0, maskOfByte 3] then .bgra8888
    else .unknown) := by
  unfold detectUncompressedFormat
  rw [ld32_some (b := b) (off := 0x50) (by omega), ld32_some (b := b) (off := 0x58) (by omega),
    ld32_some (b := b) (off := 0x5C) (by omega), ld32_some (b := b) (off := 0x60) (by omega),
    ld32_some (b := b) (off := 0x64) (by omega), ld32_some (b := b) (off := 0x68) (by omega)]
  simp only [Option.bind_eq_bind, Option.bind_some]
  have hf := flag50_iff h 0 (by omega)
  rw [show BitVec.ofNat 32 (2 ^ 0) = 1#32 from rfl] at hf
  simp only [w_eq_iff (b := b) (off := 0x58) (by omega), w_eq_iff (b := b) (off := 0x5C) (by omega),
    w_eq_iff (b := b) (off := 0x60) (by omega), w_eq_iff (b := b) (off := 0x64) (by omega),
    w_eq_iff (b := b) (off := 0x68) (by omega), hf]
  have m0 : maskOfByte 0 = 0x000000FF := rfl
  have m1 : maskOfByte 1 = 0x0000FF00 := rfl
  have m2 : maskOfByte 2 = 0x00FF0000 := rfl
  have m3 : maskOfByte 3 = 0xFF000000 := rfl
  simp only [pixelLayout, m0, m1, m2, m3, List.cons.injEq, and_true]
  generalize num b 0x58 = c, num b 0x5C = r, num b 0x60 = g, num b 0x64 = bl, num b 0x68 = a
  simp only [BitVec.toNat_ofNat, Nat.reduceMod, Nat.reducePow, Option.pure_def]
  by_cases h24 : c = 24
  · have : c ≠ 32 := by omega
    simp only [h24, true_and, if_true]
    split <;> simp
  · by_cases h32 : c = 32
    · simp only [h32, Nat.reduceEqDiff, false_and, if_false, if_true, true_and]
      by_cases hp : PixelFlag b 0
      · simp only [hp, if_true, true_and]
        repeat' split
        all_goals rfl
      · simp only [hp, if_false, false_and]
    · simp only [h24, h32, if_false, false_and, and_false]

/-- The parser is the specified classification followed by the size computation. -/
theorem parse_eq (p : Platform) {b : Buf} (h : 128 ≤ b.length) : parseIgnoreMagic p b =
    if IsDx10 b → 148 ≤ b.length then finish p b (classify b) (headerSize b) else some none := by
  unfold parseIgnoreMagic classify headerSize
  rw [if_neg (by omega), ld32_some (b := b) (off := 0x54) (by omega)]
  simp only [Option.bind_eq_bind, Option.bind_some, dx10_iff h]
  by_cases hx : IsDx10 b
  · simp only [hx, if_true, true_imp_iff]
    by_cases h148 : 148 ≤ b.length
    · rw [if_neg (by omega), if_pos h148, ld32_some (b := b) (off := 0x80) (by omega), Option.bind_some, dxgi_eq,
        num_eq (by omega)]
    · rw [if_pos (by omega), if_neg h148]
      rfl
  · simp only [hx, if_false, false_imp_iff, if_true]
    rw [ld32_some (b := b) (off := 0x50) (by omega), Option.bind_some, fourcc_eq h, detect_eq h, Option.bind_some]
    have h2 := flag50_iff h 2 (by omega)
    have h6 := flag50_iff h 6 (by omega)
    rw [show BitVec.ofNat 32 (2 ^ 2) = 0x4#32 from rfl] at h2
    rw [show BitVec.ofNat 32 (2 ^ 6) = 0x40#32 from rfl] at h6
    simp only [h2, h6]
    split
    · rfl
    · split <;> rfl

theorem classify_ne (b : Buf) : classify b ≠ .notADds := by
  have h1 : ∀ q : (Nat × Nat) × DdsFormat → Bool, ((dxgiTable.find? q).map (·.2)).getD .unknown ≠ .notADds := by
    intro q
    cases h : dxgiTable.find? q with
    | none => simp
    | some e =>
      have := List.mem_of_find?_eq_some h
      revert e
      simp only [Option.map_some, Option.getD_some]
      intro e _ he
      have : ∀ e ∈ dxgiTable, e.2 ≠ .notADds := by decide
      exact this e he
  have h2 : ∀ q : String × DdsFormat → Bool, ((fourccTable.find? q).map (·.2)).getD .unknown ≠ .notADds := by
    intro q
    cases h : fourccTable.find? q with
    | none => simp
    | some e =>
      have he := List.mem_of_find?_eq_some h
      have : ∀ e ∈ fourccTable, e.2 ≠ .notADds := by decide
      exact this e he
  unfold classify
  split
  · exact h1 _
  · split
    · exact h2 _
    · repeat' split
      all_goals simp

/-! ## Sizes -/

theorem total_const_zero (n : Nat) : total n (fun _ => 0 % 2 ^ 32) = 0 := by
  induction n with
  | zero => rfl
  | succ n ih => rw [total_succ, ih]

/-- Some level does not fit in 32 bits. -/
def LevelTooLarge (b : Buf) : Prop := ∃ i, i < mipCount b ∧ 2 ^ 32 ≤ levelSize b i

noncomputable instance (b : Buf) : Decidable (LevelTooLarge b) := Classical.propDecidable _

theorem mips_eq {b : Buf} (h : 128 ≤ b.length) :
    (if of32 .little (slice b 0x08 4) &&& 0x20000#32 ≠ 0 then
      (if of32 .little (slice b 0x1C 4) = 0 then 1#32 else of32 .little (slice b 0x1C 4)) else 1#32).toNat
      = mipCount b := by
  have h17 := flag_iff (of32 .little (slice b 0x08 4)) 17 (by omega)
  rw [show BitVec.ofNat 32 (2 ^ 17) = 0x20000#32 from rfl, num_eq (by omega)] at h17
  unfold mipCount
  simp only [h17]
  split
  · rw [← num_eq (b := b) (off := 0x1C) (by omega)]
    by_cases h0 : of32 .little (slice b 0x1C 4) = 0
    · rw [if_pos h0, h0]; rfl
    · rw [if_neg h0]
      have : (of32 .little (slice b 0x1C 4)).toNat ≠ 0 := fun h3 => h0 (BitVec.eq_of_toNat_eq (by rw [h3]; rfl))
      omega
  · rfl

/-- The size that the parser computes. -/
theorem dataLength_eq (p : Platform) {b : Buf} (h : 128 ≤ b.length) :
    (p.overflowChecks = true ∧ LevelTooLarge b → dataLength p (classify b) b = none) ∧
    (¬ (p.overflowChecks = true ∧ LevelTooLarge b) → ∃ l, dataLength p (classify b) b = some l ∧
      (l.getD 0).toNat = min (total (mipCount b) fun i => levelSize b i % 2 ^ 32) (2 ^ 32 - 1)) := by
  have hm := mips_eq h
  unfold dataLength
  rw [ld32_some (b := b) (off := 0x08) (by omega), ld32_some (b := b) (off := 0x0C) (by omega),
    ld32_some (b := b) (off := 0x10) (by omega), ld32_some (b := b) (off := 0x1C) (by omega)]
  simp only [Option.bind_eq_bind, Option.bind_some]
  generalize (if of32 .little (slice b 0x08 4) &&& 0x20000#32 ≠ 0 then
      (if of32 .little (slice b 0x1C 4) = 0 then 1#32 else of32 .little (slice b 0x1C 4)) else 1#32) = mips at hm
  have hh : (of32 .little (slice b 0x0C 4)).toNat = num b 0x0C := num_eq (by omega)
  have hw : (of32 .little (slice b 0x10 4)).toNat = num b 0x10 := num_eq (by omega)
  generalize of32 .little (slice b 0x0C 4) = height at hh
  generalize of32 .little (slice b 0x10 4) = width at hw
  unfold LevelTooLarge
  rw [← hm]
  have blocks : ∀ bs : U32, 0 < bs.toNat → blockBytes (classify b) = some bs.toNat →
      (((p.overflowChecks = true ∧ ∃ i, i < mips.toNat ∧ 2 ^ 32 ≤ levelSize b i) →
        (blockLevels p bs mips.toNat 0 width height).bind (fun t => some (some t)) = none) ∧
      (¬ (p.overflowChecks = true ∧ ∃ i, i < mips.toNat ∧ 2 ^ 32 ≤ levelSize b i) → ∃ l,
        (blockLevels p bs mips.toNat 0 width height).bind (fun t => some (some t)) = some l ∧
        (l.getD 0).toNat = min (total mips.toNat fun i => levelSize b i % 2 ^ 32) (2 ^ 32 - 1))) := by
    intro bs hbs hbb
    obtain ⟨h1, h2⟩ := blockLevels_eq p bs hbs mips.toNat 0 width height (levelSize b) (by
      intro i; unfold levelSize; rw [hbb, hh, hw])
    refine ⟨fun hc => by rw [h1 hc]; rfl, fun hc => ?_⟩
    obtain ⟨r, h3, h4⟩ := h2 hc
    refine ⟨some r, by rw [h3]; rfl, ?_⟩
    rw [Option.getD_some, h4, show (0 : U32).toNat = 0 from rfl, Nat.zero_add]
  have pixels : ∀ bpp : U32, blockBytes (classify b) = none → pixelBytes b = bpp.toNat →
      (((p.overflowChecks = true ∧ ∃ i, i < mips.toNat ∧ 2 ^ 32 ≤ levelSize b i) →
        dataLengthPixels p width height mips bpp = none) ∧
      (¬ (p.overflowChecks = true ∧ ∃ i, i < mips.toNat ∧ 2 ^ 32 ≤ levelSize b i) → ∃ l,
        dataLengthPixels p width height mips bpp = some l ∧
        (l.getD 0).toNat = min (total mips.toNat fun i => levelSize b i % 2 ^ 32) (2 ^ 32 - 1))) := by
    intro bpp hbb hpb
    have hl : ∀ i, levelSize b i = dim width.toNat i * dim height.toNat i * bpp.toNat := by
      intro i; unfold levelSize; rw [hbb, hh, hw, hpb]
    unfold dataLengthPixels
    by_cases h0 : bpp = 0
    · have hz : ∀ i, levelSize b i = 0 := by intro i; rw [hl, h0]; rfl
      rw [if_pos h0]
      refine ⟨fun ⟨_, i, _, hi⟩ => by rw [hz] at hi; omega, fun _ => ⟨none, rfl, ?_⟩⟩
      simp only [hz, total_const_zero]
      rfl
    · rw [if_neg h0]
      have hpos : 0 < bpp.toNat := Nat.pos_of_ne_zero fun h3 => h0 (BitVec.eq_of_toNat_eq (by rw [h3]; rfl))
      obtain ⟨h1, h2⟩ := pixelLevels_eq p bpp hpos mips.toNat 0 width height (levelSize b) hl
      refine ⟨fun hc => by rw [h1 hc]; rfl, fun hc => ?_⟩
      obtain ⟨r, h3, h4⟩ := h2 hc
      refine ⟨some r, by rw [h3]; rfl, ?_⟩
      rw [Option.getD_some, h4, show (0 : U32).toNat = 0 from rfl, Nat.zero_add]
  cases hc : classify b with
  | notADds => exact absurd hc (classify_ne b)
  | bc1 => exact blocks 8#32 (by decide) (by rw [hc]; rfl)
  | bc2 => exact blocks 16#32 (by decide) (by rw [hc]; rfl)
  | bc3 => exact blocks 16#32 (by decide) (by rw [hc]; rfl)
  | bc4 => exact blocks 8#32 (by decide) (by rw [hc]; rfl)
  | bc5 => exact blocks 16#32 (by decide) (by rw [hc]; rfl)
  | bc6h => exact blocks 16#32 (by decide) (by rw [hc]; rfl)
  | bc7 => exact blocks 16#32 (by decide) (by rw [hc]; rfl)
  | rgba8888 => exact pixels 4#32 (by rw [hc]; rfl) (by unfold pixelBytes; rw [hc]; rfl)
  | bgra8888 => exact pixels 4#32 (by rw [hc]; rfl) (by unfold pixelBytes; rw [hc]; rfl)
  | bgr888 => exact pixels 3#32 (by rw [hc]; rfl) (by unfold pixelBytes; rw [hc]; rfl)
  | unknown =>
    have hpb : pixelBytes b = if (PixelFlag b 6 ∨ PixelFlag b 17 ∨ PixelFlag b 9 ∨ PixelFlag b 1) ∧ num b 0x58 % 8 = 0
        then num b 0x58 / 8 else 0 := by unfold pixelBytes; rw [hc]
    have hz : pixelBytes b = 0 →
      (((p.overflowChecks = true ∧ ∃ i, i < mips.toNat ∧ 2 ^ 32 ≤ levelSize b i) →
        (some none : Option (Option U32)) = none) ∧
      (¬ (p.overflowChecks = true ∧ ∃ i, i < mips.toNat ∧ 2 ^ 32 ≤ levelSize b i) → ∃ l,
        (some none : Option (Option U32)) = some l ∧
        (l.getD 0).toNat = min (total mips.toNat fun i => levelSize b i % 2 ^ 32) (2 ^ 32 - 1))) := by
      intro h0
      have := pixels 0 (by rw [hc]; rfl) (by rw [h0]; rfl)
      exact this
    dsimp only
    unfold dataLengthUncompressed
    rw [ld32_some (b := b) (off := 0x50) (by omega), ld32_some (b := b) (off := 0x58) (by omega)]
    simp only [Option.bind_eq_bind, Option.bind_some]
    have hfl : of32 .little (slice b 0x50 4) &&& (0x40#32 ||| 0x20000#32 ||| 0x200#32 ||| 0x2#32) = 0 ↔
        ¬ (PixelFlag b 6 ∨ PixelFlag b 17 ∨ PixelFlag b 9 ∨ PixelFlag b 1) := by
      rw [← flag50_iff h 6 (by omega), ← flag50_iff h 17 (by omega), ← flag50_iff h 9 (by omega),
        ← flag50_iff h 1 (by omega), BitVec.and_or_distrib_left, BitVec.and_or_distrib_left,
        BitVec.and_or_distrib_left]
      simp only [show BitVec.ofNat 32 (2 ^ 6) = 0x40#32 from rfl, show BitVec.ofNat 32 (2 ^ 17) = 0x20000#32 from rfl,
        show BitVec.ofNat 32 (2 ^ 9) = 0x200#32 from rfl, show BitVec.ofNat 32 (2 ^ 1) = 0x2#32 from rfl]
      generalize of32 .little (slice b 0x50 4) = x
      have or0 : ∀ u v : U32, u ||| v = 0 ↔ u = 0 ∧ v = 0 := by
        intro u v
        constructor
        · intro he
          constructor
          · apply BitVec.eq_of_getLsbD_eq
            intro i hi
            have := congrArg (·.getLsbD i) he
            simp only [BitVec.getLsbD_or] at this
            simp at this ⊢
            exact this.1
          · apply BitVec.eq_of_getLsbD_eq
            intro i hi
            have := congrArg (·.getLsbD i) he
            simp only [BitVec.getLsbD_or] at this
            simp at this ⊢
            exact this.2
        · rintro ⟨rfl, rfl⟩; rfl
      rw [or0, or0, or0]
      simp only [not_or, Decidable.not_not, and_assoc, ne_eq]
    have hmod : of32 .little (slice b 0x58 4) % 8#32 ≠ 0 ↔ num b 0x58 % 8 ≠ 0 := by
      rw [← num_eq (b := b) (off := 0x58) (by omega)]
      have : (of32 .little (slice b 0x58 4) % 8#32).toNat = (of32 .little (slice b 0x58 4)).toNat % 8 := by
        rw [BitVec.toNat_umod]; rfl
      rw [← this]
      exact not_congr ⟨fun h => by rw [h]; rfl, fun h => BitVec.eq_of_toNat_eq (by rw [h]; rfl)⟩
    have hdiv : (of32 .little (slice b 0x58 4) / 8#32).toNat = num b 0x58 / 8 := by
      rw [BitVec.toNat_udiv, num_eq (by omega)]; rfl
    simp only [hfl, hmod]
    by_cases hA : PixelFlag b 6 ∨ PixelFlag b 17 ∨ PixelFlag b 9 ∨ PixelFlag b 1
    · rw [if_neg (fun h => h hA)]
      by_cases hB : num b 0x58 % 8 = 0
      · rw [if_neg (by simpa using hB)]
        exact pixels _ (by rw [hc]; rfl) (by rw [hpb, if_pos ⟨hA, hB⟩, hdiv])
      · rw [if_pos hB]
        exact hz (by rw [hpb, if_neg (fun h => hB h.2)])
    · rw [if_pos hA]
      exact hz (by rw [hpb, if_neg (fun h => hA h.1)])

/-! ## C33 -/

theorem magic_iff {b : Buf} (h : 128 ≤ b.length) : of32 .little (slice b 0 4) = 0x20534444#32 ↔ slice b 0 4 = ascii "DDS " :=
  code_iff (by omega) "DDS " _ (by decide)

theorem headerSize_cases (b : Buf) : headerSize b = 128 ∨ headerSize b = 148 := by
  unfold headerSize
  split <;> simp

/-- What the parser reports for a DDS file whose size computation does not overflow. -/
def reported (b : Buf) : DdsInfo :=
  ⟨classify b, BitVec.ofNat 8 (headerSize b),
    BitVec.ofNat 32 (min (total (mipCount b) fun i => levelSize b i % 2 ^ 32) (2 ^ 32 - 1))⟩

theorem finish_eq (p : Platform) {b : Buf} (h : 128 ≤ b.length) :
    finish p b (classify b) (headerSize b) =
      if p.overflowChecks = true ∧ LevelTooLarge b then none else some (some (reported b)) := by
  obtain ⟨h1, h2⟩ := dataLength_eq p h
  unfold finish
  by_cases hc : p.overflowChecks = true ∧ LevelTooLarge b
  · rw [if_pos hc, h1 hc]
    rfl
  · obtain ⟨l, h3, h4⟩ := h2 hc
    rw [h3]
    rw [if_neg hc, Option.bind_eq_bind, Option.bind_some]
    unfold reported
    rw [← h4, BitVec.ofNat_toNat, BitVec.setWidth_eq]
    rfl

theorem parseIgnoreMagic_spec (p : Platform) (b : Buf) :
    parseIgnoreMagic p b =
      if 128 ≤ b.length ∧ (IsDx10 b → 148 ≤ b.length) then
        if p.overflowChecks = true ∧ LevelTooLarge b then none else some (some (reported b))
      else some none := by
  by_cases h : 128 ≤ b.length
  · rw [parse_eq p h, finish_eq p h]
    simp [h]
  · rw [if_neg (fun h2 => h h2.1)]
    unfold parseIgnoreMagic
    rw [if_pos (by omega)]

theorem parseDds_spec (p : Platform) (b : Buf) :
    parseDds p b =
      if IsDds b then if p.overflowChecks = true ∧ LevelTooLarge b then none else some (some (reported b))
      else some none := by
  rw [parseDds_eq, parseIgnoreMagic_spec]
  unfold IsDds
  by_cases h : 128 ≤ b.length
  · simp only [magic_iff h, h, true_and]
    by_cases h2 : slice b 0 4 = ascii "DDS " <;> simp [h2]
  · simp [h]

/-- C33.  Every input that is not a DDS file is refused.  A DDS file is never refused: in a build without overflow checks it
is parsed, with them it is parsed or the call panics; what is reported has the documented format and offset.  The parser
used for transformed files does the same without looking at the magic. -/
theorem C33_parse (p : Platform) (b : Buf) :
    (¬ IsDds b → parseDds p b = some none) ∧
    (IsDds b →
      parseDds p b ≠ some none ∧
      (p.overflowChecks = false → ∃ info, parseDds p b = some (some info)) ∧
      ∀ info, parseDds p b = some (some info) →
        info.format = classify b ∧ info.dataOffset.toNat = headerSize b) ∧
    (IsDds b → parseIgnoreMagic p b = parseDds p b) ∧
    (b.length < 128 ∨ IsDx10 b ∧ b.length < 148 → parseIgnoreMagic p b = some none) ∧
    (∀ info, parseIgnoreMagic p b = some (some info) →
      headerSize b ≤ b.length ∧ info.format = classify b ∧ info.dataOffset.toNat = headerSize b) := by
  have ho : (reported b).dataOffset.toNat = headerSize b := by
    unfold reported
    rcases headerSize_cases b with h | h <;> rw [h] <;> rfl
  refine ⟨fun h => by rw [parseDds_spec, if_neg h], fun h => ⟨?_, fun hc => ?_, fun info hi => ?_⟩, fun h => ?_, fun h => ?_,
    fun info hi => ?_⟩
  · rw [parseDds_spec, if_pos h]
    split <;> simp
  · exact ⟨reported b, by rw [parseDds_spec, if_pos h, if_neg (by simp [hc])]⟩
  · rw [parseDds_spec, if_pos h] at hi
    split at hi
    · simp at hi
    · simp only [Option.some.injEq] at hi
      rw [← hi]
      exact ⟨rfl, ho⟩
  · rw [parseDds_spec, if_pos h, parseIgnoreMagic_spec, if_pos ⟨h.2.1, h.2.2⟩]
  · rw [parseIgnoreMagic_spec, if_neg]
    rintro ⟨h1, h2⟩
    rcases h with h | ⟨h3, h4⟩
    · omega
    · have := h2 h3; omega
  · rw [parseIgnoreMagic_spec] at hi
    split at hi
    · next hl =>
      split at hi
      · simp at hi
      · simp only [Option.some.injEq] at hi
        rw [← hi]
        refine ⟨?_, rfl, ho⟩
        unfold headerSize
        split
        · next h => exact hl.2 h
        · exact hl.1
    · simp at hi

/-- C33, exported functions: a null pointer or an empty input is not a DDS file; otherwise `is_dds` looks at length and
magic, and `parse_dds` reports what the parser reports. -/
theorem C33_exports (p : Platform) (b : Buf) :
    isDdsC none = some false ∧ parseDdsC p none = some ⟨.notADds, 0, 0⟩ ∧
    isDdsC (some b) = some (decide (128 ≤ b.length ∧ slice b 0 4 = ascii "DDS ")) ∧
    (¬ IsDds b → parseDdsC p (some b) = some ⟨.notADds, 0, 0⟩) ∧
    (IsDds b → parseDdsC p (some b) = (parseDds p b).bind id ∧
      ∀ info, parseDdsC p (some b) = some info → info.format = classify b ∧ info.format ≠ .notADds) := by
  have hdds : IsDds b → parseDdsC p (some b) = (parseDds p b).bind id := by
    intro h
    have hl : b.length ≠ 0 := by have := h.2.1; omega
    unfold parseDdsC
    dsimp only
    rw [if_neg hl, parseDds_spec, if_pos h]
    split <;> rfl
  refine ⟨rfl, rfl, ?_, fun h => ?_, fun h => ⟨hdds h, fun info hi => ?_⟩⟩
  · unfold isDdsC
    dsimp only
    by_cases h0 : b.length = 0
    · simp [h0]
    · rw [if_neg h0, likely_eq]
      by_cases h : 128 ≤ b.length
      · simp [h, magic_iff h]
      · simp [h]
  · unfold parseDdsC
    dsimp only
    split
    · rfl
    · rw [parseDds_spec, if_neg h]
      rfl
  · rw [hdds h, parseDds_spec, if_pos h] at hi
    split at hi
    · simp at hi
    · simp only [Option.bind_some, id, Option.some.injEq] at hi
      rw [← hi]
      exact ⟨rfl, classify_ne b⟩

/-- C33, detection: a file is accepted for transformation if it is a DDS file and its extension, if known, is `dds`. -/
theorem C33_detection (p : Platform) (b : Buf) (ext : Option String) :
    (ext ≠ none → ext ≠ some "dds" → canHandle p b ext = some false) ∧
    (ext = none ∨ ext = some "dds" →
      (¬ IsDds b → canHandle p b ext = some false) ∧
      (IsDds b → canHandle p b ext ≠ some false ∧ (p.overflowChecks = false → canHandle p b ext = some true))) := by
  refine ⟨fun h1 h2 => ?_, fun h => ?_⟩
  · unfold canHandle
    cases ext with
    | none => exact absurd rfl h1
    | some e =>
      dsimp only
      rw [if_pos (fun h => h2 (by rw [h]))]
  · have e : canHandle p b ext = (parseDds p b).map Option.isSome := by
      unfold canHandle
      rcases h with h | h <;> rw [h]
      simp
    rw [e, parseDds_spec]
    refine ⟨fun hn => by rw [if_neg hn]; rfl, fun hd => ?_⟩
    rw [if_pos hd]
    refine ⟨?_, fun hc => by rw [if_neg (by simp [hc])]; rfl⟩
    split <;> simp

/-! ## C32 -/

/-- C32.  What is reported as texture size: if a level needs 2^32 bytes or more, a build with overflow checks panics;
otherwise each level is reduced modulo 2^32 and the sum is capped at 2^32 - 1. -/
theorem C32_size_reported (p : Platform) (b : Buf) (h : IsDds b) :
    (p.overflowChecks = true → (∃ i, i < mipCount b ∧ 2 ^ 32 ≤ levelSize b i) → parseDds p b = none) ∧
    (p.overflowChecks = false ∨ (∀ i, i < mipCount b → levelSize b i < 2 ^ 32) →
      ∃ info, parseDds p b = some (some info) ∧
        info.dataLength.toNat = min (total (mipCount b) fun i => levelSize b i % 2 ^ 32) (2 ^ 32 - 1)) := by
  rw [parseDds_spec, if_pos h]
  refine ⟨fun hc hl => if_pos ⟨hc, hl⟩, fun hc => ⟨reported b, if_neg ?_, ?_⟩⟩
  · rintro ⟨h1, i, hi, h2⟩
    rcases hc with hc | hc
    · simp [h1] at hc
    · have := hc i hi; omega
  · unfold reported
    dsimp only
    rw [BitVec.toNat_ofNat, Nat.mod_eq_of_lt (by omega)]

/-- C32 for all textures of less than 4 GiB.  The full claim has no such bound and is refuted by
`C32_size_wraps`. -/
theorem C32_size_partial (p : Platform) (b : Buf) (h : IsDds b) (hs : textureSize b < 2 ^ 32) :
    ∃ info, parseDds p b = some (some info) ∧ info.dataLength.toNat = textureSize b := by
  have hl : ∀ i, i < mipCount b → levelSize b i < 2 ^ 32 := fun i hi => Nat.lt_of_le_of_lt (le_total hi) hs
  obtain ⟨info, h1, h2⟩ := (C32_size_reported p b h).2 (.inr hl)
  refine ⟨info, h1, ?_⟩
  rw [h2, total_congr (g := levelSize b) fun i hi => Nat.mod_eq_of_lt (hl i hi)]
  unfold textureSize at hs ⊢
  omega

/-- C32, exactly: the size is reported correctly for the textures of less than 4 GiB and for no others. -/
theorem C32_exact (p : Platform) (b : Buf) (h : IsDds b) :
    (∃ info, parseDds p b = some (some info) ∧ info.dataLength.toNat = textureSize b) ↔ textureSize b < 2 ^ 32 := by
  refine ⟨fun ⟨info, _, h2⟩ => ?_, C32_size_partial p b h⟩
  rw [← h2]
  exact info.dataLength.isLt

/-! ## Concrete files -/

/-- A DDS header without DX10 part: flags, height, width, number of mip levels, pixel format flags, four character code and
the five numbers after it. -/
def ddsHeader (flags height width mips pf : U32) (code : String) (layout : List U32) : Buf :=
  ascii "DDS " ++ to32 .little 124#32 ++ to32 .little flags ++ to32 .little height ++ to32 .little width ++
    List.replicate 8 0 ++ to32 .little mips ++ List.replicate 44 0 ++ to32 .little 32#32 ++ to32 .little pf ++
    ascii code ++ layout.flatMap (to32 .little) ++ List.replicate (40 - 4 * layout.length) 0

/-- 131072 x 131072, BC1. -/
def hugeFile : Buf := ddsHeader 0x1007#32 131072#32 131072#32 1#32 4#32 "DXT1" []

/-- C32 is false without a bound: the texture of this file needs 2^33 bytes; builds without overflow checks report 0 and
builds with them panic. -/
theorem C32_size_wraps :
    IsDds hugeFile ∧ classify hugeFile = .bc1 ∧ textureSize hugeFile = 2 ^ 33 ∧
    (∀ p : Platform, p.overflowChecks = false →
      ∃ info, parseDds p hugeFile = some (some info) ∧ info.dataLength.toNat = 0) ∧
    (∀ p : Platform, p.overflowChecks = true → parseDds p hugeFile = none) := by
  have h1 : IsDds hugeFile := by decide +kernel
  have h2 : mipCount hugeFile = 1 := by decide +kernel
  have h3 : levelSize hugeFile 0 = 2 ^ 33 := by decide +kernel
  have ht : ∀ f, total 1 f = f 0 := fun f => by rw [total_succ, total_zero, Nat.add_zero]
  refine ⟨h1, by decide +kernel, by unfold textureSize; rw [h2, ht, h3], fun p hp => ?_, fun p hp => ?_⟩
  · obtain ⟨info, h4, h5⟩ := (C32_size_reported p _ h1).2 (.inl hp)
    refine ⟨info, h4, ?_⟩
    rw [h5, h2, ht, h3]
    decide
  · exact (C32_size_reported p _ h1).1 hp ⟨0, by rw [h2]; omega, by rw [h3]; omega⟩

/-- A 10 x 6 BC2 texture with three mip levels: 3*2 + 2*1 + 1 blocks of 16 bytes. -/
example : let b := ddsHeader 0x21007#32 6#32 10#32 3#32 4#32 "DXT3" []
    IsDds b ∧ classify b = .bc2 ∧ headerSize b = 128 ∧ textureSize b = (3 * 2 + 2 * 1 + 1) * 16 := by
  refine ⟨by decide +kernel, by decide +kernel, by decide +kernel, by decide +kernel⟩

/-- A 5 x 3 texture with 24 bits per pixel and two levels; an 8 bit luminance texture has a size but no known format. -/
example :
    (let b := ddsHeader 0x21007#32 3#32 5#32 2#32 0x40#32 "\x00\x00\x00\x00" [24#32, 0xFF0000#32, 0xFF00#32, 0xFF#32, 0#32]
     IsDds b ∧ classify b = .bgr888 ∧ textureSize b = (5 * 3 + 2 * 1) * 3) ∧
    (let b := ddsHeader 0x1007#32 3#32 5#32 0#32 0x20000#32 "\x00\x00\x00\x00" [8#32, 0xFF#32, 0#32, 0#32, 0#32]
     IsDds b ∧ classify b = .unknown ∧ textureSize b = 15) := by
  refine ⟨⟨by decide +kernel, by decide +kernel, by decide +kernel⟩,
    ⟨by decide +kernel, by decide +kernel, by decide +kernel⟩⟩

/-- A DX10 file with format number 98 (BC7). -/
example : let b := ddsHeader 0x1007#32 4#32 4#32 1#32 4#32 "DX10" [] ++ to32 .little 98#32 ++ List.replicate 16 0
    IsDds b ∧ classify b = .bc7 ∧ headerSize b = 148 ∧ textureSize b = 16 := by
  refine ⟨by decide +kernel, by decide +kernel, by decide +kernel, by decide +kernel⟩

end Dlt.Props
