import Verif.Lemmas.NormSplit
import Verif.Props.Decode
/-!
# Block normalization: C43, C44, C45, C46, C57

Pixels are those of the format specification, `Spec.bc1Pixel`, `Spec.bc2Pixel`, `Spec.bc3Pixel`.
`src = some inp` is a call with separate regions, `src = none` a call in place; `src.getD out` are the
bytes that the input pointer points to at the time of the call.
-/

namespace Dlt.Props
open Decode Spec Norm

/-! ## From the decoder to the specification -/

theorem rgba_inj {x y : Color8888} (h : rgba x = rgba y) : x = y := by
  cases x; cases y
  simp only [rgba, Prod.mk.injEq] at h
  simp only [Color8888.mk.injEq]
  exact ⟨BitVec.eq_of_toNat_eq h.1, BitVec.eq_of_toNat_eq h.2.1, BitVec.eq_of_toNat_eq h.2.2.1,
    BitVec.eq_of_toNat_eq h.2.2.2⟩

theorem map_range_inj {α : Type} {f g : Nat → α} {n : Nat} (h : (List.range n).map f = (List.range n).map g)
    {k : Nat} (hk : k < n) : f k = g k := by
  have := congrArg (·[k]?) h
  simpa [List.getElem?_map, List.getElem?_range hk] using this

theorem pix1_spec {b : Buf} (hb : b.length = 8) {k : Nat} (hk : k < 16) :
    rgba (pix1 b k) = bc1Pixel b k := by
  obtain ⟨px, h1, h2⟩ := C56_bc1_decode b 0 (by omega)
  rw [bc1_at (by omega), slice_all hb] at h1
  obtain rfl := Option.some.inj h1
  rw [List.map_map, slice_all hb] at h2
  exact map_range_inj h2 hk

theorem pix2_spec {b : Buf} (hb : b.length = 16) {k : Nat} (hk : k < 16) :
    rgba (pix2 b k) = bc2Pixel b k := by
  obtain ⟨px, h1, h2⟩ := C56_bc2_decode b 0 (by omega)
  rw [bc2_at (by omega), slice_all hb] at h1
  obtain rfl := Option.some.inj h1
  rw [List.map_map, slice_all hb] at h2
  exact map_range_inj h2 hk

theorem pix3_spec {b : Buf} (hb : b.length = 16) {k : Nat} (hk : k < 16) :
    rgba (pix3 b k) = bc3Pixel b k := by
  obtain ⟨px, h1, h2⟩ := C56_bc3_decode b 0 (by omega)
  rw [bc3_at (by omega), slice_all hb] at h1
  obtain rfl := Option.some.inj h1
  rw [List.map_map, slice_all hb] at h2
  exact map_range_inj h2 hk

theorem block_len {B n i : Nat} {data : Buf} (h : n * B ≤ data.length) (hi : i < n) :
    (block B data i).length = B := by
  have : (i + 1) * B ≤ n * B := Nat.mul_le_mul_right _ hi
  rw [Nat.succ_mul] at this
  exact slice_length_of_le (by omega)

/-- Length and tail of a result `mapBlocks … ++ out.drop …`. -/
theorem frame {B n : Nat} {F : Buf → Buf} {data out : Buf}
    (hF : ∀ b : Buf, b.length = B → (F b).length = B) (hd : n * B ≤ data.length) (ho : n * B ≤ out.length) :
    (mapBlocks B F data n ++ out.drop (n * B)).length = out.length ∧
    (mapBlocks B F data n ++ out.drop (n * B)).drop (n * B) = out.drop (n * B) := by
  have hl := mapBlocks_length hF hd
  refine ⟨?_, List.drop_left' hl⟩
  rw [List.length_append, hl, List.length_drop]; omega

/-! ## C43: BC1 -/

/-- **C43.** `normalize_blocks` for BC1, any mode, any blocks, in place or not: every pixel of every
block stays, and no byte behind the blocks is touched. -/
theorem C43_bc1_pixels (src : Option Buf) (out : Buf) (n : Nat) (mode : Mode)
    (hs : n * 8 ≤ (src.getD out).length) (ho : n * 8 ≤ out.length) :
    ∃ out', Norm.Bc1.normalizeBlocks src out (n * 8) mode = some out' ∧ out'.length = out.length ∧
      out'.drop (n * 8) = out.drop (n * 8) ∧
      ∀ i, i < n → ∀ k, k < 16 →
        bc1Pixel (block 8 out' i) k = bc1Pixel (block 8 (src.getD out) i) k := by
  refine ⟨_, Norm.Bc1.normalizeBlocks_eq src out n mode hs ho, (frame (Norm.Bc1.norm_length mode) hs ho).1,
    (frame (Norm.Bc1.norm_length mode) hs ho).2, fun i hi k hk => ?_⟩
  have hb := block_len hs hi
  rw [block_mapBlocks (Norm.Bc1.norm_length mode) hs hi, ← pix1_spec (Norm.Bc1.norm_length mode _ hb) hk,
    ← pix1_spec hb hk, Norm.Bc1.norm_pix mode _ k hk]

/-- All sixteen pixels are transparent black. -/
def Transparent (b : Buf) : Prop := ∀ k, k < 16 → bc1Pixel b k = (0, 0, 0, 0)

/-- All sixteen pixels are the opaque colour `c`. -/
def SolidColour (b : Buf) (c : Nat) : Prop := ∀ k, k < 16 → bc1Pixel b k = withAlpha (rgb565 c) 255

/-- The documented normal forms of BC1 blocks (normalize.rs:1-30 and the mode docs). -/
structure Bc1Normal (mode : Mode) (b b' : Buf) : Prop where
  /-- mode `None` leaves everything alone -/
  none : mode = .none → b' = b
  /-- a fully transparent block is all ones -/
  transparent : mode ≠ .none → Transparent b → b' = List.replicate 8 0xFF
  /-- a block of one RGB565 colour: `color0` is the colour, `color1` is zero or the colour, indices
  are zero -/
  solid : mode ≠ .none → ∀ c, c < 65536 → SolidColour b c →
    b'.length = 8 ∧ le (slice b' 0 2) = c ∧ le (slice b' 2 2) = (if mode = .replicate then c else 0) ∧
      le (slice b' 4 4) = 0
  /-- every other block is left alone -/
  other : ¬ Transparent b → (¬ ∃ c, c < 65536 ∧ SolidColour b c) → b' = b

theorem le_lohi (c : U16) : le [lo c, hi c] = c.toNat := by
  rw [← le16 (by rfl), of16_lohi]

theorem solid_iff {b : Buf} (hb : b.length = 8) (c : U16) :
    SolidColour b c.toNat ↔ ∀ k, k < 16 → pix1 b k = Color565.to8888Lossy c := by
  have e := (C47_expand_value c 0).1
  constructor
  · intro h k hk
    exact rgba_inj (by rw [pix1_spec hb hk, e]; exact h k hk)
  · intro h k hk
    rw [← pix1_spec hb hk, h k hk, e]

theorem transparent_iff {b : Buf} (hb : b.length = 8) :
    Transparent b ↔ ∀ k, k < 16 → pix1 b k = ⟨0, 0, 0, 0⟩ := by
  constructor
  · intro h k hk
    exact rgba_inj (by rw [pix1_spec hb hk]; exact h k hk)
  · intro h k hk
    rw [← pix1_spec hb hk, h k hk]; rfl

theorem bc1Normal_norm (mode : Mode) {b : Buf} (hb : b.length = 8) : Bc1Normal mode b (Norm.Bc1.norm mode b) := by
  constructor
  · intro h; rw [Norm.Bc1.norm, if_pos h]
  · intro hm ht
    rw [Norm.Bc1.norm, if_neg hm, Norm.Bc1.kind_of_transparent ((transparent_iff hb).1 ht)]; rfl
  · intro hm c hc hsol
    have hcn : (BitVec.ofNat 16 c).toNat = c := by simp; omega
    have hk := Norm.Bc1.kind_of_solid ((solid_iff hb (BitVec.ofNat 16 c)).1 (by rw [hcn]; exact hsol))
    rw [Norm.Bc1.norm, if_neg hm, hk]
    have hl := le_lohi (BitVec.ofNat 16 c)
    rw [hcn] at hl
    cases mode with
    | none => exact absurd rfl hm
    | color0Only => exact ⟨rfl, hl, rfl, rfl⟩
    | replicate => exact ⟨rfl, hl, hl, rfl⟩
  · intro ht hs
    by_cases hm : mode = .none
    · rw [Norm.Bc1.norm, if_pos hm]
    · rw [Norm.Bc1.norm, if_neg hm]
      rcases h : Norm.Bc1.kind (pix1 b) with ⟨t, c⟩
      cases t
      · exact absurd ((transparent_iff hb).2 (Norm.Bc1.kind_transparent h)) ht
      · exact absurd ⟨c.toNat, c.isLt, (solid_iff hb c).2 (Norm.Bc1.kind_solid h)⟩ hs
      · rfl

/-- **C43.** The result is the documented normal form of every block. -/
theorem C43_bc1_normal_form (src : Option Buf) (out out' : Buf) (n : Nat) (mode : Mode)
    (hs : n * 8 ≤ (src.getD out).length) (ho : n * 8 ≤ out.length)
    (h : Norm.Bc1.normalizeBlocks src out (n * 8) mode = some out') (i : Nat) (hi : i < n) :
    Bc1Normal mode (block 8 (src.getD out) i) (block 8 out' i) := by
  rw [Norm.Bc1.normalizeBlocks_eq src out n mode hs ho] at h
  obtain rfl := Option.some.inj h
  rw [block_mapBlocks (Norm.Bc1.norm_length mode) hs hi]
  exact bc1Normal_norm mode (block_len hs hi)

/-- A block with `color0 = color1` and mixed indices 0 and 1 is solid; it is really rewritten. -/
example : Norm.Bc1.normalizeBlocks (some [0x34, 0x12, 0x34, 0x12, 0x44, 0x11, 0x05, 0x50, 0xAA]) (List.replicate 9 7) 8
    .color0Only = some [0x34, 0x12, 0, 0, 0, 0, 0, 0, 7] := by decide +kernel

/-- A transparent block, in place. -/
example : Norm.Bc1.normalizeBlocks none [1, 0, 2, 0, 0xFF, 0xFF, 0xFF, 0xFF] 8 .replicate =
    some (List.replicate 8 0xFF) := by decide +kernel

/-! ## C44: BC3, and BC2 -/

/-- **C44.** `normalize_blocks` for BC3, every pair of modes, in place or not. -/
theorem C44_bc3_pixels (src : Option Buf) (out : Buf) (n : Nat) (am : Norm.Bc3.AlphaMode) (cm : Mode)
    (hs : n * 16 ≤ (src.getD out).length) (ho : n * 16 ≤ out.length) :
    ∃ out', Norm.Bc3.normalizeBlocks src out (n * 16) am cm = some out' ∧ out'.length = out.length ∧
      out'.drop (n * 16) = out.drop (n * 16) ∧
      ∀ i, i < n → ∀ k, k < 16 →
        bc3Pixel (block 16 out' i) k = bc3Pixel (block 16 (src.getD out) i) k := by
  refine ⟨_, Norm.Bc3.normalizeBlocks_eq src out n am cm hs ho, (frame (Norm.Bc3.norm_length am cm) hs ho).1,
    (frame (Norm.Bc3.norm_length am cm) hs ho).2, fun i hi k hk => ?_⟩
  have hb := block_len hs hi
  rw [block_mapBlocks (Norm.Bc3.norm_length am cm) hs hi, ← pix3_spec (Norm.Bc3.norm_length am cm _ hb) hk,
    ← pix3_spec hb hk, Norm.Bc3.norm_pix am cm _ hb k hk]

/-- **C44.** `normalize_blocks` for BC2, every mode, in place or not. -/
theorem C44_bc2_pixels (src : Option Buf) (out : Buf) (n : Nat) (mode : Mode)
    (hs : n * 16 ≤ (src.getD out).length) (ho : n * 16 ≤ out.length) :
    ∃ out', Norm.Bc2.normalizeBlocks src out (n * 16) mode = some out' ∧ out'.length = out.length ∧
      out'.drop (n * 16) = out.drop (n * 16) ∧
      ∀ i, i < n → ∀ k, k < 16 →
        bc2Pixel (block 16 out' i) k = bc2Pixel (block 16 (src.getD out) i) k := by
  refine ⟨_, Norm.Bc2.normalizeBlocks_eq src out n mode hs ho, (frame (Norm.Bc2.norm_length mode) hs ho).1,
    (frame (Norm.Bc2.norm_length mode) hs ho).2, fun i hi k hk => ?_⟩
  have hb := block_len hs hi
  rw [block_mapBlocks (Norm.Bc2.norm_length mode) hs hi, ← pix2_spec (Norm.Bc2.norm_length mode _ hb) hk,
    ← pix2_spec hb hk, Norm.Bc2.norm_pix mode _ hb k hk]

/-- All sixteen pixels have the opaque RGB565 colour `c`, whatever their alpha. -/
def SolidRgb (b : Buf) (c : Nat) : Prop := ∀ k, k < 16 → opaqueColour b k = rgb565 c

/-- All sixteen pixels of a BC3 block have alpha `a`. -/
def UniformAlpha (b : Buf) (a : Nat) : Prop := ∀ k, k < 16 → (bc3Pixel b k).2.2.2 = a

/-- The documented normal forms of the colour half. -/
structure ColourNormal (mode : Mode) (b b' : Buf) : Prop where
  /-- one RGB565 colour -/
  solid : mode ≠ .none → ∀ c, c < 65536 → SolidRgb b c →
    le (slice b' 8 2) = c ∧ le (slice b' 10 2) = (if mode = .replicate then c else 0) ∧
      le (slice b' 12 4) = 0
  /-- anything else -/
  other : (mode = .none ∨ ¬ ∃ c, c < 65536 ∧ SolidRgb b c) → slice b' 8 8 = slice b 8 8

/-- The documented normal forms of the alpha half of BC3 (normalize.rs:117-136). -/
structure AlphaNormal (mode : Norm.Bc3.AlphaMode) (b b' : Buf) : Prop where
  /-- uniform alpha, except for 255 in the two special modes -/
  uniform : mode ≠ .none → ∀ a, UniformAlpha b a → (a = 255 → mode = .uniformAlphaZeroIndices) →
    le (slice b' 0 1) = a ∧ slice b' 1 7 = List.replicate 7 0
  /-- opaque, all ones -/
  fillAll : mode = .opaqueFillAll → UniformAlpha b 255 → slice b' 0 8 = List.replicate 8 0xFF
  /-- opaque, endpoints zero, indices all ones -/
  maxIndices : mode = .opaqueZeroAlphaMaxIndices → UniformAlpha b 255 →
    slice b' 0 8 = List.replicate 2 0 ++ List.replicate 6 0xFF
  /-- anything else -/
  other : (mode = .none ∨ ¬ ∃ a, UniformAlpha b a) → slice b' 0 8 = slice b 0 8

theorem withoutAlpha_rgb {x y : Color8888} {X Y : Rgb} {a a' : Nat} (hx : rgba x = withAlpha X a)
    (hy : rgba y = withAlpha Y a') : x.withoutAlpha = y.withoutAlpha ↔ X = Y := by
  simp only [rgba, withAlpha, Prod.mk.injEq] at hx hy
  obtain ⟨x1, x2, x3, -⟩ := hx
  obtain ⟨y1, y2, y3, -⟩ := hy
  obtain ⟨X1, X2, X3⟩ := X
  obtain ⟨Y1, Y2, Y3⟩ := Y
  simp only [Color8888.withoutAlpha, Color8888.mk.injEq, Prod.mk.injEq] at *
  subst x1 x2 x3 y1 y2 y3
  simp only [← BitVec.toNat_inj, and_true]

/-- Solid colour, said with the decoder. -/
theorem solidRgb_iff {b : Buf} (hb : b.length = 16) (c : U16) {f : Nat → Color8888}
    (hf : ∀ k, (f k).withoutAlpha = (col4 b k).withoutAlpha) :
    SolidRgb b c.toNat ↔ ∀ k, k < 16 → (f k).withoutAlpha = (Color565.to8888Lossy c).withoutAlpha := by
  have e := (C47_expand_value c 0).1
  have hc : ∀ k, rgba (col4 b k) = withAlpha (opaqueColour b k) 255 := by
    intro k
    have := opaque_value (b := b) (src := 0) (by omega) k
    rw [slice_all hb] at this
    exact this
  constructor
  · intro h k hk
    rw [hf, withoutAlpha_rgb (hc k) e]; exact h k hk
  · intro h k hk
    have := h k hk
    rw [hf, withoutAlpha_rgb (hc k) e] at this; exact this

theorem colourNormal_of {mode : Mode} {b a : Buf} (hb : b.length = 16) (ha : a.length = 8)
    {f : Nat → Color8888} (hf : ∀ k, (f k).withoutAlpha = (col4 b k).withoutAlpha) (t : Bool × U16)
    (ht : t.1 = (Norm.Bc2.kind f).1) (ht' : t.1 = true → t = Norm.Bc2.kind f) :
    ColourNormal mode b (a ++ Norm.Bc2.colour t mode (b.drop 8)) := by
  have hs : ∀ o m, slice (a ++ Norm.Bc2.colour t mode (b.drop 8)) (8 + o) m =
      slice (Norm.Bc2.colour t mode (b.drop 8)) o m := fun o m =>
    slice_append_right _ _ _ o _ (by omega)
  constructor
  · intro hm c hc hsol
    have hcn : (BitVec.ofNat 16 c).toNat = c := by simp; omega
    have hk := Norm.Bc2.kind_of_solid ((solidRgb_iff hb (BitVec.ofNat 16 c) hf).1 (by rw [hcn]; exact hsol))
    have ht1 : t = (true, BitVec.ofNat 16 c) := by
      rw [hk] at ht ht'; exact ht' ht
    have hl := le_lohi (BitVec.ofNat 16 c)
    rw [hcn] at hl
    rw [hs 0 2, hs 2 2, hs 4 4, ht1]
    cases mode with
    | none => exact absurd rfl hm
    | color0Only => exact ⟨hl, rfl, rfl⟩
    | replicate => exact ⟨hl, hl, rfl⟩
  · intro h
    rw [hs 0 8]
    have : Norm.Bc2.colour t mode (b.drop 8) = b.drop 8 := by
      rw [Norm.Bc2.colour, if_neg]
      rintro ⟨h1, h2⟩
      rcases h with h | h
      · exact h2 h
      · apply h
        have e : Norm.Bc2.kind f = (true, t.2) := by
          rw [← ht' h1]; exact Prod.ext h1 rfl
        exact ⟨t.2.toNat, t.2.isLt, (solidRgb_iff hb t.2 hf).2 (Norm.Bc2.kind_solid e)⟩
    rw [this]
    simp [slice]

/-- **C44.** BC2: the alpha half is untouched and the colour half gets its documented normal form. -/
theorem C44_bc2_normal_form (src : Option Buf) (out out' : Buf) (n : Nat) (mode : Mode)
    (hs : n * 16 ≤ (src.getD out).length) (ho : n * 16 ≤ out.length)
    (h : Norm.Bc2.normalizeBlocks src out (n * 16) mode = some out') (i : Nat) (hi : i < n) :
    ColourNormal mode (block 16 (src.getD out) i) (block 16 out' i) ∧
    slice (block 16 out' i) 0 8 = slice (block 16 (src.getD out) i) 0 8 := by
  rw [Norm.Bc2.normalizeBlocks_eq src out n mode hs ho] at h
  obtain rfl := Option.some.inj h
  have hb := block_len hs hi
  have h8 : ((block 16 (src.getD out) i).take 8).length = 8 := by simp [hb]
  rw [block_mapBlocks (Norm.Bc2.norm_length mode) hs hi, Norm.Bc2.norm, Norm.Bc2.write]
  refine ⟨colourNormal_of hb h8 (fun k => rfl) _ rfl (fun _ => rfl), ?_⟩
  rw [slice_append_left _ _ _ _ (by omega)]
  simp [slice, List.take_take]

theorem al3_spec {b : Buf} (hb : b.length = 16) {k : Nat} (hk : k < 16) :
    (al3 b k).toNat = (bc3Pixel b k).2.2.2 := by rw [← pix3_spec hb hk]; rfl

theorem alphaNormal_of {am : Norm.Bc3.AlphaMode} {b x : Buf} (hb : b.length = 16) :
    AlphaNormal am b (Norm.Bc3.alpha (Norm.Bc3.kind (pix3 b)) am (b.take 8) ++ x) := by
  have h8 : (b.take 8).length = 8 := by simp [hb]
  have hl := Norm.Bc3.alpha_length (Norm.Bc3.kind (pix3 b)) am _ h8
  have hs : ∀ o m, o + m ≤ 8 → slice (Norm.Bc3.alpha (Norm.Bc3.kind (pix3 b)) am (b.take 8) ++ x) o m =
      slice (Norm.Bc3.alpha (Norm.Bc3.kind (pix3 b)) am (b.take 8)) o m := fun o m h =>
    slice_append_left _ _ _ _ (by omega)
  -- a uniform block is recognised, with its alpha
  have hu : ∀ a, UniformAlpha b a → (Norm.Bc3.kind (pix3 b)).uniformAlpha = true ∧
      (Norm.Bc3.kind (pix3 b)).alpha.toNat = a := by
    intro a h
    refine ⟨decide_eq_true fun k hk => BitVec.eq_of_toNat_eq ?_, ?_⟩
    · show (al3 b k).toNat = (al3 b 0).toNat
      rw [al3_spec hb hk, al3_spec hb (by omega), h k hk, h 0 (by omega)]
    · show (al3 b 0).toNat = a
      rw [al3_spec hb (by omega), h 0 (by omega)]
  have h255 : UniformAlpha b 255 → (Norm.Bc3.kind (pix3 b)).alpha = 255 := fun h =>
    BitVec.eq_of_toNat_eq (hu 255 h).2
  constructor
  · intro hm a h hne
    obtain ⟨h1, h2⟩ := hu a h
    rw [hs 0 1 (by omega), hs 1 7 (by omega), Norm.Bc3.alpha, if_pos ⟨h1, hm⟩]
    have hb' : Norm.Bc3.alphaBytes am (Norm.Bc3.kind (pix3 b)).alpha =
        [(Norm.Bc3.kind (pix3 b)).alpha, 0, 0, 0, 0, 0, 0, 0] := by
      have : (Norm.Bc3.kind (pix3 b)).alpha = 255 → am = .uniformAlphaZeroIndices := fun e =>
        hne (by rw [← h2, e]; rfl)
      cases am with
      | none => rfl
      | uniformAlphaZeroIndices => rfl
      | opaqueFillAll => rw [Norm.Bc3.alphaBytes, if_neg (fun e => nomatch this e)]
      | opaqueZeroAlphaMaxIndices => rw [Norm.Bc3.alphaBytes, if_neg (fun e => nomatch this e)]
    rw [hb']
    refine ⟨?_, rfl⟩
    show (Norm.Bc3.kind (pix3 b)).alpha.toNat + 256 * 0 = a
    omega
  · rintro rfl h
    rw [hs 0 8 (by omega), Norm.Bc3.alpha, if_pos ⟨(hu _ h).1, by decide⟩, h255 h]; rfl
  · rintro rfl h
    rw [hs 0 8 (by omega), Norm.Bc3.alpha, if_pos ⟨(hu _ h).1, by decide⟩, h255 h]; rfl
  · intro h
    rw [hs 0 8 (by omega), Norm.Bc3.alpha, if_neg]
    · simp [slice, List.take_take]
    · rintro ⟨h1, h2⟩
      rcases h with h | h
      · exact h2 h
      · apply h
        refine ⟨(al3 b 0).toNat, fun k hk => ?_⟩
        rw [← al3_spec hb hk]
        exact congrArg BitVec.toNat ((of_decide_eq_true h1 : Const fun k => (pix3 b k).a) k hk)

/-- **C44.** BC3: both halves get their documented normal forms. -/
theorem C44_bc3_normal_form (src : Option Buf) (out out' : Buf) (n : Nat) (am : Norm.Bc3.AlphaMode) (cm : Mode)
    (hs : n * 16 ≤ (src.getD out).length) (ho : n * 16 ≤ out.length)
    (h : Norm.Bc3.normalizeBlocks src out (n * 16) am cm = some out') (i : Nat) (hi : i < n) :
    AlphaNormal am (block 16 (src.getD out) i) (block 16 out' i) ∧
    ColourNormal cm (block 16 (src.getD out) i) (block 16 out' i) := by
  rw [Norm.Bc3.normalizeBlocks_eq src out n am cm hs ho] at h
  obtain rfl := Option.some.inj h
  have hb := block_len hs hi
  have h8 : ((block 16 (src.getD out) i).take 8).length = 8 := by simp [hb]
  rw [block_mapBlocks (Norm.Bc3.norm_length am cm) hs hi, Norm.Bc3.norm, Norm.Bc3.write]
  refine ⟨alphaNormal_of hb, colourNormal_of hb (Norm.Bc3.alpha_length _ _ _ h8) (fun k => rfl) _ ?_ ?_⟩
  · exact (Norm.Bc3.kind_bc2_fst _).symm
  · intro ht; exact ((Norm.Bc3.kind_bc2 _ ht).trans (by rw [show (Norm.Bc3.kind (pix3 (block 16 (src.getD out) i))).solid = true from ht])).symm

/-- An opaque BC3 block whose alpha comes from `alpha0 ≤ alpha1` and index 7, solid colour from
`color0 = color1`. -/
example : Norm.Bc3.normalizeBlocks none
    [3, 9, 0xFF, 0xFF, 0xFF, 0xFF, 0xFF, 0xFF, 0x34, 0x12, 0x34, 0x12, 0x44, 0x11, 0x05, 0x50] 16
    .opaqueFillAll .replicate = some
    [0xFF, 0xFF, 0xFF, 0xFF, 0xFF, 0xFF, 0xFF, 0xFF, 0x34, 0x12, 0x34, 0x12, 0, 0, 0, 0] := by decide +kernel

/-! ## C45 -/

/-- **C45.** BC2: `normalize_blocks_all_modes` writes into the buffer of each mode what
`normalize_blocks` with that mode writes, also if the input is one of the output buffers. -/
theorem C45_bc2_all_modes (inp : Input) (outs : List Buf) (data : Buf) (n : Nat) (hN : outs.length = 3)
    (hr : inp.region outs = some data) (hd : n * 16 ≤ data.length)
    (ho : ∀ (x : Nat) (dst : Buf), outs[x]? = some dst → n * 16 ≤ dst.length) :
    ∃ outs', Norm.Bc2.allModes inp outs (n * 16) = some outs' ∧ outs'.length = 3 ∧
      ∀ (x : Nat) (dst : Buf) (mode : Mode), outs[x]? = some dst → Mode.all[x]? = some mode →
        outs'[x]? = Norm.Bc2.normalizeBlocks (some data) dst (n * 16) mode := by
  obtain ⟨outs', h1, h2, h3⟩ := Norm.Bc2.allModes_eq inp outs data n hN hr hd ho
  refine ⟨outs', h1, by omega, fun x dst mode hx hm => ?_⟩
  rw [h3 x dst hx, Norm.Bc2.normalizeBlocks_eq (some data) dst n mode hd (ho x dst hx)]
  simp only [List.getD_eq_getElem?_getD, hm, Option.getD_some]

/-- **C45.** BC3: `normalize_blocks_all_modes` writes into the twelve buffers what `normalize_blocks`
with the pair of modes writes, if the input is none of them. -/
theorem C45_bc3_all_modes (data : Buf) (outs : List Buf) (n : Nat) (hN : outs.length = 12)
    (hd : n * 16 ≤ data.length)
    (ho : ∀ (x : Nat) (dst : Buf), outs[x]? = some dst → n * 16 ≤ dst.length) :
    ∃ outs', Norm.Bc3.allModes (.separate data) outs (n * 16) = some outs' ∧ outs'.length = 12 ∧
      ∀ (a c : Nat) (dst : Buf) (am : Norm.Bc3.AlphaMode) (cm : Mode), a < 4 → c < 3 →
        outs[a * 3 + c]? = some dst → Norm.Bc3.AlphaMode.all[a]? = some am → Mode.all[c]? = some cm →
        outs'[a * 3 + c]? = Norm.Bc3.normalizeBlocks (some data) dst (n * 16) am cm := by
  obtain ⟨outs', h1, h2, h3⟩ := Norm.Bc3.allModes_eq data outs n hN hd ho
  refine ⟨outs', h1, by omega, fun a c dst am cm ha hc hx ham hcm => ?_⟩
  rw [h3 _ dst hx, Norm.Bc3.normalizeBlocks_eq (some data) dst n am cm hd (ho _ dst hx)]
  have e1 : (a * 3 + c) / 3 = a := by omega
  have e2 : (a * 3 + c) % 3 = c := by omega
  simp only [Norm.Bc3.modes, e1, e2, List.getD_eq_getElem?_getD, ham, hcm, Option.getD_some]

/-- **C45, negation.** BC1: a transparent block differs in the buffer of mode `None`: the function
writes `0xFF` bytes, `normalize_blocks` with `None` copies the block. -/
theorem C45_bc1_none_differs :
    let b : Buf := [1, 0, 2, 0, 0xFF, 0xFF, 0xFF, 0xFF]
    let z : Buf := List.replicate 8 0
    (Norm.Bc1.allModes (.separate b) [z, z, z] 8).map (fun r => r.1[0]?) =
      some (some (List.replicate 8 0xFF)) ∧
    Norm.Bc1.normalizeBlocks (some b) z 8 .none = some b := by decide +kernel

/-- **C45, negation.** BC1 with the input in the buffer of mode `None`, which the documentation allows:
the pixels of a solid block change there.  (`write_normalized_solid_color_block` stores the colour
before it copies the block onto itself.) -/
theorem C45_bc1_in_place_corrupts :
    let b : Buf := [0x00, 0x18, 0, 0, 0xAA, 0xAA, 0xAA, 0xAA]
    let z : Buf := List.replicate 8 0
    let b' : Buf := [0x00, 0x10, 0, 0, 0xAA, 0xAA, 0xAA, 0xAA]
    (Norm.Bc1.allModes (.output 0) [b, z, z] 8).map (fun r => r.1[0]?) = some (some b') ∧
    bc1Pixel b 0 = (16, 0, 0, 255) ∧ bc1Pixel b' 0 = (10, 0, 0, 255) := by decide +kernel

/-- **C45, partial.** BC1: the buffers of the modes `Color0Only` and `ReplicateColor` hold what
`normalize_blocks` writes, wherever the input is.  The buffer of `None` does so if no block is
transparent and the input is not that buffer itself; in general (input elsewhere) it differs exactly in
the transparent blocks, which become `0xFF` bytes, with the same pixels.
Missing: mode `None` for transparent blocks and for the input in the buffer of `None`, where the
property is false (see the two negations). -/
theorem C45_bc1_all_modes_partial (inp : Input) (outs : List Buf) (data : Buf) (n : Nat) (hN : outs.length = 3)
    (hr : inp.region outs = some data) (hd : n * 8 ≤ data.length)
    (ho : ∀ (x : Nat) (dst : Buf), outs[x]? = some dst → n * 8 ≤ dst.length) :
    ∃ outs' any, Norm.Bc1.allModes inp outs (n * 8) = some (outs', any) ∧ outs'.length = 3 ∧
      (∀ (x : Nat) (dst : Buf) (mode : Mode), mode ≠ .none → outs[x]? = some dst → Mode.all[x]? = some mode →
        outs'[x]? = Norm.Bc1.normalizeBlocks (some data) dst (n * 8) mode) ∧
      ((∀ k, inp = .output k → k ≠ 0) → ∀ dst, outs[0]? = some dst →
        (∃ o, outs'[0]? = some o ∧ o.length = dst.length ∧ o.drop (n * 8) = dst.drop (n * 8) ∧ ∀ i, i < n →
          (Transparent (block 8 data i) → block 8 o i = List.replicate 8 0xFF) ∧
          (¬ Transparent (block 8 data i) → block 8 o i = block 8 data i)) ∧
        ((∀ i, i < n → ¬ Transparent (block 8 data i)) →
          outs'[0]? = Norm.Bc1.normalizeBlocks (some data) dst (n * 8) .none)) ∧
      (any = true ↔ ∃ i, i < n ∧ (Transparent (block 8 data i) ∨
        ∃ c, c < 65536 ∧ SolidColour (block 8 data i) c)) := by
  obtain ⟨outs', h1, h2, h3⟩ := Norm.Bc1.allModes_eq inp outs data n hN hr hd ho
  have hkt : ∀ i, i < n → ((Norm.Bc1.kind (pix1 (block 8 data i))).1 = .transparent ↔ Transparent (block 8 data i)) := by
    intro i hi
    rw [transparent_iff (block_len hd hi)]
    constructor
    · intro h
      exact Norm.Bc1.kind_transparent (c := (Norm.Bc1.kind (pix1 (block 8 data i))).2) (Prod.ext h rfl)
    · intro h
      rw [Norm.Bc1.kind_of_transparent h]
  refine ⟨outs', _, h1, by omega, fun x dst mode hm hx hmx => ?_, fun hi dst hx => ?_, ?_⟩
  · rw [h3 x dst hx, Norm.Bc1.normalizeBlocks_eq (some data) dst n mode hd (ho x dst hx)]
    have hx12 : x = 1 ∨ x = 2 := by
      match x with
      | 0 => exact absurd (Option.some.inj hmx).symm hm
      | 1 => exact Or.inl rfl
      | 2 => exact Or.inr rfl
      | x + 3 => exact absurd hmx (by simp [Mode.all])
    have e : Mode.all.getD x .none = mode := by simp only [List.getD_eq_getElem?_getD, hmx, Option.getD_some]
    have : mapBlocks 8 (Norm.Bc1.modesOut inp x) data n = mapBlocks 8 (Norm.Bc1.norm mode) data n := by
      apply mapBlocks_congr
      intro i _
      rw [Norm.Bc1.modesOut_mode inp hx12, e]
    rw [this]; rfl
  · have hl := Norm.Bc1.modesOut_length inp 0
    constructor
    · refine ⟨_, h3 0 dst hx, (frame hl hd (ho 0 dst hx)).1, (frame hl hd (ho 0 dst hx)).2, fun i hin => ?_⟩
      rw [block_mapBlocks hl hd hin, Norm.Bc1.modesOut_none hi]
      exact ⟨fun ht => if_pos ((hkt i hin).2 ht), fun ht => if_neg (fun h => ht ((hkt i hin).1 h))⟩
    · intro hnt
      rw [h3 0 dst hx, Norm.Bc1.normalizeBlocks_eq (some data) dst n .none hd (ho 0 dst hx)]
      have : mapBlocks 8 (Norm.Bc1.modesOut inp 0) data n = mapBlocks 8 (Norm.Bc1.norm .none) data n := by
        apply mapBlocks_congr
        intro i hin
        rw [Norm.Bc1.modesOut_none hi, if_neg (fun h => hnt i hin ((hkt i hin).1 h))]; rfl
      rw [this]; rfl
  · simp only [Norm.Bc1.someNorm, List.any_eq_true, List.mem_range, decide_eq_true_eq]
    constructor
    · rintro ⟨i, hi, h⟩
      refine ⟨i, hi, ?_⟩
      rcases hk : Norm.Bc1.kind (pix1 (block 8 data i)) with ⟨t, c⟩
      rw [hk] at h
      cases t
      · exact Or.inl ((hkt i hi).1 (by rw [hk]))
      · exact Or.inr ⟨c.toNat, c.isLt, (solid_iff (block_len hd hi) c).2 (Norm.Bc1.kind_solid hk)⟩
      · exact absurd rfl h
    · rintro ⟨i, hi, h | ⟨c, hc, h⟩⟩
      · exact ⟨i, hi, by rw [(hkt i hi).2 h]; decide⟩
      · have hcn : (BitVec.ofNat 16 c).toNat = c := by simp; omega
        refine ⟨i, hi, ?_⟩
        rw [Norm.Bc1.kind_of_solid ((solid_iff (block_len hd hi) (BitVec.ofNat 16 c)).1 (by rw [hcn]; exact h))]
        exact fun e => nomatch e

/-- The hypotheses hold for an input of its own, and for the input in the second buffer. -/
example : (Norm.Bc1.allModes (.output 1) [List.replicate 8 0, [0, 0x18, 0, 0, 0xAA, 0xAA, 0xAA, 0xAA],
    List.replicate 9 1] 8) = some ([[0, 0x18, 0, 0, 0xAA, 0xAA, 0xAA, 0xAA], [0, 0x10, 0, 0, 0, 0, 0, 0],
      [0, 0x10, 0, 0x10, 0, 0, 0, 0, 1]], true) := by decide +kernel

/-! ## C46 -/

theorem mapBlocks_twice {B n : Nat} {F : Buf → Buf} {data tail : Buf}
    (hF : ∀ b : Buf, b.length = B → (F b).length = B) (hi : ∀ b : Buf, b.length = B → F (F b) = F b)
    (hd : n * B ≤ data.length) :
    mapBlocks B F (mapBlocks B F data n ++ tail) n = mapBlocks B F data n :=
  mapBlocks_congr fun i h => by rw [block_mapBlocks hF hd h, hi _ (block_len hd h)]

/-- **C46.** BC1: a second normalization in place changes nothing. -/
theorem C46_bc1_idempotent (src : Option Buf) (out out' : Buf) (n : Nat) (mode : Mode)
    (hs : n * 8 ≤ (src.getD out).length) (ho : n * 8 ≤ out.length)
    (h : Norm.Bc1.normalizeBlocks src out (n * 8) mode = some out') :
    Norm.Bc1.normalizeBlocks none out' (n * 8) mode = some out' := by
  rw [Norm.Bc1.normalizeBlocks_eq src out n mode hs ho] at h
  obtain rfl := Option.some.inj h
  obtain ⟨f1, f2⟩ := frame (Norm.Bc1.norm_length mode) hs ho
  rw [Norm.Bc1.normalizeBlocks_eq none _ n mode (by simp only [Option.getD_none]; omega) (by omega), f2]
  simp only [Option.getD_none]
  rw [mapBlocks_twice (Norm.Bc1.norm_length mode) (fun b _ => Norm.Bc1.norm_idem mode b) hs]

/-- **C46.** BC2. -/
theorem C46_bc2_idempotent (src : Option Buf) (out out' : Buf) (n : Nat) (mode : Mode)
    (hs : n * 16 ≤ (src.getD out).length) (ho : n * 16 ≤ out.length)
    (h : Norm.Bc2.normalizeBlocks src out (n * 16) mode = some out') :
    Norm.Bc2.normalizeBlocks none out' (n * 16) mode = some out' := by
  rw [Norm.Bc2.normalizeBlocks_eq src out n mode hs ho] at h
  obtain rfl := Option.some.inj h
  obtain ⟨f1, f2⟩ := frame (Norm.Bc2.norm_length mode) hs ho
  rw [Norm.Bc2.normalizeBlocks_eq none _ n mode (by simp only [Option.getD_none]; omega) (by omega), f2]
  simp only [Option.getD_none]
  rw [mapBlocks_twice (Norm.Bc2.norm_length mode) (Norm.Bc2.norm_idem mode) hs]

/-- **C46.** BC3. -/
theorem C46_bc3_idempotent (src : Option Buf) (out out' : Buf) (n : Nat) (am : Norm.Bc3.AlphaMode) (cm : Mode)
    (hs : n * 16 ≤ (src.getD out).length) (ho : n * 16 ≤ out.length)
    (h : Norm.Bc3.normalizeBlocks src out (n * 16) am cm = some out') :
    Norm.Bc3.normalizeBlocks none out' (n * 16) am cm = some out' := by
  rw [Norm.Bc3.normalizeBlocks_eq src out n am cm hs ho] at h
  obtain rfl := Option.some.inj h
  obtain ⟨f1, f2⟩ := frame (Norm.Bc3.norm_length am cm) hs ho
  rw [Norm.Bc3.normalizeBlocks_eq none _ n am cm (by simp only [Option.getD_none]; omega) (by omega), f2]
  simp only [Option.getD_none]
  rw [mapBlocks_twice (Norm.Bc3.norm_length am cm) (Norm.Bc3.norm_idem am cm) hs]

/-- Normalization is not the identity, so idempotence says something. -/
example : Norm.Bc1.normalizeBlocks none [0x34, 0x12, 0x34, 0x12, 0x44, 0x11, 0x05, 0x50] 8 .replicate =
    some [0x34, 0x12, 0x34, 0x12, 0, 0, 0, 0] := by decide +kernel

/-! ## C57: normalization of separated fields -/

theorem column_sect {B n : Nat} (hB : 0 < B) {data : Buf} (hd : data.length = n * B) (o w : Nat) :
    column B data (fun b => slice b o w) = sect n o w (block B data) := by
  rw [column, hd, Nat.mul_div_cancel _ hB]; rfl

theorem column_sect_map {B n : Nat} (hB : 0 < B) {F : Buf → Buf} {data : Buf}
    (hF : ∀ b : Buf, b.length = B → (F b).length = B) (hd : data.length = n * B) (o w : Nat) :
    column B (mapBlocks B F data n) (fun b => slice b o w) = sect n o w (fun i => F (block B data i)) := by
  rw [column_sect hB (mapBlocks_length hF (by omega))]
  apply flatMap_congr_range
  intro i hi
  dsimp only
  have := block_mapBlocks (tail := []) hF (show n * B ≤ data.length by omega) hi
  rw [List.append_nil] at this
  rw [this]

/-- **C57.** BC2: normalizing the separated colours and indices in place gives the separated fields of
the normalized blocks. -/
theorem C57_bc2_split (data data' : Buf) (n : Nat) (mode : Mode) (hd : data.length = n * 16)
    (h : Norm.Bc2.normalizeBlocks none data (n * 16) mode = some data') (ra rc rx : Buf) :
    Norm.Bc2.normalizeSplit mode (column 16 data (fun b => slice b 0 8) ++ ra) n
      (column 16 data (fun b => slice b 8 4) ++ rc) (column 16 data (fun b => slice b 12 4) ++ rx) =
    some (column 16 data' (fun b => slice b 8 4) ++ rc, column 16 data' (fun b => slice b 12 4) ++ rx) ∧
    column 16 data' (fun b => slice b 0 8) = column 16 data (fun b => slice b 0 8) := by
  rw [Norm.Bc2.normalizeBlocks_eq none data n mode (by simp only [Option.getD_none]; omega) (by omega)] at h
  have e0 : data.drop (n * 16) = [] := List.drop_eq_nil_of_le (by omega)
  rw [e0, List.append_nil] at h
  obtain rfl := Option.some.inj h
  have hl := Norm.Bc2.norm_length mode
  simp only [Option.getD_none]
  rw [column_sect (by omega) hd, column_sect (by omega) hd, column_sect (by omega) hd,
    column_sect_map (by omega) hl hd, column_sect_map (by omega) hl hd, column_sect_map (by omega) hl hd]
  refine ⟨Norm.Bc2.normalizeSplit_eq mode n _ (fun i hi => block_len (by omega) hi) ra rc rx, ?_⟩
  apply flatMap_congr_range
  intro i hi
  have hb := block_len (n := n) (data := data) (B := 16) (by omega) hi
  dsimp only
  rw [Norm.Bc2.norm, Norm.Bc2.write, slice_append_left _ _ _ _ (by simp [hb])]
  simp [slice, List.take_take]

/-- **C57.** BC3. -/
theorem C57_bc3_split (data data' : Buf) (n : Nat) (am : Norm.Bc3.AlphaMode) (cm : Mode)
    (hd : data.length = n * 16)
    (h : Norm.Bc3.normalizeBlocks none data (n * 16) am cm = some data') (r1 r2 r3 r4 : Buf) :
    Norm.Bc3.normalizeSplit am cm n ⟨column 16 data (fun b => slice b 0 2) ++ r1,
      column 16 data (fun b => slice b 2 6) ++ r2, column 16 data (fun b => slice b 8 4) ++ r3,
      column 16 data (fun b => slice b 12 4) ++ r4⟩ =
    some ⟨column 16 data' (fun b => slice b 0 2) ++ r1,
      column 16 data' (fun b => slice b 2 6) ++ r2, column 16 data' (fun b => slice b 8 4) ++ r3,
      column 16 data' (fun b => slice b 12 4) ++ r4⟩ := by
  rw [Norm.Bc3.normalizeBlocks_eq none data n am cm (by simp only [Option.getD_none]; omega) (by omega)] at h
  have e0 : data.drop (n * 16) = [] := List.drop_eq_nil_of_le (by omega)
  rw [e0, List.append_nil] at h
  obtain rfl := Option.some.inj h
  have hl := Norm.Bc3.norm_length am cm
  simp only [Option.getD_none]
  rw [column_sect (by omega) hd, column_sect (by omega) hd, column_sect (by omega) hd, column_sect (by omega) hd,
    column_sect_map (by omega) hl hd, column_sect_map (by omega) hl hd, column_sect_map (by omega) hl hd,
    column_sect_map (by omega) hl hd]
  exact Norm.Bc3.normalizeSplit_eq am cm n _ (fun i hi => block_len (by omega) hi) r1 r2 r3 r4

/-- **C57.** BC1, colours and indices in separate regions (`pre`: what precedes the indices). -/
theorem C57_bc1_split (data data' : Buf) (n : Nat) (mode : Mode) (hd : data.length = n * 8)
    (h : Norm.Bc1.normalizeBlocks none data (n * 8) mode = some data') (rc pre rx : Buf) :
    Norm.Bc1.normalizeSplit mode 0 pre.length n ⟨column 8 data (fun b => slice b 0 4) ++ rc,
      some (pre ++ (column 8 data (fun b => slice b 4 4) ++ rx))⟩ =
    some ⟨column 8 data' (fun b => slice b 0 4) ++ rc,
      some (pre ++ (column 8 data' (fun b => slice b 4 4) ++ rx))⟩ := by
  rw [Norm.Bc1.normalizeBlocks_eq none data n mode (by simp only [Option.getD_none]; omega) (by omega)] at h
  have e0 : data.drop (n * 8) = [] := List.drop_eq_nil_of_le (by omega)
  rw [e0, List.append_nil] at h
  obtain rfl := Option.some.inj h
  have hl := Norm.Bc1.norm_length mode
  have hb : ∀ i, i < n → (block 8 data i).length = 8 := fun i hi => block_len (by omega) hi
  simp only [Option.getD_none]
  rw [column_sect (by omega) hd, column_sect (by omega) hd,
    column_sect_map (by omega) hl hd, column_sect_map (by omega) hl hd]
  exact Norm.Bc1.normalizeSplit_sep mode n _ hb rc pre rx

/-- **C57.** BC1, the indices right behind the colours in one region. -/
theorem C57_bc1_split_same (data data' : Buf) (n : Nat) (mode : Mode) (hd : data.length = n * 8)
    (h : Norm.Bc1.normalizeBlocks none data (n * 8) mode = some data') (rx : Buf) :
    Norm.Bc1.normalizeSplit mode 0 (n * 4) n ⟨column 8 data (fun b => slice b 0 4) ++
      (column 8 data (fun b => slice b 4 4) ++ rx), none⟩ =
    some ⟨column 8 data' (fun b => slice b 0 4) ++ (column 8 data' (fun b => slice b 4 4) ++ rx), none⟩ := by
  rw [Norm.Bc1.normalizeBlocks_eq none data n mode (by simp only [Option.getD_none]; omega) (by omega)] at h
  have e0 : data.drop (n * 8) = [] := List.drop_eq_nil_of_le (by omega)
  rw [e0, List.append_nil] at h
  obtain rfl := Option.some.inj h
  have hl := Norm.Bc1.norm_length mode
  have hb : ∀ i, i < n → (block 8 data i).length = 8 := fun i hi => block_len (by omega) hi
  simp only [Option.getD_none]
  rw [column_sect (by omega) hd, column_sect (by omega) hd,
    column_sect_map (by omega) hl hd, column_sect_map (by omega) hl hd]
  exact Norm.Bc1.normalizeSplit_same mode n _ hb rx

/-- Two BC1 blocks, one solid, as separated fields. -/
example : Norm.Bc1.normalizeSplit .replicate 0 8 2 ⟨[0x34, 0x12, 0x34, 0x12, 1, 2, 3, 4] ++
    ([0x44, 0x11, 0x05, 0x50, 9, 8, 7, 6] ++ []), none⟩ = some ⟨[0x34, 0x12, 0x34, 0x12, 1, 2, 3, 4,
      0, 0, 0, 0, 9, 8, 7, 6], none⟩ := by
  have : ∀ t : Option Norm.Bc1.Split, t.map (fun t => (t.colors, t.indices)) =
      some ([0x34, 0x12, 0x34, 0x12, 1, 2, 3, 4, 0, 0, 0, 0, 9, 8, 7, 6], none) →
      t = some ⟨[0x34, 0x12, 0x34, 0x12, 1, 2, 3, 4, 0, 0, 0, 0, 9, 8, 7, 6], none⟩ := by
    rintro (_ | ⟨c, x⟩) h
    · cases h
    · simp only [Option.map_some, Option.some.injEq, Prod.mk.injEq] at h
      rw [h.1, h.2]
  exact this _ (by decide +kernel)

end Dlt.Props
