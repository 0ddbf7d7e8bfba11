import Verif.Lemmas.Decode
/-!
# Colours and block decoding: C47, C56

`Spec.bc1Pixel`, `Spec.bc2Pixel` and `Spec.bc3Pixel` (file `SpecDecode.lean`) state the formats as
arithmetic.
-/

namespace Dlt.Props
open Decode Spec

/-- The channels of a pixel as numbers. -/
def rgba (c : Color8888) : Rgba := (c.r.toNat, c.g.toNat, c.b.toNat, c.a.toNat)

/-! ## C47 -/

/-- **C47.** Expanding an RGB565 colour to 8 bits per channel, with any alpha, and reducing it again
returns the colour. -/
theorem C47_expand_reduce (c : U16) (alpha : Byte) :
    (Color565.to8888Lossy c).to565Lossy = c ∧
    (Color565.to8888WithAlphaLossy c alpha).to565Lossy = c :=
  ⟨Color565.fromRgb_channels c, Color565.fromRgb_channels c⟩

/-- **C47.** The expanded colour has the channels that the formats prescribe. -/
theorem C47_expand_value (c : U16) (alpha : Byte) :
    rgba (Color565.to8888Lossy c) = withAlpha (rgb565 c.toNat) 255 ∧
    rgba (Color565.to8888WithAlphaLossy c alpha) = withAlpha (rgb565 c.toNat) alpha.toNat := by
  simp only [rgba, Color565.to8888Lossy, Color565.to8888WithAlphaLossy, withAlpha, rgb565,
    Color565.red_toNat, Color565.green_toNat, Color565.blue_toNat]
  exact ⟨rfl, trivial⟩

/-- **C47.** Reduction drops the low three, two and three bits of the channels; it never fails and it
ignores alpha.  Hence a second round of reduction and expansion changes nothing. -/
theorem C47_reduce_value (c : Color8888) :
    c.to565Lossy.toNat = c.r.toNat / 8 * 2048 + c.g.toNat / 4 * 32 + c.b.toNat / 8 ∧
    (Color565.to8888Lossy c.to565Lossy).to565Lossy = c.to565Lossy ∧
    c.withoutAlpha.to565Lossy = c.to565Lossy :=
  ⟨Color565.fromRgb_toNat _ _ _, Color565.fromRgb_channels _, rfl⟩

/-- Expansion is not the identity on numbers, and reduction really loses something. -/
example : rgba (Color565.to8888Lossy 0x1234#16) = (16, 69, 165, 255) ∧
    (⟨17, 69, 165, 255⟩ : Color8888).to565Lossy = 0x1234#16 := by decide

/-! ## C56 -/

theorem le16 {bs : Buf} (h : bs.length = 2) : (of16 .little bs).toNat = le bs := by
  match bs, h with
  | [a, b], _ => rw [of16_little_toNat]; simp [le]; omega

theorem le32 {bs : Buf} (h : bs.length = 4) : (of32 .little bs).toNat = le bs := by
  match bs, h with
  | [a, b, c, d], _ => rw [of32_little_toNat]; simp [le]; omega

theorem idx_value (idx : U32) (k : Nat) :
    ((idx >>> (2 * k)) &&& 3#32).toNat = idx.toNat / 4 ^ k % 4 := by
  have h1 : ((idx >>> (2 * k)) &&& 3#32).toNat = (idx >>> (2 * k)).toNat % 4 := by
    rw [BitVec.toNat_and]; exact Nat.and_two_pow_sub_one_eq_mod _ 2
  rw [h1, BitVec.toNat_ushiftRight, Nat.shiftRight_eq_div_pow, Nat.pow_mul]

theorem third_toNat (a b : Byte) : (third a b).toNat = (2 * a.toNat + 1 * b.toNat) / (2 + 1) := by
  have := a.isLt
  have := b.isLt
  rw [third, BitVec.toNat_ofNat, Nat.mod_eq_of_lt (by omega)]; omega

theorem third'_toNat (a b : Byte) : (third' a b).toNat = (1 * a.toNat + 2 * b.toNat) / (1 + 2) := by
  have := a.isLt
  have := b.isLt
  rw [third', BitVec.toNat_ofNat, Nat.mod_eq_of_lt (by omega)]; omega

theorem half_toNat (a b : Byte) : (half a b).toNat = (1 * a.toNat + 1 * b.toNat) / (1 + 1) := by
  have := a.isLt
  have := b.isLt
  rw [half, BitVec.toNat_ofNat, Nat.mod_eq_of_lt (by omega)]; omega

theorem dict4_value (c0 c1 : U16) {i : Nat} (h : i < 4) :
    rgba ((dict4 c0 c1).getD i ⟨0, 0, 0, 0⟩) = withAlpha (fourColours c0.toNat c1.toNat i) 255 := by
  match i, h with
  | 0, _ | 1, _ | 2, _ | 3, _ =>
    simp only [dict4, List.getD_cons_zero, List.getD_cons_succ, rgba, withAlpha, fourColours, rgb565,
      blend, third_toNat, third'_toNat, Color565.red_toNat, Color565.green_toNat, Color565.blue_toNat]
    rfl

theorem dict3_value (c0 c1 : U16) {i : Nat} (h : i < 4) (hc : ¬ c1.toNat < c0.toNat) :
    rgba ((dict3 c0 c1).getD i ⟨0, 0, 0, 0⟩) = bc1Palette c0.toNat c1.toNat i := by
  unfold bc1Palette
  rw [if_neg hc]
  match i, h with
  | 0, _ | 1, _ | 2, _ | 3, _ =>
    simp only [dict3, List.getD_cons_zero, List.getD_cons_succ, rgba, withAlpha, rgb565,
      blend, half_toNat, Color565.red_toNat, Color565.green_toNat, Color565.blue_toNat]
    rfl

theorem rgba_setAlpha {c : Color8888} {x : Rgb} {a : Nat} (h : rgba c = withAlpha x a) (v : Byte) :
    rgba { c with a := v } = withAlpha x v.toNat := by
  simp only [rgba, withAlpha, Prod.mk.injEq] at h ⊢
  exact ⟨h.1, h.2.1, h.2.2.1, trivial⟩

theorem pixels_spec {px : Pixels} {f : Nat → Color8888} {g : Nat → Rgba}
    (hp : px = (List.range 16).map f) (h : ∀ k, k < 16 → rgba (f k) = g k) :
    px.map rgba = (List.range 16).map g := by
  subst hp
  rw [List.map_map]
  apply List.map_congr_left
  intro k hk
  exact h k (List.mem_range.1 hk)

/-- **C56.** `decode_bc1_block` reads eight bytes and returns the sixteen pixels of the BC1 format. -/
theorem C56_bc1_decode (b : Buf) (src : Nat) (h : src + 8 ≤ b.length) :
    ∃ px, Decode.bc1 b src = some px ∧
      px.map rgba = (List.range 16).map (bc1Pixel (slice b src 8)) := by
  refine ⟨_, bc1_eq h, pixels_spec rfl fun k _ => ?_⟩
  simp only [pick, bc1Pixel, idx_value]
  rw [slice_slice _ _ _ _ _ (by omega), slice_slice _ _ _ _ _ (by omega), slice_slice _ _ _ _ _ (by omega)]
  rw [← le16 (slice_length_of_le (by omega)), ← le16 (slice_length_of_le (by omega)),
    ← le32 (slice_length_of_le (by omega))]
  simp only [Nat.add_zero]
  unfold bc1Dict
  have hi : (of32 .little (slice b (src + 4) 4)).toNat / 4 ^ k % 4 < 4 := Nat.mod_lt _ (by omega)
  by_cases hc : (of16 .little (slice b (src + 2) 2)).toNat < (of16 .little (slice b src 2)).toNat
  · rw [if_pos (by simpa [Color565.greaterThan] using hc), dict4_value _ _ hi]
    unfold bc1Palette
    rw [if_pos hc]
  · rw [if_neg (by simpa [Color565.greaterThan] using hc), dict3_value _ _ hi hc]

theorem opaque_value {b : Buf} {src : Nat} (h : src + 16 ≤ b.length) (k : Nat) :
    rgba (pick (dict4 (of16 .little (slice b (src + 8) 2)) (of16 .little (slice b (src + 10) 2)))
        (of32 .little (slice b (src + 12) 4)) (2 * k)) =
      withAlpha (opaqueColour (slice b src 16) k) 255 := by
  simp only [pick, opaqueColour, idx_value]
  rw [slice_slice _ _ _ _ _ (by omega), slice_slice _ _ _ _ _ (by omega), slice_slice _ _ _ _ _ (by omega)]
  rw [← le16 (slice_length_of_le (by omega)), ← le16 (slice_length_of_le (by omega)),
    ← le32 (slice_length_of_le (by omega))]
  exact dict4_value _ _ (Nat.mod_lt _ (by omega))

theorem le_digit : ∀ (bs : Buf) (j : Nat), (bs.getD j 0).toNat = le bs / 256 ^ j % 256
  | [], j => by simp [le]
  | x :: xs, 0 => by
    have := x.isLt
    simp only [List.getD_cons_zero, le, Nat.pow_zero, Nat.div_one]
    omega
  | x :: xs, j + 1 => by
    have := x.isLt
    rw [List.getD_cons_succ, le_digit xs j, le, Nat.pow_succ', ← Nat.div_div_eq_div_mul,
      show (x.toNat + 256 * le xs) / 256 = le xs by omega]

theorem alpha4_value (bs : Buf) (k : Nat) : (alpha4 bs k).toNat = le bs / 16 ^ k % 16 * 17 := by
  have h1 : ∀ x : Byte, (x &&& 0x0F#8).toNat = x.toNat % 16 := fun x => by
    rw [BitVec.toNat_and]; exact Nat.and_two_pow_sub_one_eq_mod _ 4
  unfold alpha4
  rw [BitVec.toNat_mul, h1, BitVec.toNat_ushiftRight, le_digit, Nat.shiftRight_eq_div_pow]
  rw [Nat.mod_eq_of_lt (by
    have : (le bs / 256 ^ (k / 2) % 256 / 2 ^ (k % 2 * 4)) % 16 < 16 := Nat.mod_lt _ (by omega)
    have e : (17#8).toNat = 17 := rfl
    rw [e]; omega)]
  congr 1
  have e : (16 : Nat) ^ k = 256 ^ (k / 2) * 16 ^ (k % 2) := by
    rw [show (256 : Nat) = 16 ^ 2 from rfl, ← Nat.pow_mul, ← Nat.pow_add]
    congr 1; omega
  rw [e, ← Nat.div_div_eq_div_mul]
  generalize le bs / 256 ^ (k / 2) = N
  rcases nat_mod2 k with h | h <;> rw [h] <;> omega

/-- **C56.** `decode_bc2_block` reads sixteen bytes and returns the sixteen pixels of the BC2 format. -/
theorem C56_bc2_decode (b : Buf) (src : Nat) (h : src + 16 ≤ b.length) :
    ∃ px, Decode.bc2 b src = some px ∧
      px.map rgba = (List.range 16).map (bc2Pixel (slice b src 16)) := by
  refine ⟨_, bc2_eq h, pixels_spec rfl fun k _ => ?_⟩
  rw [rgba_setAlpha (opaque_value h k), alpha4_value, bc2Pixel, slice_slice _ _ _ _ _ (by omega)]
  rfl

theorem mix_toNat {p q d : Nat} (a0 a1 : Byte) (h : p + q = d) (hd : 0 < d) :
    (mix p q d a0 a1).toNat = (p * a0.toNat + q * a1.toNat) / d := by
  have h0 := a0.isLt
  have h1 := a1.isLt
  have e0 : p * a0.toNat ≤ p * 255 := Nat.mul_le_mul_left _ (by omega)
  have e1 : q * a1.toNat ≤ q * 255 := Nat.mul_le_mul_left _ (by omega)
  rw [mix, BitVec.toNat_ofNat, Nat.mod_eq_of_lt]
  apply Nat.div_lt_of_lt_mul
  subst h
  rw [Nat.add_mul]
  omega

theorem alphaValues_value (a0 a1 : Byte) {i : Nat} (h : i < 8) :
    ((alphaValues a0 a1).getD i 0).toNat = alphaPalette a0.toNat a1.toNat i := by
  unfold alphaValues alphaPalette
  by_cases hc : a1.toNat < a0.toNat
  · simp only [hc, if_true]
    match i, h with
    | 0, _ | 1, _ | 2, _ | 3, _ | 4, _ | 5, _ | 6, _ | 7, _ =>
      first
        | rfl
        | simp [mix_toNat]
  · simp only [hc, if_false]
    match i, h with
    | 0, _ | 1, _ | 2, _ | 3, _ | 4, _ | 5, _ | 6, _ | 7, _ =>
      first
        | rfl
        | simp [mix_toNat]

theorem alpha3_value (bs : Buf) (k : Nat) : (alpha3 bs k).toNat = le bs / 8 ^ k % 8 := by
  have h7 : ∀ x : Byte, (x &&& 0b111#8).toNat = x.toNat % 8 := fun x => by
    rw [BitVec.toNat_and]; exact Nat.and_two_pow_sub_one_eq_mod _ 3
  have e : (8 : Nat) ^ k = 256 ^ (3 * k / 8) * 2 ^ (3 * k % 8) := by
    rw [show (256 : Nat) = 2 ^ 8 from rfl, show (8 : Nat) ^ k = 2 ^ (3 * k) by rw [Nat.pow_mul],
      ← Nat.pow_mul, ← Nat.pow_add]
    congr 1; omega
  unfold alpha3
  rw [e, ← Nat.div_div_eq_div_mul]
  have d0 := le_digit bs (3 * k / 8)
  have d1 := le_digit bs (3 * k / 8 + 1)
  rw [Nat.pow_succ, ← Nat.div_div_eq_div_mul] at d1
  generalize bs.getD (3 * k / 8) 0 = x at *
  generalize bs.getD (3 * k / 8 + 1) 0 = y at *
  generalize le bs / 256 ^ (3 * k / 8) = N at *
  have hlt : 3 * k % 8 < 8 := Nat.mod_lt _ (by omega)
  generalize 3 * k % 8 = s at *
  by_cases hs : s ≤ 5
  · rw [if_pos hs, h7, BitVec.toNat_ushiftRight, d0, Nat.shiftRight_eq_div_pow]
    rcases (show s = 0 ∨ s = 1 ∨ s = 2 ∨ s = 3 ∨ s = 4 ∨ s = 5 by omega) with h | h | h | h | h | h <;>
      subst h <;> omega
  · rw [if_neg hs, h7, BitVec.toNat_or, BitVec.toNat_ushiftRight, BitVec.toNat_shiftLeft, d0, d1,
      Nat.shiftRight_eq_div_pow, Nat.or_comm]
    have hor : ∀ (u v j : Nat), v < 2 ^ j → (u <<< j) ||| v = u * 2 ^ j + v := fun u v j hv => by
      rw [← Nat.shiftLeft_add_eq_or_of_lt hv, Nat.shiftLeft_eq]
    rcases (show s = 6 ∨ s = 7 by omega) with h | h <;> subst h
    · have : (N / 256 % 256) <<< (8 - 6) % 2 ^ 8 = (N / 256 % 64) <<< 2 := by
        rw [Nat.shiftLeft_eq, Nat.shiftLeft_eq]; omega
      rw [this, hor _ _ 2 (by omega)]; omega
    · have : (N / 256 % 256) <<< (8 - 7) % 2 ^ 8 = (N / 256 % 128) <<< 1 := by
        rw [Nat.shiftLeft_eq, Nat.shiftLeft_eq]; omega
      rw [this, hor _ _ 1 (by omega)]; omega

theorem le_one {bs : Buf} (h : bs.length = 1) : (bs.headD 0).toNat = le bs := by
  match bs, h with
  | [x], _ => simp [le]

/-- **C56.** `decode_bc3_block` reads sixteen bytes and returns the sixteen pixels of the BC3 format. -/
theorem C56_bc3_decode (b : Buf) (src : Nat) (h : src + 16 ≤ b.length) :
    ∃ px, Decode.bc3 b src = some px ∧
      px.map rgba = (List.range 16).map (bc3Pixel (slice b src 16)) := by
  refine ⟨_, bc3_eq h, pixels_spec rfl fun k _ => ?_⟩
  have h8 : (alpha3 (slice b (src + 2) 6) k).toNat < 8 := by
    rw [alpha3_value]; exact Nat.mod_lt _ (by omega)
  rw [rgba_setAlpha (opaque_value h k), alphaValues_value _ _ h8, alpha3_value, bc3Pixel,
    slice_slice _ _ _ _ _ (by omega), slice_slice _ _ _ _ _ (by omega),
    slice_slice _ _ _ _ _ (by omega), le_one (slice_length_of_le (by omega)),
    le_one (slice_length_of_le (by omega))]
  rfl

/-- **C56.** The slice variants answer `None` exactly for slices shorter than a block, and otherwise
the pixels of the first block; no byte outside the slice is read. -/
theorem C56_from_slice (s : Buf) :
    (s.length < 8 → Decode.bc1FromSlice s = some none) ∧
    (8 ≤ s.length → ∃ px, Decode.bc1FromSlice s = some (some px) ∧
      px.map rgba = (List.range 16).map (bc1Pixel (s.take 8))) ∧
    (s.length < 16 → Decode.bc2FromSlice s = some none ∧ Decode.bc3FromSlice s = some none) ∧
    (16 ≤ s.length → ∃ px px', Decode.bc2FromSlice s = some (some px) ∧
      px.map rgba = (List.range 16).map (bc2Pixel (s.take 16)) ∧
      Decode.bc3FromSlice s = some (some px') ∧
      px'.map rgba = (List.range 16).map (bc3Pixel (s.take 16))) := by
  refine ⟨fun h => if_pos h, fun h => ?_, fun h => ?_, fun h => ?_⟩
  · obtain ⟨px, h1, h2⟩ := C56_bc1_decode s 0 (by omega)
    refine ⟨px, ?_, h2⟩
    rw [Decode.bc1FromSlice, if_neg (by omega), h1]; rfl
  · rw [Decode.bc2FromSlice, if_pos h, Decode.bc3FromSlice, if_pos h]; exact ⟨rfl, rfl⟩
  · obtain ⟨px, h1, h2⟩ := C56_bc2_decode s 0 (by omega)
    obtain ⟨px', h1', h2'⟩ := C56_bc3_decode s 0 (by omega)
    refine ⟨px, px', ?_, h2, ?_, h2'⟩
    · rw [Decode.bc2FromSlice, if_neg (by omega), h1]; rfl
    · rw [Decode.bc3FromSlice, if_neg (by omega), h1']; rfl

/-- A BC1 block with all four palette entries in both modes. -/
example : ((Decode.bc1 [0x00, 0xF8, 0x1F, 0x00, 0xE4, 0, 0, 0] 0).map (·.map rgba |>.take 5)) =
    some [(255, 0, 0, 255), (0, 0, 255, 255), (170, 0, 85, 255), (85, 0, 170, 255), (255, 0, 0, 255)] := by
  decide
example : ((Decode.bc1 [0x1F, 0x00, 0x00, 0xF8, 0xE4, 0, 0, 0] 0).map (·.map rgba |>.take 5)) =
    some [(0, 0, 255, 255), (255, 0, 0, 255), (127, 0, 127, 255), (0, 0, 0, 0), (0, 0, 255, 255)] := by
  decide

/-- **C56** (pixels): for coordinates inside the block a pixel that was set is read back, and the other fifteen are as before. -/
theorem C56_pixels (px : Pixels) (hpx : px.length = 16) (x y x' y' : Nat) (hx : x < 4) (hy : y < 4) (hx' : x' < 4) (hy' : y' < 4)
    (p : Color8888) :
    (∃ q, px.get x y = some q) ∧ ∃ px', px.set x y p = some px' ∧ px'.length = 16 ∧
      px'.get x' y' = if x' = x ∧ y' = y then some p else px.get x' y' := by
  refine ⟨⟨_, List.getElem?_eq_getElem (by omega)⟩, List.set px (y * 4 + x) p, if_pos (by omega), by simp [hpx], ?_⟩
  unfold Pixels.get
  rw [List.getElem?_set]
  by_cases h : x' = x ∧ y' = y
  · obtain ⟨rfl, rfl⟩ := h
    rw [if_pos rfl, if_pos (by omega), if_pos ⟨rfl, rfl⟩]
  · rw [if_neg (by omega), if_neg h]

example : ((Pixels.new ⟨1, 2, 3, 4⟩).set 3 2 ⟨9, 8, 7, 6⟩).map (fun px => (px.get 3 2, px.get 2 3)) =
    some (some ⟨9, 8, 7, 6⟩, some ⟨1, 2, 3, 4⟩) := by decide

end Dlt.Props
