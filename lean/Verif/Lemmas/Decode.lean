import Verif.Model.Decode
import Verif.SpecDecode
import Verif.Lemmas.Color565
import Verif.Lemmas.Mem
import Verif.Lemmas.Ints
/-! The block decoders, unrolled, and the arithmetic of RGB565. -/

namespace Dlt.Color565

private theorem dup5 : ∀ r : Fin 32, (((BitVec.ofNat 16 r.val <<< 3) ||| (BitVec.ofNat 16 r.val >>> 2)).setWidth 8
    : Byte).toNat = Spec.expand5 r.val := by decide
private theorem dup6 : ∀ r : Fin 64, (((BitVec.ofNat 16 r.val <<< 2) ||| (BitVec.ofNat 16 r.val >>> 4)).setWidth 8
    : Byte).toNat = Spec.expand6 r.val := by decide

private theorem dup5' (r : U16) (h : r.toNat < 32) :
    (((r <<< 3) ||| (r >>> 2)).setWidth 8 : Byte).toNat = Spec.expand5 r.toNat := by
  have := dup5 ⟨r.toNat, h⟩
  simpa using this
private theorem dup6' (r : U16) (h : r.toNat < 64) :
    (((r <<< 2) ||| (r >>> 4)).setWidth 8 : Byte).toNat = Spec.expand6 r.toNat := by
  have := dup6 ⟨r.toNat, h⟩
  simpa using this

theorem red_toNat (v : U16) : (red v).toNat = Spec.expand5 (v.toNat / 2048 % 32) := by
  have h : ((v &&& 0xF800#16) >>> 11).toNat = v.toNat / 2048 % 32 := by
    rw [BitVec.ushiftRight_and_distrib, show (0xF800#16 >>> 11) = 0x1F#16 from rfl, and31, shr]
  have := dup5' ((v &&& 0xF800#16) >>> 11) (by rw [h]; omega)
  rw [h] at this
  exact this

theorem green_toNat (v : U16) : (green v).toNat = Spec.expand6 (v.toNat / 32 % 64) := by
  have h : ((v &&& 0x07E0#16) >>> 5).toNat = v.toNat / 32 % 64 := by
    rw [BitVec.ushiftRight_and_distrib, show (0x07E0#16 >>> 5) = 0x3F#16 from rfl, BitVec.toNat_and, shr]
    exact Nat.and_two_pow_sub_one_eq_mod _ 6
  have := dup6' ((v &&& 0x07E0#16) >>> 5) (by rw [h]; omega)
  rw [h] at this
  exact this

theorem blue_toNat (v : U16) : (blue v).toNat = Spec.expand5 (v.toNat % 32) := by
  have h : (v &&& 0x001F#16).toNat = v.toNat % 32 := and31 v
  have := dup5' (v &&& 0x001F#16) (by rw [h]; omega)
  rw [h] at this
  exact this

private theorem packR : ∀ r : Fin 256, (((BitVec.ofNat 8 r.val).zeroExtend 16 &&& 0xF8#16) <<< 8) =
    BitVec.ofNat 16 (r.val / 8) <<< 11 := by decide +kernel
private theorem packG : ∀ r : Fin 256, (((BitVec.ofNat 8 r.val).zeroExtend 16 &&& 0xFC#16) <<< 3) =
    BitVec.ofNat 16 (r.val / 4) <<< 5 := by decide +kernel
private theorem packB : ∀ r : Fin 256, ((BitVec.ofNat 8 r.val).zeroExtend 16 >>> 3) =
    BitVec.ofNat 16 (r.val / 8) := by decide +kernel

theorem fromRgb_toNat (r g b : Byte) :
    (fromRgb r g b).toNat = r.toNat / 8 * 2048 + g.toNat / 4 * 32 + b.toNat / 8 := by
  have hr := packR ⟨r.toNat, r.isLt⟩
  have hg := packG ⟨g.toNat, g.isLt⟩
  have hb := packB ⟨b.toNat, b.isLt⟩
  simp only [BitVec.ofNat_toNat, BitVec.setWidth_eq] at hr hg hb
  have lr := r.isLt
  have lg := g.isLt
  have lb := b.isLt
  unfold fromRgb
  rw [hr, hg, hb, BitVec.or_assoc]
  have er : (BitVec.ofNat 16 (r.toNat / 8)).toNat = r.toNat / 8 := by
    rw [BitVec.toNat_ofNat, Nat.mod_eq_of_lt (by omega)]
  have eg : (BitVec.ofNat 16 (g.toNat / 4)).toNat = g.toNat / 4 := by
    rw [BitVec.toNat_ofNat, Nat.mod_eq_of_lt (by omega)]
  have eb : (BitVec.ofNat 16 (b.toNat / 8)).toNat = b.toNat / 8 := by
    rw [BitVec.toNat_ofNat, Nat.mod_eq_of_lt (by omega)]
  have h1 := or_disj (BitVec.ofNat 16 (g.toNat / 4)) (BitVec.ofNat 16 (b.toNat / 8)) 5 (by omega) (by omega)
  rw [or_disj _ _ 11 (by omega) (by omega), h1, er, eg, eb]
  omega

/-- Expanding and reducing returns the colour. -/
theorem fromRgb_channels (c : U16) : fromRgb (red c) (green c) (blue c) = c := by
  apply BitVec.eq_of_toNat_eq
  have := c.isLt
  rw [fromRgb_toNat, red_toNat, green_toNat, blue_toNat]
  have h5 : ∀ v, v < 32 → Spec.expand5 v / 8 = v := fun v h => by unfold Spec.expand5; omega
  have h6 : ∀ v, v < 64 → Spec.expand6 v / 4 = v := fun v h => by unfold Spec.expand6; omega
  rw [h5 _ (by omega), h6 _ (by omega), h5 _ (by omega)]
  omega

end Dlt.Color565

namespace Dlt

/-- The double loop that fills the sixteen pixels in order. -/
theorem forXY_fill {τ : Type} {body : Nat → Nat → Pixels × τ → Option (Pixels × τ)}
    (f : Nat → Color8888) (g : Nat → τ) (p : Color8888)
    (hb : ∀ k, k < 16 → ∀ px : Pixels, px.length = 16 →
      body (k % 4) (k / 4) (px, g k) = some (List.set px k (f k), g (k + 1))) :
    forXY body (Pixels.new p, g 0) = some ((List.range 16).map f, g 16) := by
  have h0 := hb 0 (by omega)
  have h1 := hb 1 (by omega)
  have h2 := hb 2 (by omega)
  have h3 := hb 3 (by omega)
  have h4 := hb 4 (by omega)
  have h5 := hb 5 (by omega)
  have h6 := hb 6 (by omega)
  have h7 := hb 7 (by omega)
  have h8 := hb 8 (by omega)
  have h9 := hb 9 (by omega)
  have h10 := hb 10 (by omega)
  have h11 := hb 11 (by omega)
  have h12 := hb 12 (by omega)
  have h13 := hb 13 (by omega)
  have h14 := hb 14 (by omega)
  have h15 := hb 15 (by omega)
  simp only [Nat.reduceMod, Nat.reduceDiv, Nat.zero_mod, Nat.zero_div, Nat.reduceAdd] at *
  simp only [forXY, List.foldlM_cons, List.foldlM_nil, Pixels.new, List.replicate, Option.bind_eq_bind,
    h0, h1, h2, h3, h4, h5, h6, h7, h8, h9, h10, h11, h12, h13, h14, h15, Option.bind_some,
    List.length_set, List.length_cons, List.length_nil, Nat.reduceAdd, Option.pure_def]
  rfl

theorem forXY_bind {τ α : Type} {body : Nat → Nat → Pixels × τ → Option (Pixels × τ)}
    (f : Nat → Color8888) (g : Nat → τ) {p : Color8888} {s0 : τ} {k : Pixels × τ → Option α}
    (hs : s0 = g 0) (hb : ∀ k, k < 16 → ∀ px : Pixels, px.length = 16 →
      body (k % 4) (k / 4) (px, g k) = some (List.set px k (f k), g (k + 1))) :
    (forXY body (Pixels.new p, s0)).bind k = k ((List.range 16).map f, g 16) := by
  subst hs
  rw [forXY_fill f g p hb]
  rfl

theorem Pixels.set_some {px : Pixels} (h : px.length = 16) {k : Nat} (hk : k < 16) (p : Color8888) :
    Pixels.set px (k % 4) (k / 4) p = some (List.set px k p) := by
  have : k / 4 * 4 + k % 4 = k := by omega
  rw [Pixels.set, this, if_pos (by omega)]

end Dlt

namespace Dlt.Decode

theorem idx_lt (idx : U32) (pos : Nat) : ((idx >>> pos) &&& 3#32).toNat < 4 := by
  have : ((idx >>> pos) &&& 3#32).toNat = (idx >>> pos).toNat % 4 := by
    rw [BitVec.toNat_and]; exact Nat.and_two_pow_sub_one_eq_mod _ 2
  omega

/-- The table entry that an index selects. -/
def pick (dict : List Color8888) (idx : U32) (pos : Nat) : Color8888 :=
  dict.getD ((idx >>> pos) &&& 3#32).toNat ⟨0, 0, 0, 0⟩

theorem pick_some {dict : List Color8888} (h : dict.length = 4) (idx : U32) (pos : Nat) :
    dict[((idx >>> pos) &&& 3#32).toNat]? = some (pick dict idx pos) := by
  have := idx_lt idx pos
  rw [pick, List.getD_eq_getElem?_getD, List.getElem?_eq_getElem (by omega)]
  rfl

theorem dict4_length (c0 c1 : U16) : (dict4 c0 c1).length = 4 := rfl
theorem dict3_length (c0 c1 : U16) : (dict3 c0 c1).length = 4 := rfl

/-- The dictionary of a BC1 block. -/
def bc1Dict (c0 c1 : U16) : List Color8888 :=
  if Color565.greaterThan c0 c1 then dict4 c0 c1 else dict3 c0 c1

theorem bc1Dict_length (c0 c1 : U16) : (bc1Dict c0 c1).length = 4 := by
  unfold bc1Dict; split <;> rfl

/-- `decode_bc1_block` without the loop. -/
theorem bc1_eq {b : Buf} {src : Nat} (h : src + 8 ≤ b.length) :
    bc1 b src = some ((List.range 16).map fun k =>
      pick (bc1Dict (of16 .little (slice b src 2)) (of16 .little (slice b (src + 2) 2)))
        (of32 .little (slice b (src + 4) 4)) (2 * k)) := by
  unfold bc1
  rw [ld16, ld, if_pos (by omega), ld16, ld, if_pos (by omega), ld32, ld, if_pos (by omega)]
  simp only [Option.map_some, Option.bind_eq_bind, Option.bind_some]
  rw [← bc1Dict]
  generalize of32 .little (slice b (src + 4) 4) = idx
  have hd := bc1Dict_length (of16 .little (slice b src 2)) (of16 .little (slice b (src + 2) 2))
  generalize bc1Dict (of16 .little (slice b src 2)) (of16 .little (slice b (src + 2) 2)) = dict at hd ⊢
  rw [forXY_bind (fun k => pick dict idx (2 * k)) (fun k => 2 * k)]
  · rfl
  · rfl
  · intro k hk px hp
    simp only [pick_some hd, Option.bind_some, Pixels.set_some hp hk]
    rfl

theorem nat_mod2 (n : Nat) : n % 2 = 0 ∨ n % 2 = 1 := by omega

/-- 4-bit alpha number `k`, scaled. -/
def alpha4 (alphaBytes : Buf) (k : Nat) : Byte :=
  ((alphaBytes.getD (k / 2) 0 >>> (k % 2 * 4)) &&& 0x0F#8) * 17#8

/-- `decode_bc2_block` without the loop. -/
theorem bc2_eq {b : Buf} {src : Nat} (h : src + 16 ≤ b.length) :
    bc2 b src = some ((List.range 16).map fun k =>
      { pick (dict4 (of16 .little (slice b (src + 8) 2)) (of16 .little (slice b (src + 10) 2)))
        (of32 .little (slice b (src + 12) 4)) (2 * k) with a := alpha4 (slice b src 8) k }) := by
  unfold bc2
  rw [ld16, ld, if_pos (by omega), ld16, ld, if_pos (by omega), ld32, ld, if_pos (by omega), ld,
    if_pos (by omega)]
  simp only [Option.map_some, Option.bind_eq_bind, Option.bind_some]
  generalize of32 .little (slice b (src + 12) 4) = idx
  have hd := dict4_length (of16 .little (slice b (src + 8) 2)) (of16 .little (slice b (src + 10) 2))
  generalize dict4 (of16 .little (slice b (src + 8) 2)) (of16 .little (slice b (src + 10) 2)) = dict at hd ⊢
  have ha : (slice b src 8).length = 8 := slice_length_of_le (by omega)
  generalize slice b src 8 = al at ha ⊢
  rw [forXY_bind (fun k => { pick dict idx (2 * k) with a := alpha4 al k }) (fun k => (2 * k, k))]
  · rfl
  · rfl
  · intro k hk px hp
    have hal : al[k / 2]? = some (al.getD (k / 2) 0) := by
      rw [List.getD_eq_getElem?_getD, List.getElem?_eq_getElem (by omega)]; rfl
    simp only [pick_some hd, hal, Option.bind_some, Pixels.set_some hp hk]
    rfl

/-- 3-bit alpha index number `k`. -/
def alpha3 (indices : Buf) (k : Nat) : Byte :=
  if 3 * k % 8 ≤ 5 then (indices.getD (3 * k / 8) 0 >>> (3 * k % 8)) &&& 0b111#8
  else ((indices.getD (3 * k / 8) 0 >>> (3 * k % 8)) |||
    (indices.getD (3 * k / 8 + 1) 0 <<< (8 - 3 * k % 8))) &&& 0b111#8

theorem and7_lt (x : Byte) : (x &&& 0b111#8).toNat < 8 := by
  have : (x &&& 0b111#8).toNat = x.toNat % 8 := by
    rw [BitVec.toNat_and]; exact Nat.and_two_pow_sub_one_eq_mod _ 3
  omega

theorem alphaValues_length (a0 a1 : Byte) : (alphaValues a0 a1).length = 8 := by
  unfold alphaValues; split <;> rfl

theorem value_some {values : List Byte} (h : values.length = 8) (x : Byte) :
    values[(x &&& 0b111#8).toNat]? = some (values.getD (x &&& 0b111#8).toNat 0) := by
  have := and7_lt x
  rw [List.getD_eq_getElem?_getD, List.getElem?_eq_getElem (by omega)]
  rfl

/-- `decode_bc3_block` without the loop. -/
theorem bc3_eq {b : Buf} {src : Nat} (h : src + 16 ≤ b.length) :
    bc3 b src = some ((List.range 16).map fun k =>
      { pick (dict4 (of16 .little (slice b (src + 8) 2)) (of16 .little (slice b (src + 10) 2)))
        (of32 .little (slice b (src + 12) 4)) (2 * k) with
        a := (alphaValues ((slice b src 1).headD 0) ((slice b (src + 1) 1).headD 0)).getD
          (alpha3 (slice b (src + 2) 6) k).toNat 0 }) := by
  unfold bc3
  rw [ld16, ld, if_pos (by omega), ld16, ld, if_pos (by omega), ld32, ld, if_pos (by omega), ld8, ld,
    if_pos (by omega), ld8, ld, if_pos (by omega), ld, if_pos (by omega)]
  simp only [Option.map_some, Option.bind_eq_bind, Option.bind_some]
  generalize of32 .little (slice b (src + 12) 4) = idx
  have hd := dict4_length (of16 .little (slice b (src + 8) 2)) (of16 .little (slice b (src + 10) 2))
  generalize dict4 (of16 .little (slice b (src + 8) 2)) (of16 .little (slice b (src + 10) 2)) = dict at hd ⊢
  have hv := alphaValues_length ((slice b src 1).headD 0) ((slice b (src + 1) 1).headD 0)
  generalize alphaValues ((slice b src 1).headD 0) ((slice b (src + 1) 1).headD 0) = values at hv ⊢
  have ha : (slice b (src + 2) 6).length = 6 := slice_length_of_le (by omega)
  generalize slice b (src + 2) 6 = al at ha ⊢
  rw [forXY_bind (fun k => { pick dict idx (2 * k) with a := values.getD (alpha3 al k).toNat 0 })
    (fun k => (2 * k, 3 * k))]
  · rfl
  · rfl
  · intro k hk px hp
    have hal : al[3 * k / 8]? = some (al.getD (3 * k / 8) 0) := by
      rw [List.getD_eq_getElem?_getD, List.getElem?_eq_getElem (by omega)]; rfl
    have hal' : ¬ 3 * k % 8 ≤ 5 → al[3 * k / 8 + 1]? = some (al.getD (3 * k / 8 + 1) 0) := by
      intro hne
      rw [List.getD_eq_getElem?_getD, List.getElem?_eq_getElem (by omega)]; rfl
    simp only [pick_some hd, hal, Option.bind_some]
    by_cases hc : 3 * k % 8 ≤ 5
    · simp only [hc, if_true, Option.pure_def, Option.bind_some, value_some hv, Pixels.set_some hp hk,
        alpha3]
      rfl
    · simp only [hc, if_false, hal' hc, Option.pure_def, Option.bind_some, value_some hv,
        Pixels.set_some hp hk, alpha3]
      rfl

end Dlt.Decode
