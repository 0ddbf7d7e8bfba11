import Verif.Model.Fuzz
import Verif.Props.Normalize
/-!
# C82: the fuzz targets never fail
-/

namespace Dlt.Props
open Decode Spec Norm Fuzz

theorem each_ok {α : Type} {xs : List α} {body : α → Option Unit} (h : ∀ x ∈ xs, body x = some ()) :
    each xs body = some () := by
  induction xs with
  | nil => rfl
  | cons x xs ih =>
    unfold each
    rw [h x (by simp)]
    exact ih fun y hy => h y (by simp [hy])

theorem assertEq_self {α : Type} [DecidableEq α] (a : α) : assertEq a a = some () := if_pos rfl

theorem assertEq_iff {α : Type} [DecidableEq α] {a b : α} : assertEq a b = some () ↔ a = b := by
  unfold assertEq; split <;> simp_all

theorem one_block {B : Nat} {F : Buf → Buf} {b out : Buf} (hb : b.length = B) (ho : out.length = B) :
    mapBlocks B F b 1 ++ out.drop (1 * B) = F b := by
  have : block B b 0 = b := by
    unfold block; rw [Nat.zero_mul]; exact slice_all hb
  rw [List.drop_of_length_le (by omega)]
  simp [mapBlocks, this]

theorem pixels_same {f g : Nat → Color8888} (h : ∀ k, k < 16 → f k = g k) :
    (List.range 16).map f = (List.range 16).map g :=
  List.map_congr_left fun k hk => h k (List.mem_range.1 hk)

theorem dec1 {b : Buf} (hb : b.length = 8) : Decode.bc1 b 0 = some ((List.range 16).map (pix1 b)) := by
  rw [bc1_at (by omega), slice_all hb]

theorem dec2 {b : Buf} (hb : b.length = 16) : Decode.bc2 b 0 = some ((List.range 16).map (pix2 b)) := by
  rw [bc2_at (by omega), slice_all hb]

theorem dec3 {b : Buf} (hb : b.length = 16) : Decode.bc3 b 0 = some ((List.range 16).map (pix3 b)) := by
  rw [bc3_at (by omega), slice_all hb]

/-- The pixels of a BC1 block that was normalized. -/
theorem norm1 (mode : Mode) {b : Buf} (hb : b.length = 8) : Decode.bc1 (Norm.Bc1.norm mode b) 0 = Decode.bc1 b 0 := by
  rw [dec1 hb, dec1 (Norm.Bc1.norm_length mode b hb), pixels_same fun k hk => Norm.Bc1.norm_pix mode b k hk]

theorem norm2 (mode : Mode) {b : Buf} (hb : b.length = 16) : Decode.bc2 (Norm.Bc2.norm mode b) 0 = Decode.bc2 b 0 := by
  rw [dec2 hb, dec2 (Norm.Bc2.norm_length mode b hb), pixels_same fun k hk => Norm.Bc2.norm_pix mode b hb k hk]

theorem norm3 (am : Norm.Bc3.AlphaMode) (cm : Mode) {b : Buf} (hb : b.length = 16) :
    Decode.bc3 (Norm.Bc3.norm am cm b) 0 = Decode.bc3 b 0 := by
  rw [dec3 hb, dec3 (Norm.Bc3.norm_length am cm b hb), pixels_same fun k hk => Norm.Bc3.norm_pix am cm b hb k hk]

/-- The rest of a target after the normalization: decode and compare. -/
theorem compare_ok {o p : Option Pixels} {px : Pixels} (ho : o = some px) (hp : p = o) :
    (p.bind fun d => assertEq px d) = some () := by
  rw [hp, ho]; exact assertEq_self _

/-- A store behind the part that was written. -/
theorem st_next {pre bs : Buf} {o k : Nat} (hp : pre.length = o) (h : bs.length ≤ k) :
    st (pre ++ List.replicate k 0) o bs = some ((pre ++ bs) ++ List.replicate (k - bs.length) 0) := by
  have hk : (pre ++ List.replicate k (0 : Byte)).length = o + k := by simp [hp]
  rw [st, if_pos (by omega), List.take_left' hp, List.drop_append, List.drop_of_length_le (l := pre) (by omega),
    List.nil_append, List.drop_replicate, hp, show k - (o + bs.length - o) = k - bs.length by omega]

theorem slices8 {b : Buf} (hb : b.length = 8) : slice b 0 4 ++ slice b 4 4 = b := by
  match b, hb with
  | [_, _, _, _, _, _, _, _], _ => rfl

theorem slices16 {b : Buf} (hb : b.length = 16) :
    slice b 0 8 ++ slice b 8 4 ++ slice b 12 4 = b ∧ slice b 0 2 ++ slice b 2 6 ++ slice b 8 4 ++ slice b 12 4 = b := by
  match b, hb with
  | [_, _, _, _, _, _, _, _, _, _, _, _, _, _, _, _], _ => exact ⟨rfl, rfl⟩

/-- **C82** (BC1). No block makes one of the three targets fail. -/
theorem C82_bc1 (b : Buf) (hb : b.length = 8) :
    bc1Normalize b = some () ∧ bc1AllModes b = some () ∧ bc1InPlace b = some () := by
  have ho : (List.replicate 8 (0 : Byte)).length = 8 := by simp
  have hn : ∀ mode, Norm.Bc1.normalizeBlocks (some b) (List.replicate 8 0) 8 mode = some (Norm.Bc1.norm mode b) := by
    intro mode
    have := Norm.Bc1.normalizeBlocks_eq (some b) (List.replicate 8 0) 1 mode (by simp [hb]) (by simp)
    rw [Option.getD_some, one_block hb ho] at this
    exact this
  refine ⟨?_, ?_, ?_⟩
  · unfold bc1Normalize
    rw [hn, hn]
    simp only [Option.bind_eq_bind, Option.bind_some, norm1 _ hb, dec1 hb, assertEq_self]
  · unfold bc1AllModes
    obtain ⟨outs, h1, h2, h3⟩ := Norm.Bc1.allModes_eq (.separate b) (List.replicate 3 (List.replicate 8 0)) b 1 (by simp) rfl
      (by omega) (fun x dst h => by
        rw [List.getElem?_replicate] at h
        split at h
        · cases h; simp
        · cases h)
    rw [Nat.one_mul] at h1
    simp only [h1, dec1 hb, Option.bind_eq_bind, Option.bind_some]
    refine each_ok fun o hmem => ?_
    obtain ⟨x, hx, hxo⟩ := List.getElem_of_mem hmem
    have hx3 : x < 3 := by rw [h2, List.length_replicate] at hx; exact hx
    have hout := h3 x (List.replicate 8 0) (by rw [List.getElem?_replicate, if_pos hx3])
    rw [one_block hb ho, List.getElem?_eq_getElem hx, hxo, Option.some.injEq] at hout
    refine compare_ok (dec1 hb) ?_
    rw [hout]
    by_cases h0 : x = 0
    · rw [h0, Norm.Bc1.modesOut_none (inp := .separate b) (fun k hk => Input.noConfusion hk)]
      split
      · rename_i hk
        have ht := Norm.Bc1.kind_transparent (b := b) (c := (Norm.Bc1.kind (pix1 b)).2) (Prod.ext hk rfl)
        rw [dec1 hb, dec1 (by simp)]
        exact congrArg some (pixels_same fun k hk => (pix1_ff k hk).trans (ht k hk).symm)
      · rfl
    · rw [Norm.Bc1.modesOut_mode (.separate b) (by omega), norm1 _ hb]
  · unfold bc1InPlace
    simp only [dec1 hb, Option.bind_eq_bind, Option.bind_some]
    refine each_ok fun mode _ => ?_
    have hb1 : ∀ i, i < 1 → ((fun _ : Nat => b) i).length = 8 := fun _ _ => hb
    have hs := Norm.Bc1.normalizeSplit_sep mode 1 (fun _ => b) hb1 [] [] []
    have hl := Norm.Bc1.norm_length mode b hb
    simp only [sect, List.range_succ, List.range_zero, List.nil_append, List.flatMap_cons, List.flatMap_nil, List.append_nil,
      List.length_nil] at hs
    rw [ld_some (by omega), ld_some (by omega)]
    simp only [Option.bind_some, hs, Option.getD_some]
    have l0 : (slice (Norm.Bc1.norm mode b) 0 4).length = 4 := slice_length_of_le (by omega)
    have l4 : (slice (Norm.Bc1.norm mode b) 4 4).length = 4 := slice_length_of_le (by omega)
    rw [ld_some (by omega), ld_some (by omega), slice_all l0, slice_all l4]
    have s1 := st_next (pre := []) (bs := slice (Norm.Bc1.norm mode b) 0 4) (o := 0) (k := 8) rfl (by omega)
    have s2 := st_next (pre := slice (Norm.Bc1.norm mode b) 0 4) (bs := slice (Norm.Bc1.norm mode b) 4 4) (o := 4) (k := 4)
      l0 (by omega)
    rw [List.nil_append, l0] at s1
    rw [l4] at s2
    simp only [Option.bind_some, s1, s2, Nat.reduceSub, List.replicate_zero, List.append_nil, List.nil_append, slices8 hl]
    exact compare_ok (dec1 hb) (norm1 mode hb)

theorem unless_of {b : Buf} (hb : b.length = 16) {rest : Option Unit} (h : rest = some ()) : unlessSkipped b rest = some () := by
  unfold unlessSkipped skipped ld16
  rw [ld_some (by omega), ld_some (by omega)]
  simp only [Option.bind_eq_bind, Option.bind_some, Option.map_some, Option.pure_def, h]
  split <;> rfl

/-- **C82** (BC2). No block makes one of the targets fail, and the normalization targets would not fail either if they did not
skip the blocks with `color0 <= color1`. -/
theorem C82_bc2 (b : Buf) (hb : b.length = 16) :
    (bc2Normalize b = some () ∧ bc2AllModes b = some () ∧ bc2InPlace b = some ()) ∧
    bc2NormalizeBody b = some () ∧ bc2AllModesBody b = some () ∧ bc2InPlaceBody b = some () := by
  have ho : (List.replicate 16 (0 : Byte)).length = 16 := by simp
  suffices h : bc2NormalizeBody b = some () ∧ bc2AllModesBody b = some () ∧ bc2InPlaceBody b = some () from
    ⟨⟨unless_of hb h.1, unless_of hb h.2.1, unless_of hb h.2.2⟩, h⟩
  have hn : ∀ mode, Norm.Bc2.normalizeBlocks (some b) (List.replicate 16 0) 16 mode = some (Norm.Bc2.norm mode b) := by
    intro mode
    have := Norm.Bc2.normalizeBlocks_eq (some b) (List.replicate 16 0) 1 mode (by simp [hb]) (by simp)
    rw [Option.getD_some, one_block hb ho] at this
    exact this
  refine ⟨?_, ?_, ?_⟩
  · unfold bc2NormalizeBody
    rw [hn, hn]
    simp only [Option.bind_eq_bind, Option.bind_some, norm2 _ hb, dec2 hb, assertEq_self]
  · unfold bc2AllModesBody
    obtain ⟨outs, h1, h2, h3⟩ := Norm.Bc2.allModes_eq (.separate b) (List.replicate 3 (List.replicate 16 0)) b 1 (by simp) rfl
      (by omega) (fun x dst h => by
        rw [List.getElem?_replicate] at h
        split at h
        · cases h; simp
        · cases h)
    rw [Nat.one_mul] at h1
    simp only [h1, dec2 hb, Option.bind_eq_bind, Option.bind_some]
    refine each_ok fun o hmem => ?_
    obtain ⟨x, hx, hxo⟩ := List.getElem_of_mem hmem
    have hx3 : x < 3 := by rw [h2, List.length_replicate] at hx; exact hx
    have hout := h3 x (List.replicate 16 0) (by rw [List.getElem?_replicate, if_pos hx3])
    rw [one_block hb ho, List.getElem?_eq_getElem hx, hxo, Option.some.injEq] at hout
    refine compare_ok (dec2 hb) ?_
    rw [hout, norm2 _ hb]
  · unfold bc2InPlaceBody
    simp only [dec2 hb, Option.bind_eq_bind, Option.bind_some]
    refine each_ok fun mode _ => ?_
    have hb1 : ∀ i, i < 1 → ((fun _ : Nat => b) i).length = 16 := fun _ _ => hb
    have hs := Norm.Bc2.normalizeSplit_eq mode 1 (fun _ => b) hb1 [] [] []
    have hl := Norm.Bc2.norm_length mode b hb
    simp only [sect, List.range_succ, List.range_zero, List.nil_append, List.flatMap_cons, List.flatMap_nil, List.append_nil]
      at hs
    rw [ld_some (by omega), ld_some (by omega), ld_some (by omega)]
    simp only [Option.bind_some, hs]
    have ha : slice (Norm.Bc2.norm mode b) 0 8 = slice b 0 8 := by
      rw [Norm.Bc2.norm, Norm.Bc2.write, slice_append_left _ _ _ _ (by simp [hb])]
      simp [slice, List.take_take]
    have l0 : (slice b 0 8).length = 8 := slice_length_of_le (by omega)
    have l8 : (slice (Norm.Bc2.norm mode b) 8 4).length = 4 := slice_length_of_le (by omega)
    have l12 : (slice (Norm.Bc2.norm mode b) 12 4).length = 4 := slice_length_of_le (by omega)
    rw [ld_some (by omega), ld_some (by omega), ld_some (by omega), slice_all l0, slice_all l8, slice_all l12]
    have s1 := st_next (pre := []) (bs := slice b 0 8) (o := 0) (k := 16) rfl (by omega)
    have s2 := st_next (pre := slice b 0 8) (bs := slice (Norm.Bc2.norm mode b) 8 4) (o := 8) (k := 8)
      l0 (by omega)
    have s3 := st_next (pre := slice b 0 8 ++ slice (Norm.Bc2.norm mode b) 8 4) (bs := slice (Norm.Bc2.norm mode b) 12 4)
      (o := 12) (k := 4) (by rw [List.length_append, l0, l8]) (by omega)
    rw [List.nil_append, l0] at s1
    rw [l8] at s2
    rw [l12] at s3
    simp only [Option.bind_some, s1, s2, s3, Nat.reduceSub, List.replicate_zero, List.append_nil, List.nil_append]
    rw [← ha, (slices16 hl).1]
    exact compare_ok (dec2 hb) (norm2 mode hb)

/-- **C82** (BC3). -/
theorem C82_bc3 (b : Buf) (hb : b.length = 16) :
    (bc3Normalize b = some () ∧ bc3AllModes b = some () ∧ bc3InPlace b = some ()) ∧
    bc3NormalizeBody b = some () ∧ bc3AllModesBody b = some () := by
  have ho : (List.replicate 16 (0 : Byte)).length = 16 := by simp
  suffices h : bc3NormalizeBody b = some () ∧ bc3AllModesBody b = some () ∧ bc3InPlace b = some () from
    ⟨⟨unless_of hb h.1, unless_of hb h.2.1, h.2.2⟩, h.1, h.2.1⟩
  have hn : ∀ am cm, Norm.Bc3.normalizeBlocks (some b) (List.replicate 16 0) 16 am cm = some (Norm.Bc3.norm am cm b) := by
    intro am cm
    have := Norm.Bc3.normalizeBlocks_eq (some b) (List.replicate 16 0) 1 am cm (by simp [hb]) (by simp)
    rw [Option.getD_some, one_block hb ho] at this
    exact this
  refine ⟨?_, ?_, ?_⟩
  · unfold bc3NormalizeBody
    simp only [dec3 hb, Option.bind_eq_bind, Option.bind_some]
    refine each_ok fun am _ => each_ok fun cm _ => ?_
    rw [hn]
    exact compare_ok (dec3 hb) (norm3 am cm hb)
  · unfold bc3AllModesBody
    obtain ⟨outs, h1, h2, h3⟩ := Norm.Bc3.allModes_eq b (List.replicate 12 (List.replicate 16 0)) 1 (by simp)
      (by omega) (fun x dst h => by
        rw [List.getElem?_replicate] at h
        split at h
        · cases h; simp
        · cases h)
    rw [Nat.one_mul] at h1
    simp only [h1, dec3 hb, Option.bind_eq_bind, Option.bind_some]
    refine each_ok fun o hmem => ?_
    obtain ⟨x, hx, hxo⟩ := List.getElem_of_mem hmem
    have hx3 : x < 12 := by rw [h2, List.length_replicate] at hx; exact hx
    have hout := h3 x (List.replicate 16 0) (by rw [List.getElem?_replicate, if_pos hx3])
    rw [one_block hb ho, List.getElem?_eq_getElem hx, hxo, Option.some.injEq] at hout
    refine compare_ok (dec3 hb) ?_
    rw [hout, norm3 _ _ hb]
  · unfold bc3InPlace
    simp only [dec3 hb, Option.bind_eq_bind, Option.bind_some]
    refine each_ok fun am _ => each_ok fun cm _ => ?_
    have hb1 : ∀ i, i < 1 → ((fun _ : Nat => b) i).length = 16 := fun _ _ => hb
    have hs := Norm.Bc3.normalizeSplit_eq am cm 1 (fun _ => b) hb1 [] [] [] []
    have hl := Norm.Bc3.norm_length am cm b hb
    simp only [Norm.Bc3.sections, sect, List.range_succ, List.range_zero, List.nil_append, List.flatMap_cons, List.flatMap_nil,
      List.append_nil] at hs
    rw [ld_some (by omega), ld_some (by omega), ld_some (by omega), ld_some (by omega)]
    simp only [Option.bind_some, hs]
    have h3 := norm3 am cm hb
    generalize Norm.Bc3.norm am cm b = n at *
    have l0 : (slice n 0 2).length = 2 := slice_length_of_le (by omega)
    have l2 : (slice n 2 6).length = 6 := slice_length_of_le (by omega)
    have l8 : (slice n 8 4).length = 4 := slice_length_of_le (by omega)
    have l12 : (slice n 12 4).length = 4 := slice_length_of_le (by omega)
    rw [ld_some (by omega), ld_some (by omega), ld_some (by omega), ld_some (by omega), slice_all l0, slice_all l2,
      slice_all l8, slice_all l12]
    have s1 := st_next (pre := []) (bs := slice n 0 2) (o := 0) (k := 16) rfl (by omega)
    have s2 := st_next (pre := slice n 0 2) (bs := slice n 2 6) (o := 2) (k := 14) l0 (by omega)
    have s3 := st_next (pre := slice n 0 2 ++ slice n 2 6) (bs := slice n 8 4) (o := 8) (k := 8)
      (by rw [List.length_append, l0, l2]) (by omega)
    have s4 := st_next (pre := slice n 0 2 ++ slice n 2 6 ++ slice n 8 4) (bs := slice n 12 4) (o := 12) (k := 4)
      (by rw [List.length_append, List.length_append, l0, l2, l8]) (by omega)
    rw [List.nil_append, l0] at s1
    rw [l2] at s2
    rw [l8] at s3
    rw [l12] at s4
    simp only [Option.bind_some, s1, s2, s3, s4, Nat.reduceSub, List.replicate_zero, List.append_nil, List.nil_append,
      (slices16 hl).2]
    exact compare_ok (dec3 hb) h3

/-! ## The decoder targets -/

theorem skipped_eq {b : Buf} (hb : b.length = 16) : skipped b = some (decide (le (slice b 8 2) ≤ le (slice b 10 2))) := by
  unfold skipped
  rw [ld16_some (by omega), ld16_some (by omega)]
  simp only [Option.bind_eq_bind, Option.bind_some, Option.pure_def, Color565.greaterThan, Option.some.injEq]
  rw [← le16 (slice_length_of_le (by omega)), ← le16 (slice_length_of_le (by omega))]
  by_cases h : (of16 .little (slice b 10 2)).toNat < (of16 .little (slice b 8 2)).toNat
  · simp [h, BitVec.lt_def]
  · simp [h, BitVec.lt_def]
    omega

theorem each_iff {α : Type} {xs : List α} {body : α → Option Unit} :
    each xs body = some () ↔ ∀ x ∈ xs, body x = some () := by
  refine ⟨fun h => ?_, each_ok⟩
  induction xs with
  | nil => intro x hx; cases hx
  | cons x xs ih =>
    unfold each at h
    cases hx : body x with
    | none => rw [hx] at h; cases h
    | some u =>
      rw [hx] at h
      intro y hy
      rcases List.mem_cons.1 hy with rfl | hy
      · exact hx
      · exact ih h y hy

theorem rgb_eq {x y : Color8888} : (x.r = y.r ∧ x.g = y.g ∧ x.b = y.b) ↔
    ((rgba x).1 = (rgba y).1 ∧ (rgba x).2.1 = (rgba y).2.1 ∧ (rgba x).2.2.1 = (rgba y).2.2.1) := by
  simp only [rgba, BitVec.toNat_inj]

/-- The colours of the two decoders are compared, pixel by pixel. -/
theorem colorOnly_iff (b : Buf) (hb : b.length = 16) :
    bc2ColorOnlyBody b = some () ↔ ∀ k, k < 16 →
      ((bc1Pixel (slice b 8 8) k).1, (bc1Pixel (slice b 8 8) k).2.1, (bc1Pixel (slice b 8 8) k).2.2.1) = opaqueColour b k := by
  have hd : slice b 8 8 = b.drop 8 := by
    unfold slice; exact List.take_of_length_le (by simp [hb])
  have hl : (b.drop 8).length = 8 := by simp [hb]
  unfold bc2ColorOnlyBody
  rw [dec1 hl, dec2 hb]
  simp only [Option.bind_eq_bind, Option.bind_some]
  rw [each_iff]
  refine ⟨fun h k hk => ?_, fun h k hk => ?_⟩
  · have h' := h k (List.mem_range.2 hk)
    simp only [List.getElem?_map, List.getElem?_range hk, Option.map_some, Option.bind_some] at h'
    have hc : (pix1 (b.drop 8) k).r = (pix2 b k).r ∧ (pix1 (b.drop 8) k).g = (pix2 b k).g ∧ (pix1 (b.drop 8) k).b = (pix2 b k).b := by
      unfold assertEq at h'
      split at h'
      · split at h'
        · split at h'
          · exact ⟨‹_›, ‹_›, ‹_›⟩
          · cases h'
        · cases h'
      · cases h'
    rw [rgb_eq, pix1_spec hl hk, pix2_spec hb hk] at hc
    rw [hd, hc.1, hc.2.1, hc.2.2]
    rfl
  · have hk := List.mem_range.1 hk
    have h' := h k hk
    have hc : (pix1 (b.drop 8) k).r = (pix2 b k).r ∧ (pix1 (b.drop 8) k).g = (pix2 b k).g ∧ (pix1 (b.drop 8) k).b = (pix2 b k).b := by
      rw [rgb_eq, pix1_spec hl hk, pix2_spec hb hk, ← hd]
      have e : opaqueColour b k = ((bc2Pixel b k).1, (bc2Pixel b k).2.1, (bc2Pixel b k).2.2.1) := rfl
      rw [e, Prod.mk.injEq, Prod.mk.injEq] at h'
      exact h'
    simp only [List.getElem?_map, List.getElem?_range hk, Option.map_some, Option.bind_some, hc.1, hc.2.1, hc.2.2, assertEq_self]

/-- **C82** (colours of BC1 and BC2). The target that compares the BC2 decoder with the BC1 decoder never fails. -/
theorem C82_color_only (b : Buf) (hb : b.length = 16) : bc2ColorOnly b = some () := by
  unfold bc2ColorOnly unlessSkipped
  rw [skipped_eq hb]
  simp only [Option.bind_eq_bind, Option.bind_some, decide_eq_true_eq]
  split
  · rfl
  · rename_i h
    rw [colorOnly_iff b hb]
    intro k _
    unfold bc1Pixel bc1Palette opaqueColour
    rw [slice_slice _ _ _ _ _ (by omega), slice_slice _ _ _ _ _ (by omega), slice_slice _ _ _ _ _ (by omega)]
    simp only [Nat.add_zero, Nat.reduceAdd]
    rw [if_pos (by omega)]
    rfl

/-- A list of sixteen pixels against the pixels of the format. -/
theorem pixels_iff {f : Nat → Color8888} {spec : Nat → Rgba} {px : Pixels} (hs : ∀ k, k < 16 → rgba (f k) = spec k) :
    assertEq ((List.range 16).map f) px = some () ↔ px.map rgba = (List.range 16).map spec := by
  rw [assertEq_iff]
  have e : (List.range 16).map spec = ((List.range 16).map f).map rgba := by
    rw [List.map_map]
    exact List.map_congr_left fun k hk => (hs k (List.mem_range.1 hk)).symm
  rw [e]
  refine ⟨fun h => by rw [h], fun h => ?_⟩
  exact ((List.map_inj_right fun _ _ => rgba_inj).1 h).symm

theorem unless_iff {b : Buf} (hb : b.length = 16) {rest : Option Unit} :
    unlessSkipped b rest = some () ↔ (le (slice b 10 2) < le (slice b 8 2) → rest = some ()) := by
  unfold unlessSkipped
  rw [skipped_eq hb]
  simp only [Option.bind_eq_bind, Option.bind_some, decide_eq_true_eq]
  split
  · exact ⟨fun _ h => absurd h (by omega), fun _ => rfl⟩
  · exact ⟨fun h _ => h, fun h => h (by omega)⟩

/-- **C82** (decoders). The targets that compare with a foreign decoder return exactly if that decoder gives the pixels of the
format: for every block for BC1, and for the blocks with `color0 > color1` for BC2 (colours from one decoder, alpha from the
other) and BC3. -/
theorem C82_decode (unpackBc1 bcdec : Buf → Pixels) (b : Buf) :
    (b.length = 8 → (bc1Decode unpackBc1 b = some () ↔ (unpackBc1 b).map rgba = (List.range 16).map (bc1Pixel b))) ∧
    (b.length = 16 → (bc3Decode bcdec b = some () ↔
      (le (slice b 10 2) < le (slice b 8 2) → (bcdec b).map rgba = (List.range 16).map (bc3Pixel b)))) ∧
    (b.length = 16 → (unpackBc1 (b.drop 8)).length = 16 → (bcdec b).length = 16 → (bc2Decode unpackBc1 bcdec b = some () ↔
      (le (slice b 10 2) < le (slice b 8 2) → ∀ k, k < 16 → ∃ p q, (unpackBc1 (b.drop 8))[k]? = some p ∧ (bcdec b)[k]? = some q ∧
        bc2Pixel b k = ((rgba p).1, (rgba p).2.1, (rgba p).2.2.1, (rgba q).2.2.2)))) := by
  refine ⟨fun hb => ?_, fun hb => ?_, fun hb h1 h2 => ?_⟩
  · unfold bc1Decode
    rw [dec1 hb]
    exact pixels_iff fun k hk => pix1_spec hb hk
  · unfold bc3Decode
    rw [unless_iff hb, dec3 hb]
    exact imp_congr_right fun _ => pixels_iff fun k hk => pix3_spec hb hk
  · unfold bc2Decode
    rw [unless_iff hb, dec2 hb]
    refine imp_congr_right fun _ => ?_
    simp only [Option.bind_eq_bind, Option.bind_some]
    rw [pixels_iff fun k hk => pix2_spec hb hk]
    have hlen : (hybridBc2 unpackBc1 bcdec b).length = 16 := by simp [hybridBc2, h1, h2]
    have at_k : ∀ k (hk : k < 16), (hybridBc2 unpackBc1 bcdec b)[k]'(by omega) =
        { (unpackBc1 (b.drop 8))[k]'(by omega) with a := ((bcdec b)[k]'(by omega)).a } := by
      intro k hk
      simp [hybridBc2]
    refine ⟨fun h k hk => ⟨_, _, List.getElem?_eq_getElem (by omega), List.getElem?_eq_getElem (by omega), ?_⟩, fun h => ?_⟩
    · have hk' : ((hybridBc2 unpackBc1 bcdec b).map rgba)[k]? = ((List.range 16).map fun k => bc2Pixel b k)[k]? := by rw [h]
      rw [List.getElem?_map, List.getElem?_map, List.getElem?_range hk, List.getElem?_eq_getElem (by omega), at_k k hk] at hk'
      exact (Option.some.inj hk').symm
    · refine List.ext_getElem (by simp [hlen]) fun k hk _ => ?_
      have hk : k < 16 := by simpa [hlen] using hk
      obtain ⟨p, q, hp, hq, e1⟩ := h k hk
      rw [List.getElem?_eq_getElem (by omega), Option.some.injEq] at hp hq
      simp only [List.getElem_map, List.getElem_range, at_k k hk, hp, hq]
      rw [e1]
      rfl

/-- A block with `color0 <= color1` for which the comparison of the colours does fail, so that skipping it is necessary; the
normalization targets return for it. -/
example : (bc2ColorOnlyBody [1,2,3,4,5,6,7,8, 0,0, 0xFF,0xFF, 0xFF,0xFF,0xFF,0xFF] = none) ∧
    bc2ColorOnly [1,2,3,4,5,6,7,8, 0,0, 0xFF,0xFF, 0xFF,0xFF,0xFF,0xFF] = some () ∧
    bc2NormalizeBody [1,2,3,4,5,6,7,8, 0,0, 0xFF,0xFF, 0xFF,0xFF,0xFF,0xFF] = some () := by
  refine ⟨by decide, C82_color_only _ rfl, (C82_bc2 _ rfl).2.1⟩

/-- A reference decoder that forgets the transparent index is found out by the first transparent pixel. -/
example : bc1Decode (fun _ => List.replicate 16 ⟨0, 0, 0, 255⟩) [0,0, 0,0, 0,0,0,0] = some () ∧
    bc1Decode (fun _ => List.replicate 16 ⟨0, 0, 0, 255⟩) [0,0, 0,0, 3,0,0,0] = none := by decide

end Dlt.Props
