import Verif.Props.Locality
/-!
# C121: how a block is stored depends on the block alone

Not on its place, the number of blocks, the other blocks or the CPU; and different blocks are stored differently.
-/

namespace Dlt.Props
open Spec

/-! ## Specification -/

/-- Block `i` of a transformed texture of `n` blocks and block `j` of one of `n'` blocks have the same bytes in every section;
`ws` are the widths of the sections (`sections1`, `sections2`, `sections3` of C83). -/
def StoredAlike (ws : List Nat) (n i : Nat) (x : Buf) (n' j : Nat) (y : Buf) : Prop :=
  ∀ k w, ws[k]? = some w → slice x (n * (ws.take k).sum + i * w) w = slice y (n' * (ws.take k).sum + j * w) w

/-! ## Proof -/

theorem fieldsAt_alike {n n' i j : Nat} {a b : Buf} :
    ∀ (base base' : Nat) (ws : List Nat),
      (∀ k w, ws[k]? = some w → slice a (base + n * (ws.take k).sum + i * w) w = slice b (base' + n' * (ws.take k).sum + j * w) w) →
      fieldsAt n a i base ws = fieldsAt n' b j base' ws
  | _, _, [], _ => rfl
  | base, base', w :: ws, h => by
    rw [fieldsAt, fieldsAt]
    congr 1
    · simpa using h 0 w rfl
    · refine fieldsAt_alike _ _ ws fun k v hk => ?_
      have := h (k + 1) v hk
      simp only [List.take_succ_cons, List.sum_cons, Nat.mul_add, ← Nat.add_assoc] at this
      exact this

theorem alike_iff {B n n' i j : Nat} {ws : List Nat} {fs : List (Buf → Buf)} {g : List Buf → Buf} (hB : 0 < B) (hsum : ws.sum = B)
    (hfit : Fits B fs ws) (hg : ∀ l, Shape l ws → (g l).length = B) {a b : Buf} (ha : a.length = n * B) (hb : b.length = n' * B)
    (hea : columns B fs (unsoa n ws g a) = a) (heb : columns B fs (unsoa n' ws g b) = b) (hi : i < n) (hj : j < n') :
    StoredAlike ws n i a n' j b ↔ block B (unsoa n ws g a) i = block B (unsoa n' ws g b) j := by
  constructor
  · intro h
    rw [block_unsoa (by rw [hsum, ha]) hg hi, block_unsoa (by rw [hsum, hb]) hg hj]
    congr 1
    refine fieldsAt_alike 0 0 ws fun k w hw => ?_
    rw [Nat.zero_add, Nat.zero_add]
    exact h k w hw
  · rintro h k w hw
    obtain ⟨f, hf⟩ := fits_get hfit hw
    have hsl : ∀ (c : Buf) (n i : Nat), i < n → c.length = n * B → columns B fs (unsoa n ws g c) = c →
        slice c (n * (ws.take k).sum + i * w) w = f (block B (unsoa n ws g c) i) := by
      intro c n i hi hc hec
      have hlen : (unsoa n ws g c).length = n * B := unsoa_length (by rw [hsum]; omega) hg
      have := columns_slice hB hlen [] (i := i) (N := 1) (by omega) k hfit hf hw rfl
      rw [List.append_nil, hec, Nat.one_mul] at this
      rw [this, show i = i + 0 from rfl, block_eq_mk hlen (by omega)]
      simp
    rw [hsl a n i hi ha hea, hsl b n' j hj hb heb, h]

/-- What follows the sections does not matter. -/
theorem alike_tail {ws : List Nat} {n n' i j : Nat} {a b : Buf} (ha : a.length = n * ws.sum) (hb : b.length = n' * ws.sum) (hi : i < n)
    (hj : j < n') (t t' : Buf) : StoredAlike ws n i (a ++ t) n' j (b ++ t') ↔ StoredAlike ws n i a n' j b := by
  have key : ∀ (n i : Nat) (c t : Buf) (k w : Nat), i < n → c.length = n * ws.sum → ws[k]? = some w →
      slice (c ++ t) (n * (ws.take k).sum + i * w) w = slice c (n * (ws.take k).sum + i * w) w := by
    intro n i c t k w hi hc hw
    have h1 := section_end hi hw
    rw [Nat.succ_mul] at h1
    exact slice_append_left _ _ _ _ (by omega)
  constructor
  · intro h k w hw
    have := h k w hw
    rwa [key n i a t k w hi ha hw, key n' j b t' k w hj hb hw] at this
  · intro h k w hw
    rw [key n i a t k w hi ha hw, key n' j b t' k w hj hb hw]
    exact h k w hw

theorem alike1 (s : ColourSettings) {n n' i j : Nat} (e : Endian) {a b : Buf} (ha : a.length = n * 8) (hb : b.length = n' * 8) (hi : i < n) (hj : j < n') :
    StoredAlike (sections1 s.split) n i a n' j b ↔ block 8 (Bc1.decode e s a) i = block 8 (Bc1.decode e s b) j := by
  have hw : sections1 s.split = Bc1.widths s.split := by cases s.split <;> rfl
  have h := fun c (hc : c.length % 8 = 0) => Bc1.encode_decode e s c hc
  simp only [Bc1.encode, Bc1.decode] at h ⊢
  rw [ha, hb, Nat.mul_div_cancel _ (by omega), Nat.mul_div_cancel _ (by omega), hw]
  refine alike_iff (by omega) (Bc1.widths_sum _) (Bc1.fits (col := encCol e s.decorr) (fun _ _ => encCol_length _ _ _) s.split)
    (Bc1.unFields_length (fun _ _ => decCol_length _ _ _) s.split) ha hb ?_ ?_ hi hj
  · have := h a (by omega)
    rwa [ha, Nat.mul_div_cancel _ (by omega)] at this
  · have := h b (by omega)
    rwa [hb, Nat.mul_div_cancel _ (by omega)] at this

theorem sections1_sum (split : Bool) : (sections1 split).sum = 8 := by cases split <;> rfl

theorem alike2 (s : ColourSettings) {n n' i j : Nat} (e : Endian) {a b : Buf} (ha : a.length = n * 16) (hb : b.length = n' * 16) (hi : i < n) (hj : j < n') :
    StoredAlike (sections2 s.split) n i a n' j b ↔ block 16 (Bc2.decode e s a) i = block 16 (Bc2.decode e s b) j := by
  have hw : sections2 s.split = Bc2.widths s.split := by cases s.split <;> rfl
  have h := fun c (hc : c.length % 16 = 0) => Bc2.encode_decode e s c hc
  simp only [Bc2.encode, Bc2.decode] at h ⊢
  rw [ha, hb, Nat.mul_div_cancel _ (by omega), Nat.mul_div_cancel _ (by omega), hw]
  refine alike_iff (by omega) (Bc2.widths_sum _) (Bc2.fits (col := encCol e s.decorr) (fun _ _ => encCol_length _ _ _) s.split)
    (Bc2.unFields_length (fun _ _ => decCol_length _ _ _) s.split) ha hb ?_ ?_ hi hj
  · have := h a (by omega)
    rwa [ha, Nat.mul_div_cancel _ (by omega)] at this
  · have := h b (by omega)
    rwa [hb, Nat.mul_div_cancel _ (by omega)] at this

theorem sections2_sum (split : Bool) : (sections2 split).sum = 16 := by cases split <;> rfl

theorem alike3 (s : Bc3.Settings) {n n' i j : Nat} (e : Endian) {a b : Buf} (ha : a.length = n * 16) (hb : b.length = n' * 16) (hi : i < n) (hj : j < n') :
    StoredAlike (sections3 s.splitAlpha s.splitColour) n i a n' j b ↔ block 16 (Bc3.decode e s a) i = block 16 (Bc3.decode e s b) j := by
  have hw : sections3 s.splitAlpha s.splitColour = Bc3.widths s.splitAlpha s.splitColour := by cases s.splitAlpha <;> cases s.splitColour <;> rfl
  have h := fun c (hc : c.length % 16 = 0) => Bc3.encode_decode e s c hc
  simp only [Bc3.encode, Bc3.decode] at h ⊢
  rw [ha, hb, Nat.mul_div_cancel _ (by omega), Nat.mul_div_cancel _ (by omega), hw]
  refine alike_iff (by omega) (Bc3.widths_sum _ _) (Bc3.fits (col := encCol e s.decorr) (fun _ _ => encCol_length _ _ _) s.splitAlpha s.splitColour)
    (Bc3.unFields_length (fun _ _ => decCol_length _ _ _) s.splitAlpha s.splitColour) ha hb ?_ ?_ hi hj
  · have := h a (by omega)
    rwa [ha, Nat.mul_div_cancel _ (by omega)] at this
  · have := h b (by omega)
    rwa [hb, Nat.mul_div_cancel _ (by omega)] at this

theorem sections3_sum (sa sc : Bool) : (sections3 sa sc).sum = 16 := by cases sa <;> cases sc <;> rfl

/-- **C121** (BC1): a block of one texture and a block of another (or the same) are stored alike exactly if they are equal, and two blocks restored
are equal exactly if they were stored alike. -/
theorem C121_bc1 (m m' : Machine) (hm : m.endian = m'.endian) (s : ColourSettings) (n n' : Nat) (a b out out' : Buf) (ha : a.length = n * 8)
    (hb : b.length = n' * 8) (ho : n * 8 ≤ out.length) (ho' : n' * 8 ≤ out'.length) :
    (∃ x y, Bc1.transformWithSettings m a out a.length s = some x ∧ Bc1.transformWithSettings m' b out' b.length s = some y ∧
      ∀ i j, i < n → j < n' → (StoredAlike (sections1 s.split) n i x n' j y ↔ block 8 a i = block 8 b j)) ∧
    (∃ x y, Bc1.untransformWithSettings m a out a.length s = some x ∧ Bc1.untransformWithSettings m' b out' b.length s = some y ∧
      ∀ i j, i < n → j < n' → (block 8 x i = block 8 y j ↔ StoredAlike (sections1 s.split) n i a n' j b)) := by
  have h8 : ∀ (c : Buf) (n : Nat), c.length = n * 8 → c.length % 8 = 0 := fun c n hc => by omega
  constructor
  · obtain ⟨la, ea⟩ := Bc1.transform_impl m s a out (h8 a n ha) (by omega)
    obtain ⟨lb, eb⟩ := Bc1.transform_impl m' s b out' (h8 b n' hb) (by omega)
    refine ⟨_, _, ea, eb, fun i j hi hj => ?_⟩
    rw [alike_tail (by rw [sections1_sum, la, ha]) (by rw [sections1_sum, lb, hb]) hi hj, alike1 s m.endian (by omega) (by omega) hi hj,
      Bc1.decode_encode _ _ _ (h8 a n ha), hm, Bc1.decode_encode _ _ _ (h8 b n' hb)]
  · obtain ⟨la, ea⟩ := Bc1.untransform_impl m s a out (h8 a n ha) (by omega)
    obtain ⟨lb, eb⟩ := Bc1.untransform_impl m' s b out' (h8 b n' hb) (by omega)
    refine ⟨_, _, ea, eb, fun i j hi hj => ?_⟩
    have key : ∀ (c t : Buf) (n i : Nat), i < n → c.length = n * 8 → block 8 (c ++ t) i = block 8 c i := by
      intro c t n i hi hc
      have h1 : (i + 1) * 8 ≤ n * 8 := Nat.mul_le_mul_right _ hi
      exact slice_append_left _ _ _ _ (by omega)
    rw [key _ _ n i hi (by omega), key _ _ n' j hj (by omega), ← hm, alike1 s m.endian ha hb hi hj]

/-- **C121** (BC2): a block of one texture and a block of another (or the same) are stored alike exactly if they are equal, and two blocks restored
are equal exactly if they were stored alike. -/
theorem C121_bc2 (m m' : Machine) (hm : m.endian = m'.endian) (s : ColourSettings) (n n' : Nat) (a b out out' : Buf) (ha : a.length = n * 16)
    (hb : b.length = n' * 16) (ho : n * 16 ≤ out.length) (ho' : n' * 16 ≤ out'.length) :
    (∃ x y, Bc2.transformWithSettings m a out a.length s = some x ∧ Bc2.transformWithSettings m' b out' b.length s = some y ∧
      ∀ i j, i < n → j < n' → (StoredAlike (sections2 s.split) n i x n' j y ↔ block 16 a i = block 16 b j)) ∧
    (∃ x y, Bc2.untransformWithSettings m a out a.length s = some x ∧ Bc2.untransformWithSettings m' b out' b.length s = some y ∧
      ∀ i j, i < n → j < n' → (block 16 x i = block 16 y j ↔ StoredAlike (sections2 s.split) n i a n' j b)) := by
  have h8 : ∀ (c : Buf) (n : Nat), c.length = n * 16 → c.length % 16 = 0 := fun c n hc => by omega
  constructor
  · obtain ⟨la, ea⟩ := Bc2.transform_impl m s a out (h8 a n ha) (by omega)
    obtain ⟨lb, eb⟩ := Bc2.transform_impl m' s b out' (h8 b n' hb) (by omega)
    refine ⟨_, _, ea, eb, fun i j hi hj => ?_⟩
    rw [alike_tail (by rw [sections2_sum, la, ha]) (by rw [sections2_sum, lb, hb]) hi hj, alike2 s m.endian (by omega) (by omega) hi hj,
      Bc2.decode_encode _ _ _ (h8 a n ha), hm, Bc2.decode_encode _ _ _ (h8 b n' hb)]
  · obtain ⟨la, ea⟩ := Bc2.untransform_impl m s a out (h8 a n ha) (by omega)
    obtain ⟨lb, eb⟩ := Bc2.untransform_impl m' s b out' (h8 b n' hb) (by omega)
    refine ⟨_, _, ea, eb, fun i j hi hj => ?_⟩
    have key : ∀ (c t : Buf) (n i : Nat), i < n → c.length = n * 16 → block 16 (c ++ t) i = block 16 c i := by
      intro c t n i hi hc
      have h1 : (i + 1) * 16 ≤ n * 16 := Nat.mul_le_mul_right _ hi
      exact slice_append_left _ _ _ _ (by omega)
    rw [key _ _ n i hi (by omega), key _ _ n' j hj (by omega), ← hm, alike2 s m.endian ha hb hi hj]

/-- **C121** (BC3): a block of one texture and a block of another (or the same) are stored alike exactly if they are equal, and two blocks restored
are equal exactly if they were stored alike. -/
theorem C121_bc3 (m m' : Machine) (hm : m.endian = m'.endian) (s : Bc3.Settings) (n n' : Nat) (a b out out' : Buf) (ha : a.length = n * 16)
    (hb : b.length = n' * 16) (ho : n * 16 ≤ out.length) (ho' : n' * 16 ≤ out'.length) :
    (∃ x y, Bc3.transformWithSettings m a out a.length s = some x ∧ Bc3.transformWithSettings m' b out' b.length s = some y ∧
      ∀ i j, i < n → j < n' → (StoredAlike (sections3 s.splitAlpha s.splitColour) n i x n' j y ↔ block 16 a i = block 16 b j)) ∧
    (∃ x y, Bc3.untransformWithSettings m a out a.length s = some x ∧ Bc3.untransformWithSettings m' b out' b.length s = some y ∧
      ∀ i j, i < n → j < n' → (block 16 x i = block 16 y j ↔ StoredAlike (sections3 s.splitAlpha s.splitColour) n i a n' j b)) := by
  have h8 : ∀ (c : Buf) (n : Nat), c.length = n * 16 → c.length % 16 = 0 := fun c n hc => by omega
  constructor
  · obtain ⟨la, ea⟩ := Bc3.transform_impl m s a out (h8 a n ha) (by omega)
    obtain ⟨lb, eb⟩ := Bc3.transform_impl m' s b out' (h8 b n' hb) (by omega)
    refine ⟨_, _, ea, eb, fun i j hi hj => ?_⟩
    rw [alike_tail (by rw [sections3_sum, la, ha]) (by rw [sections3_sum, lb, hb]) hi hj, alike3 s m.endian (by omega) (by omega) hi hj,
      Bc3.decode_encode _ _ _ (h8 a n ha), hm, Bc3.decode_encode _ _ _ (h8 b n' hb)]
  · obtain ⟨la, ea⟩ := Bc3.untransform_impl m s a out (h8 a n ha) (by omega)
    obtain ⟨lb, eb⟩ := Bc3.untransform_impl m' s b out' (h8 b n' hb) (by omega)
    refine ⟨_, _, ea, eb, fun i j hi hj => ?_⟩
    have key : ∀ (c t : Buf) (n i : Nat), i < n → c.length = n * 16 → block 16 (c ++ t) i = block 16 c i := by
      intro c t n i hi hc
      have h1 : (i + 1) * 16 ≤ n * 16 := Nat.mul_le_mul_right _ hi
      exact slice_append_left _ _ _ _ (by omega)
    rw [key _ _ n i hi (by omega), key _ _ n' j hj (by omega), ← hm, alike3 s m.endian ha hb hi hj]

/-! ## Two concrete textures -/

/-- The sections of block `i`, for the example. -/
def storedOf (ws : List Nat) (n i : Nat) (x : Buf) : List Buf :=
  (List.range ws.length).map fun k => slice x (n * (ws.take k).sum + i * ws.getD k 0) (ws.getD k 0)

/-- One block, and a texture of two blocks with it in the second place: variant 1, split colours.  The block is stored alike in both, the
other one differently. -/
example :
    (Bc1.transformWithSettings (.other .little fun _ => 0) [0xA3, 0x51, 0x00, 0xF8, 1, 2, 3, 4] (List.replicate 8 9) 8 ⟨.v1, true⟩).map
      (storedOf (sections1 true) 1 0) = some [[0xE0, 0x31], [0xD1, 0xBF], [1, 2, 3, 4]] ∧
    (Bc1.transformWithSettings (.other .little fun _ => 0) [0xA3, 0x51, 0x87, 0x72, 1, 2, 3, 4, 0xA3, 0x51, 0x00, 0xF8, 1, 2, 3, 4]
      (List.replicate 17 9) 16 ⟨.v1, true⟩).map (fun x => [0, 1].map fun i => storedOf (sections1 true) 2 i x) =
      some [[[0xE0, 0x31], [0xC0, 0x51], [1, 2, 3, 4]], [[0xE0, 0x31], [0xD1, 0xBF], [1, 2, 3, 4]]] := by decide +kernel

end Dlt.Props
