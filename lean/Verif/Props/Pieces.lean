import Verif.Props.Rearrange
/-!
# C95: textures can be transformed in pieces

The sections of two transformed pieces, joined section by section, are those of the whole texture, and the other way round.
-/

namespace Dlt.Props
open Spec

/-- The sections of `z` are those of `x` (`na` blocks), each followed by that of `y` (`nb` blocks). -/
def Joined (ws : List Nat) (na nb : Nat) (x y z : Buf) : Prop :=
  ∀ k w, ws[k]? = some w → slice z ((na + nb) * start ws k) ((na + nb) * w) =
    slice x (na * start ws k) (na * w) ++ slice y (nb * start ws k) (nb * w)

theorem column_append {B na nb : Nat} {a b : Buf} (hB : 0 < B) (ha : a.length = na * B) (hb : b.length = nb * B) (f : Buf → Buf) :
    column B (a ++ b) f = column B a f ++ column B b f := by
  have hab : (a ++ b).length = (na + nb) * B := by rw [List.length_append, ha, hb, Nat.add_mul]
  unfold column
  rw [length_div hB hab, length_div hB ha, length_div hB hb, List.range_add, List.flatMap_append, List.flatMap_map]
  congr 1
  · rw [List.flatMap_def, List.flatMap_def]
    congr 1
    apply List.map_congr_left
    intro i hi
    rw [List.mem_range] at hi
    have : (i + 1) * B ≤ na * B := Nat.mul_le_mul_right _ hi
    rw [Nat.succ_mul] at this
    unfold block
    rw [slice_append_left _ _ _ _ (by omega)]
  · rw [List.flatMap_def, List.flatMap_def]
    congr 1
    apply List.map_congr_left
    intro i _
    unfold block
    rw [slice_append_right _ _ _ (i * B) _ (by rw [ha, Nat.add_mul])]

theorem section_column {B n : Nat} {data : Buf} (hB : 0 < B) (hd : data.length = n * B) (tail : Buf) :
    ∀ {fs : List (Buf → Buf)} {ws : List Nat} {k w : Nat} {f : Buf → Buf}, Fits B fs ws → fs[k]? = some f → ws[k]? = some w →
      slice (columns B fs data ++ tail) (n * start ws k) (n * w) = column B data f := by
  intro fs ws k w f hfit hf hw
  have := columns_slice hB hd tail (i := 0) (N := n) (by omega) k hfit hf hw rfl
  rw [Nat.zero_mul, Nat.add_zero] at this
  unfold start
  rw [this]
  unfold column
  rw [length_div hB hd, List.flatMap_def, List.flatMap_def]
  congr 1
  apply List.map_congr_left
  intro i hi
  rw [List.mem_range] at hi
  have := block_eq_mk hd (i := 0) (k := i) (by omega)
  rw [Nat.zero_add] at this
  rw [this]

/-- The layout of the whole is the layouts of the pieces joined. -/
theorem columns_joined {B na nb : Nat} {a b ta tb tc : Buf} {fs : List (Buf → Buf)} {ws : List Nat} (hB : 0 < B)
    (hfit : Fits B fs ws) (ha : a.length = na * B) (hb : b.length = nb * B) :
    Joined ws na nb (columns B fs a ++ ta) (columns B fs b ++ tb) (columns B fs (a ++ b) ++ tc) := by
  intro k w hw
  obtain ⟨f, hf⟩ := fits_get hfit hw
  have hab : (a ++ b).length = (na + nb) * B := by rw [List.length_append, ha, hb, Nat.add_mul]
  rw [section_column hB hab tc hfit hf hw, section_column hB ha ta hfit hf hw, section_column hB hb tb hfit hf hw,
    column_append hB ha hb]

/-- A string is determined by its sections. -/
theorem sections_ext {n : Nat} : ∀ (ws : List Nat) (x y : Buf), x.length = n * ws.sum → y.length = n * ws.sum →
    (∀ k w, ws[k]? = some w → slice x (n * start ws k) (n * w) = slice y (n * start ws k) (n * w)) → x = y
  | [], x, y, hx, hy, _ => by
    simp at hx hy
    rw [hx, hy]
  | w :: ws, x, y, hx, hy, h => by
    have h0 := h 0 w rfl
    simp only [start, List.take_zero, List.sum_nil, Nat.mul_zero] at h0
    have hr : x.drop (n * w) = y.drop (n * w) := by
      rw [List.sum_cons, Nat.mul_add] at hx hy
      refine sections_ext (n := n) ws _ _ (by rw [List.length_drop]; omega) (by rw [List.length_drop]; omega) fun k v hv => ?_
      have := h (k + 1) v hv
      simp only [start, List.take_succ_cons, List.sum_cons, Nat.mul_add] at this
      simpa only [slice, start, List.drop_drop] using this
    rw [← List.take_append_drop (n * w) x, ← List.take_append_drop (n * w) y, hr]
    simp only [slice, List.drop_zero] at h0
    rw [h0]

/-- Joining is a function of the two pieces. -/
theorem joined_unique {ws : List Nat} {na nb : Nat} {x y z z' : Buf} (hz : z.length = (na + nb) * ws.sum)
    (hz' : z'.length = (na + nb) * ws.sum) (h : Joined ws na nb x y z) (h' : Joined ws na nb x y z') : z = z' :=
  sections_ext ws z z' hz hz' fun k w hw => (h k w hw).trans (h' k w hw).symm

/-- **C95** (BC1). -/
theorem C95_bc1 (m ma mb : Machine) (hea : ma.endian = m.endian) (heb : mb.endian = m.endian) (s : ColourSettings) (na nb : Nat)
    (a b out outa outb : Buf) (ha : a.length = na * 8) (hb : b.length = nb * 8) (ho : (na + nb) * 8 ≤ out.length)
    (hoa : na * 8 ≤ outa.length) (hob : nb * 8 ≤ outb.length) :
    (∃ oa ob o, Bc1.transformWithSettings ma a outa a.length s = some oa ∧
      Bc1.transformWithSettings mb b outb b.length s = some ob ∧
      Bc1.transformWithSettings m (a ++ b) out (a ++ b).length s = some o ∧ Joined (sections1 s.split) na nb oa ob o) ∧
    (∀ z : Buf, z.length = (na + nb) * 8 → Joined (sections1 s.split) na nb a b z →
      ∃ oa ob o, Bc1.untransformWithSettings ma a outa a.length s = some oa ∧
        Bc1.untransformWithSettings mb b outb b.length s = some ob ∧
        Bc1.untransformWithSettings m z out z.length s = some o ∧
        o.take ((na + nb) * 8) = oa.take (na * 8) ++ ob.take (nb * 8)) := by
  have hw : sections1 s.split = Bc1.widths s.split := by cases s.split <;> rfl
  have hfit := Bc1.fits (col := encCol m.endian s.decorr) (fun _ _ => encCol_length _ _ _) s.split
  have hB : (sections1 s.split).sum = 8 := by rw [hw]; exact Bc1.widths_sum _
  have hab : (a ++ b).length = (na + nb) * 8 := by rw [List.length_append, ha, hb, Nat.add_mul]
  rw [← hw] at hfit
  constructor
  · obtain ⟨-, e1⟩ := Bc1.transform_impl ma s a outa (by omega) (by omega)
    obtain ⟨-, e2⟩ := Bc1.transform_impl mb s b outb (by omega) (by omega)
    obtain ⟨-, e3⟩ := Bc1.transform_impl m s (a ++ b) out (by omega) (by omega)
    rw [hea] at e1
    rw [heb] at e2
    exact ⟨_, _, _, e1, e2, e3, columns_joined (by omega) hfit ha hb⟩
  · intro z hz hj
    obtain ⟨l1, e1⟩ := Bc1.untransform_impl ma s a outa (by omega) (by omega)
    obtain ⟨l2, e2⟩ := Bc1.untransform_impl mb s b outb (by omega) (by omega)
    obtain ⟨l3, e3⟩ := Bc1.untransform_impl m s z out (by omega) (by omega)
    rw [hea] at e1 l1
    rw [heb] at e2 l2
    refine ⟨_, _, _, e1, e2, e3, ?_⟩
    rw [List.take_left' (by omega), List.take_left' (by omega), List.take_left' (by omega)]
    have hj' := columns_joined (ta := []) (tb := []) (tc := []) (by omega) hfit (l1.trans ha) (l2.trans hb)
    have e4 : columns 8 (bc1Fields (encCol m.endian s.decorr) s.split) (Bc1.decode m.endian s a) = a :=
      Bc1.encode_decode m.endian s a (by omega)
    have e5 : columns 8 (bc1Fields (encCol m.endian s.decorr) s.split) (Bc1.decode m.endian s b) = b :=
      Bc1.encode_decode m.endian s b (by omega)
    rw [e4, e5, List.append_nil, List.append_nil, List.append_nil] at hj'
    have hl : (Bc1.decode m.endian s a ++ Bc1.decode m.endian s b).length = (na + nb) * 8 := by
      rw [List.length_append, l1, l2, ha, hb, Nat.add_mul]
    have hz' : z = Bc1.encode m.endian s (Bc1.decode m.endian s a ++ Bc1.decode m.endian s b) :=
      joined_unique (by rw [hB]; exact hz) (by rw [hB, Bc1.encode_length m.endian s (by omega)]; exact hl) hj hj'
    rw [hz', Bc1.decode_encode m.endian s _ (by omega)]

/-- **C95** (BC2). -/
theorem C95_bc2 (m ma mb : Machine) (hea : ma.endian = m.endian) (heb : mb.endian = m.endian) (s : ColourSettings) (na nb : Nat)
    (a b out outa outb : Buf) (ha : a.length = na * 16) (hb : b.length = nb * 16) (ho : (na + nb) * 16 ≤ out.length)
    (hoa : na * 16 ≤ outa.length) (hob : nb * 16 ≤ outb.length) :
    (∃ oa ob o, Bc2.transformWithSettings ma a outa a.length s = some oa ∧
      Bc2.transformWithSettings mb b outb b.length s = some ob ∧
      Bc2.transformWithSettings m (a ++ b) out (a ++ b).length s = some o ∧ Joined (sections2 s.split) na nb oa ob o) ∧
    (∀ z : Buf, z.length = (na + nb) * 16 → Joined (sections2 s.split) na nb a b z →
      ∃ oa ob o, Bc2.untransformWithSettings ma a outa a.length s = some oa ∧
        Bc2.untransformWithSettings mb b outb b.length s = some ob ∧
        Bc2.untransformWithSettings m z out z.length s = some o ∧
        o.take ((na + nb) * 16) = oa.take (na * 16) ++ ob.take (nb * 16)) := by
  have hw : sections2 s.split = Bc2.widths s.split := by cases s.split <;> rfl
  have hfit := Bc2.fits (col := encCol m.endian s.decorr) (fun _ _ => encCol_length _ _ _) s.split
  have hB : (sections2 s.split).sum = 16 := by rw [hw]; exact Bc2.widths_sum _
  have hab : (a ++ b).length = (na + nb) * 16 := by rw [List.length_append, ha, hb, Nat.add_mul]
  rw [← hw] at hfit
  constructor
  · obtain ⟨-, e1⟩ := Bc2.transform_impl ma s a outa (by omega) (by omega)
    obtain ⟨-, e2⟩ := Bc2.transform_impl mb s b outb (by omega) (by omega)
    obtain ⟨-, e3⟩ := Bc2.transform_impl m s (a ++ b) out (by omega) (by omega)
    rw [hea] at e1
    rw [heb] at e2
    exact ⟨_, _, _, e1, e2, e3, columns_joined (by omega) hfit ha hb⟩
  · intro z hz hj
    obtain ⟨l1, e1⟩ := Bc2.untransform_impl ma s a outa (by omega) (by omega)
    obtain ⟨l2, e2⟩ := Bc2.untransform_impl mb s b outb (by omega) (by omega)
    obtain ⟨l3, e3⟩ := Bc2.untransform_impl m s z out (by omega) (by omega)
    rw [hea] at e1 l1
    rw [heb] at e2 l2
    refine ⟨_, _, _, e1, e2, e3, ?_⟩
    rw [List.take_left' (by omega), List.take_left' (by omega), List.take_left' (by omega)]
    have hj' := columns_joined (ta := []) (tb := []) (tc := []) (by omega) hfit (l1.trans ha) (l2.trans hb)
    have e4 : columns 16 (bc2Fields (encCol m.endian s.decorr) s.split) (Bc2.decode m.endian s a) = a :=
      Bc2.encode_decode m.endian s a (by omega)
    have e5 : columns 16 (bc2Fields (encCol m.endian s.decorr) s.split) (Bc2.decode m.endian s b) = b :=
      Bc2.encode_decode m.endian s b (by omega)
    rw [e4, e5, List.append_nil, List.append_nil, List.append_nil] at hj'
    have hl : (Bc2.decode m.endian s a ++ Bc2.decode m.endian s b).length = (na + nb) * 16 := by
      rw [List.length_append, l1, l2, ha, hb, Nat.add_mul]
    have hz' : z = Bc2.encode m.endian s (Bc2.decode m.endian s a ++ Bc2.decode m.endian s b) :=
      joined_unique (by rw [hB]; exact hz) (by rw [hB, Bc2.encode_length m.endian s (by omega)]; exact hl) hj hj'
    rw [hz', Bc2.decode_encode m.endian s _ (by omega)]

/-- **C95** (BC3). -/
theorem C95_bc3 (m ma mb : Machine) (hea : ma.endian = m.endian) (heb : mb.endian = m.endian) (s : Bc3.Settings) (na nb : Nat)
    (a b out outa outb : Buf) (ha : a.length = na * 16) (hb : b.length = nb * 16) (ho : (na + nb) * 16 ≤ out.length)
    (hoa : na * 16 ≤ outa.length) (hob : nb * 16 ≤ outb.length) :
    (∃ oa ob o, Bc3.transformWithSettings ma a outa a.length s = some oa ∧
      Bc3.transformWithSettings mb b outb b.length s = some ob ∧
      Bc3.transformWithSettings m (a ++ b) out (a ++ b).length s = some o ∧ Joined (sections3 s.splitAlpha s.splitColour) na nb oa ob o) ∧
    (∀ z : Buf, z.length = (na + nb) * 16 → Joined (sections3 s.splitAlpha s.splitColour) na nb a b z →
      ∃ oa ob o, Bc3.untransformWithSettings ma a outa a.length s = some oa ∧
        Bc3.untransformWithSettings mb b outb b.length s = some ob ∧
        Bc3.untransformWithSettings m z out z.length s = some o ∧
        o.take ((na + nb) * 16) = oa.take (na * 16) ++ ob.take (nb * 16)) := by
  have hw : sections3 s.splitAlpha s.splitColour = Bc3.widths s.splitAlpha s.splitColour := by cases s.splitAlpha <;> cases s.splitColour <;> rfl
  have hfit := Bc3.fits (col := encCol m.endian s.decorr) (fun _ _ => encCol_length _ _ _) s.splitAlpha s.splitColour
  have hB : (sections3 s.splitAlpha s.splitColour).sum = 16 := by rw [hw]; exact Bc3.widths_sum _ _
  have hab : (a ++ b).length = (na + nb) * 16 := by rw [List.length_append, ha, hb, Nat.add_mul]
  rw [← hw] at hfit
  constructor
  · obtain ⟨-, e1⟩ := Bc3.transform_impl ma s a outa (by omega) (by omega)
    obtain ⟨-, e2⟩ := Bc3.transform_impl mb s b outb (by omega) (by omega)
    obtain ⟨-, e3⟩ := Bc3.transform_impl m s (a ++ b) out (by omega) (by omega)
    rw [hea] at e1
    rw [heb] at e2
    exact ⟨_, _, _, e1, e2, e3, columns_joined (by omega) hfit ha hb⟩
  · intro z hz hj
    obtain ⟨l1, e1⟩ := Bc3.untransform_impl ma s a outa (by omega) (by omega)
    obtain ⟨l2, e2⟩ := Bc3.untransform_impl mb s b outb (by omega) (by omega)
    obtain ⟨l3, e3⟩ := Bc3.untransform_impl m s z out (by omega) (by omega)
    rw [hea] at e1 l1
    rw [heb] at e2 l2
    refine ⟨_, _, _, e1, e2, e3, ?_⟩
    rw [List.take_left' (by omega), List.take_left' (by omega), List.take_left' (by omega)]
    have hj' := columns_joined (ta := []) (tb := []) (tc := []) (by omega) hfit (l1.trans ha) (l2.trans hb)
    have e4 : columns 16 (bc3Fields (encCol m.endian s.decorr) s.splitAlpha s.splitColour) (Bc3.decode m.endian s a) = a :=
      Bc3.encode_decode m.endian s a (by omega)
    have e5 : columns 16 (bc3Fields (encCol m.endian s.decorr) s.splitAlpha s.splitColour) (Bc3.decode m.endian s b) = b :=
      Bc3.encode_decode m.endian s b (by omega)
    rw [e4, e5, List.append_nil, List.append_nil, List.append_nil] at hj'
    have hl : (Bc3.decode m.endian s a ++ Bc3.decode m.endian s b).length = (na + nb) * 16 := by
      rw [List.length_append, l1, l2, ha, hb, Nat.add_mul]
    have hz' : z = Bc3.encode m.endian s (Bc3.decode m.endian s a ++ Bc3.decode m.endian s b) :=
      joined_unique (by rw [hB]; exact hz) (by rw [hB, Bc3.encode_length m.endian s (by omega)]; exact hl) hj hj'
    rw [hz', Bc3.decode_encode m.endian s _ (by omega)]

/-! ## A concrete case -/

/-- One block and two blocks of BC1 with split end points: the sections of 2, 2 and 4 bytes per block are joined. -/
example : Joined (sections1 true) 1 2 [1, 2, 3, 4, 5, 6, 7, 8]
    [11, 12, 21, 22, 13, 14, 23, 24, 15, 16, 17, 18, 25, 26, 27, 28]
    [1, 2, 11, 12, 21, 22, 3, 4, 13, 14, 23, 24, 5, 6, 7, 8, 15, 16, 17, 18, 25, 26, 27, 28] := by
  intro k w hw
  rcases k with _ | _ | _ | k <;> simp [sections1] at hw <;> subst hw <;> decide

example : Bc1.untransformWithSettings (.other .little 0)
    [1, 2, 11, 12, 21, 22, 3, 4, 13, 14, 23, 24, 5, 6, 7, 8, 15, 16, 17, 18, 25, 26, 27, 28] (List.replicate 24 0) 24 ⟨.none, true⟩ =
    some ([1, 2, 3, 4, 5, 6, 7, 8] ++ [11, 12, 13, 14, 15, 16, 17, 18, 21, 22, 23, 24, 25, 26, 27, 28]) := by decide +kernel

end Dlt.Props
