import Verif.Props.Rearrange
/-!
# C93 for wrong settings in the tag: only colour end points are damaged
-/

namespace Dlt.Props
open Dlt.FileFormats Dlt.Dds Dlt.Embed Spec

/-- The indices of block `i` of BC1 are at one place whatever the settings. -/
theorem moved1_indices {s : ColourSettings} {n : Nat} {t x : Buf} (h : Moved1 s n t x) {i : Nat} (hi : i < n) :
    slice t (i * 8 + 4) 4 = slice x (n * 4 + i * 4) 4 := by
  obtain ⟨v, q⟩ := s
  cases q
  · exact (h.1 i 1 4 hi rfl (.inr (by show 4 ≤ 4; omega))).symm
  · exact (h.1 i 2 4 hi rfl (.inr (by show 4 ≤ 4; omega))).symm

/-- So are the alpha values and the indices of block `i` of BC2. -/
theorem moved2_parts {s : ColourSettings} {n : Nat} {t x : Buf} (h : Moved2 s n t x) {i : Nat} (hi : i < n) :
    slice t (i * 16) 8 = slice x (i * 8) 8 ∧ slice t (i * 16 + 12) 4 = slice x (n * 12 + i * 4) 4 := by
  have h0 : slice t (i * 16) 8 = slice x (i * 8) 8 := by
    have := h.1 i 0 8 hi (by cases s.split <;> rfl) (.inr (.inl (by cases s.split <;> decide)))
    simpa [start] using this.symm
  refine ⟨h0, ?_⟩
  obtain ⟨v, q⟩ := s
  cases q
  · exact (h.1 i 2 4 hi rfl (.inr (.inr (by show 12 ≤ 12; omega)))).symm
  · exact (h.1 i 3 4 hi rfl (.inr (.inr (by show 12 ≤ 12; omega)))).symm

/-- A byte of two equal slices. -/
theorem byte_of_slice {a b : Buf} {o n x : Nat} (h : slice a o n = slice b o n) (h1 : o ≤ x) (h2 : x < o + n) : a[x]? = b[x]? := by
  have := congrArg (·[x - o]?) h
  simp only [slice_getElem?, if_pos (show x - o < n by omega), show o + (x - o) = x by omega] at this
  exact this

/-- **C93** (wrong settings): two files that are the same from the fifth byte on and whose tags name the same format, with any settings.
What they are restored to differs at most in the colour end points of the blocks: header, alpha values, indices and what comes after
the texture are the same. -/
theorem C93_settings (p : Platform) (hu : 2 ^ 32 - 1 ≤ p.env.usizeMax) (t t' out out' r r' : Buf) (ho : out.length = t.length)
    (ho' : out'.length = t'.length) (hl : t'.length = t.length) (hd : t'.drop 4 = t.drop 4) (hw : num t' 0 % 16 = num t 0 % 16)
    (h : untransform p t out = some (r, .ok ())) (h' : untransform p t' out' = some (r', .ok ())) :
    r'.length = r.length ∧ ∀ x, r'[x]? ≠ r[x]? → headerSize t ≤ x ∧ x < headerSize t + reportedSize t ∧
      if num t 0 % 16 = 0 then (x - headerSize t) % 8 < 4 else 8 ≤ (x - headerSize t) % 16 ∧ (x - headerSize t) % 16 < 12 := by
  obtain ⟨info, hp, h1, h2, h3, u, _⟩ := untransform_ok hu h
  have hle := parse_offset_le hp
  have hs : ∀ o l, 4 ≤ o → slice t' o l = slice t o l := by
    intro o l ho
    have e : ∀ x : Buf, slice x o l = ((x.drop 4).drop (o - 4)).take l := by
      intro x
      rw [List.drop_drop, show 4 + (o - 4) = o by omega]
      rfl
    rw [e, e, hd]
  have hdr : ∀ o, 4 ≤ o → t'.drop o = t.drop o := by
    intro o ho
    rw [show o = 4 + (o - 4) by omega, ← List.drop_drop, ← List.drop_drop, hd]
  have hp' := parse_same_header hp hl (hs _ _ (by omega))
  have eh : headerSize t' = headerSize t := by
    rw [← reported_offset, ← reported_offset, ← reported_of_parse hp, ← reported_of_parse hp']
  have er : reportedSize t' = reportedSize t := by
    rw [← reported_length, ← reported_length, ← reported_of_parse hp, ← reported_of_parse hp']
  have hb := headerSize_le t
  obtain ⟨l, q, m, a, b, n, hn, hm⟩ := C94_dds p hu t out r ho h
  obtain ⟨l', q', m', a', b', n', hn', hm'⟩ := C94_dds p hu t' out' r' ho' h'
  have tt : textureIn t' t' = textureIn t t := by
    unfold textureIn
    rw [eh, er, hs _ _ (by omega)]
  have tr : ∀ x, textureIn t' x = textureIn t x := fun x => by unfold textureIn; rw [eh, er]
  unfold blockSizeOf at hn hn'
  rw [eh, hs _ _ (by omega), ← a] at a'
  rw [eh, er, hdr _ (by omega), ← b] at b'
  rw [er, hw] at hn'
  rw [hw, tt, tr] at hm'
  have same : ∀ {o w x : Nat}, slice (textureIn t r') o w = slice (textureIn t r) o w → o + w ≤ reportedSize t →
      headerSize t + o ≤ x → x < headerSize t + o + w → r'[x]? = r[x]? := by
    intro o w x e hb h1 h2
    unfold textureIn at e
    rw [slice_slice _ _ _ _ _ hb, slice_slice _ _ _ _ _ hb] at e
    exact byte_of_slice e h1 h2
  refine ⟨by omega, fun x hx => ?_⟩
  have x1 : headerSize t ≤ x := by
    by_contra hc
    apply hx
    by_cases h4 : x < 4
    · have := congrArg (·[x]?) (m'.trans m.symm)
      simpa only [List.getElem?_take, if_pos h4] using this
    · exact byte_of_slice a' (by omega) (by omega)
  have x2 : x < headerSize t + reportedSize t := by
    by_contra hc
    apply hx
    have := congrArg (·[x - (headerSize t + reportedSize t)]?) b'
    simp only [List.getElem?_drop, show headerSize t + reportedSize t + (x - (headerSize t + reportedSize t)) = x by omega] at this
    exact this
  refine ⟨x1, x2, ?_⟩
  by_cases ht : num t 0 % 16 = 0
  · rw [if_pos ht] at hm hm' hn hn' ⊢
    obtain rfl : n' = n := by omega
    by_contra hc
    apply hx
    have hi : (x - headerSize t) / 8 < n' := by omega
    exact same ((moved1_indices hm' hi).trans (moved1_indices hm hi).symm) (by omega) (by omega) (by omega)
  · rw [if_neg ht] at hm hm' hn hn' ⊢
    obtain rfl : n' = n := by omega
    by_contra hc
    apply hx
    have hi : (x - headerSize t) / 16 < n' := by omega
    obtain ⟨c1, c2⟩ := moved2_parts hm hi
    obtain ⟨d1, d2⟩ := moved2_parts hm' hi
    by_cases h8 : (x - headerSize t) % 16 < 8
    · exact same (d1.trans c1.symm) (by omega) (by omega) (by omega)
    · exact same (d2.trans c2.symm) (by omega) (by omega) (by omega)

/-- A transformed file with other settings in the tag can be restored: of the lowest nine bits only the lowest six decide that, and
the settings are in the upper three of them. -/
theorem C93_settings_restored (p : Platform) (hu : 2 ^ 32 - 1 ≤ p.env.usizeMax) (t t' out out' r : Buf) (ho' : out'.length = t'.length)
    (hl : t'.length = t.length) (hd : t'.drop 4 = t.drop 4) (hw : num t' 0 % 64 = num t 0 % 64)
    (h : untransform p t out = some (r, .ok ())) : ∃ r', untransform p t' out' = some (r', .ok ()) := by
  obtain ⟨info, hp, h1, h2, h3, u, hu1⟩ := untransform_ok hu h
  have hle := parse_offset_le hp
  have hs : ∀ o l, 4 ≤ o → slice t' o l = slice t o l := by
    intro o l ho
    have e : ∀ x : Buf, slice x o l = ((x.drop 4).drop (o - 4)).take l := by
      intro x
      rw [List.drop_drop, show 4 + (o - 4) = o by omega]
      rfl
    rw [e, e, hd]
  have hp' := parse_same_header hp hl (hs _ _ (by omega))
  rw [untransform_eq p t' out' hp' rfl rfl (by omega) (by omega) h2, hs info.dataOffset.toNat _ (by omega)]
  generalize hx : slice t info.dataOffset.toNat info.dataLength.toNat = x at hu1 ⊢
  have lx : x.length = info.dataLength.toNat := by rw [← hx]; exact slice_length_of_le (by omega)
  have lo : (slice out info.dataOffset.toNat info.dataLength.toNat).length = info.dataLength.toNat := slice_length_of_le (by omega)
  have lo' : (slice out' info.dataOffset.toNat info.dataLength.toNat).length = info.dataLength.toNat := slice_length_of_le (by omega)
  rw [num_zero (b := t) (by omega), num_zero (b := t') (by omega)] at hw
  obtain ⟨k1, k2, k3, k4⟩ := (C36_dispatch_obeys_header p.m ⟨of32 .little (slice t 0 4)⟩ x
    (slice out info.dataOffset.toNat info.dataLength.toNat)).2 (by omega)
  obtain ⟨-, -, j3, j4⟩ := (C36_dispatch_obeys_header p.m ⟨of32 .little (slice t' 0 4)⟩ x
    (slice out' info.dataOffset.toNat info.dataLength.toNat)).2 (by omega)
  simp only at k1 k2 k3 k4 j3 j4
  have g1 : (of32 .little (slice t 0 4)).toNat % 16 < 2 := by
    by_contra hc
    rw [k1 (by omega)] at hu1
    simp at hu1
  have g2 : (of32 .little (slice t 0 4)).toNat / 16 % 4 = 0 := by
    by_contra hc
    rw [k2 g1 hc] at hu1
    simp at hu1
  have fin : ∃ y, dispatchUntransform p.m ⟨of32 .little (slice t' 0 4)⟩ x (slice out' info.dataOffset.toNat info.dataLength.toNat) =
      some (y, .ok ()) := by
    by_cases g0 : (of32 .little (slice t 0 4)).toNat % 16 = 0
    · have g8 : x.length % 8 = 0 := by
        by_contra hc
        rw [(k3 g0 g2).1 hc] at hu1
        simp at hu1
      obtain ⟨y, -, e⟩ := (j3 (by omega) (by omega)).2 g8
      exact ⟨y, e⟩
    · have g8 : x.length % 16 = 0 := by
        by_contra hc
        rw [(k4 (by omega) g2).1 hc] at hu1
        simp at hu1
      obtain ⟨y, -, e⟩ := (j4 (by omega) (by omega)).2 g8
      exact ⟨y, e⟩
  obtain ⟨y, e⟩ := fin
  rw [e]
  simp only [ho', if_true]
  split <;> exact ⟨_, rfl⟩

/-- A case: the split is missing in the tag. Both files can be restored; the end points differ and nothing else. -/
example :
    ((damagedFile 3).length, num (damagedFile 3) 0 % 16) = (146, 0) ∧
    ((untransform somePlatform (damagedFile 3) (List.replicate 146 0)).map fun x => (x.1.drop 128, x.2.toOption)) =
      some ([1, 2, 5, 6, 9, 10, 11, 12, 3, 4, 7, 8, 13, 14, 15, 16, 17, 18], some ()) ∧
    ((untransform somePlatform (to32 .little 384 ++ (damagedFile 3).drop 4) (List.replicate 146 0)).map fun x => (x.1.drop 128, x.2.toOption)) =
      some ([1, 2, 3, 4, 9, 10, 11, 12, 5, 6, 7, 8, 13, 14, 15, 16, 17, 18], some ()) ∧
    num (to32 .little 384 ++ (damagedFile 3).drop 4) 0 % 16 = 0 := by
  refine ⟨by decide +kernel, by decide +kernel, by decide +kernel, by decide +kernel⟩

end Dlt.Props
