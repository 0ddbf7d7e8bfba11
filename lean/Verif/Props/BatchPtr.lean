import Verif.Lemmas.NormTransform
/-!
# Batch colour functions on pointers: C14

The pointers point anywhere into two buffers.  `colour e b p` is the colour that a pointer to byte `p` of the buffer `b` points to.
-/

namespace Dlt.Props
open Batch

/-- The colour at byte `p` of a buffer. -/
def colour (e : Endian) (b : Buf) (p : Nat) : U16 := of16 e (slice b p 2)

/-- The buffer `d` is `dst` except for the bytes from `p` to `q`. -/
def OnlyWithin (dst d : Buf) (p q : Nat) : Prop := d.length = dst.length ∧ d.take p = dst.take p ∧ d.drop q = dst.drop q

theorem onlyWithin_of {dst A : Buf} {p q : Nat} (hq : q = p + A.length) (hd : q ≤ dst.length) :
    OnlyWithin dst (dst.take p ++ A ++ dst.drop q) p q := by
  subst hq
  refine ⟨by simp; omega, ?_, ?_⟩
  · rw [List.append_assoc, List.take_left' (by simp; omega)]
  · exact List.drop_left' (by simp; omega)

/-- The loop over pairs of pointers. -/
theorem mapLoop_at (e : Endian) (f : U16 → U16) (src dst : Buf) (sp dp n : Nat) (hs : sp + n * 2 ≤ src.length)
    (hd : dp + n * 2 ≤ dst.length) :
    mapLoop e f src sp dst dp n =
      some (dst.take dp ++ (List.range n).flatMap (fun i => to16 e (f (colour e src (sp + i * 2)))) ++ dst.drop (dp + n * 2)) := by
  have hl : ∀ x, ((List.range x).flatMap (fun i => to16 e (f (colour e src (sp + i * 2))))).length = x * 2 :=
    fun x => flatMap_range_length _ _ _ (fun i _ => to16_length _ _)
  suffices h : Ok (mapLoop e f src sp dst dp n) (fun s => s =
      dst.take dp ++ (List.range n).flatMap (fun i => to16 e (f (colour e src (sp + i * 2)))) ++ dst.drop (dp + n * 2)) by
    obtain ⟨a, ha, rfl⟩ := h; exact ha
  apply Ok.forM (fun x s => s =
      dst.take dp ++ (List.range x).flatMap (fun i => to16 e (f (colour e src (sp + i * 2)))) ++ dst.drop (dp + x * 2)) 0 n
  · simp
  · rintro x s _ hx rfl
    rw [ld16_some (by omega)]
    refine ⟨_, ?_, rfl⟩
    simp only [Option.bind_eq_bind, Option.bind_some, st16]
    rw [st_append (by rw [List.length_append, hl]; simp; omega) (by simp; omega)]
    simp [List.range_succ, Nat.add_mul, colour, Nat.add_assoc]
  · rintro s rfl; simp

/-- One of the colours such a loop writes. -/
theorem colour_at (e : Endian) (g : Nat → U16) (dst : Buf) (dp n i : Nat) (hi : i < n) (hd : dp ≤ dst.length) (rest : Buf) :
    colour e (dst.take dp ++ (List.range n).flatMap (fun i => to16 e (g i)) ++ rest) (dp + i * 2) = g i := by
  have hw : ∀ i, i < n → (to16 e (g i)).length = 2 := fun i _ => to16_length _ _
  have hl := flatMap_range_length n 2 _ hw
  have hs := flatMap_range_slice _ 2 i 1 _ hw (by omega)
  rw [Nat.one_mul] at hs
  unfold colour
  rw [List.append_assoc, slice_append_right _ _ _ (i * 2) _ (by simp; omega), slice_append_left _ _ _ _ (by omega), hs]
  simp [of16_to16]

/-- What `decorrelate_ycocg_r_ptr` and `recorrelate_ycocg_r_ptr` have to do with a function of colours. -/
def Maps (e : Endian) (f : U16 → U16) (src : Buf) (sp : Nat) (dst : Buf) (dp n : Nat) (d : Buf) : Prop :=
  (∀ i, i < n → colour e d (dp + i * 2) = f (colour e src (sp + i * 2))) ∧ OnlyWithin dst d dp (dp + n * 2)

theorem mapLoop_maps (e : Endian) (f : U16 → U16) (src dst : Buf) (sp dp n : Nat) (hs : sp + n * 2 ≤ src.length)
    (hd : dp + n * 2 ≤ dst.length) : ∃ d, mapLoop e f src sp dst dp n = some d ∧ Maps e f src sp dst dp n d := by
  refine ⟨_, mapLoop_at e f src dst sp dp n hs hd, fun i hi => ?_, ?_⟩
  · exact colour_at e (fun i => f (colour e src (sp + i * 2))) dst dp n i hi (by omega) _
  · exact onlyWithin_of (by rw [flatMap_range_length _ 2 _ fun i _ => to16_length _ _]) hd

theorem copy_maps (e : Endian) (src dst : Buf) (sp dp n : Nat) (hs : sp + n * 2 ≤ src.length) (hd : dp + n * 2 ≤ dst.length) :
    ∃ d, (if 0 < n then (ld src sp (n * 2)).bind fun bs => st dst dp bs else some dst) = some d ∧
      Maps e id src sp dst dp n d := by
  by_cases h0 : 0 < n
  · rw [if_pos h0, ld_some hs, Option.bind_some]
    have hl : (slice src sp (n * 2)).length = n * 2 := slice_length_of_le hs
    refine ⟨_, by rw [st, if_pos (by omega), hl], fun i hi => ?_, ?_⟩
    · unfold colour
      rw [List.append_assoc, slice_append_right _ _ _ (i * 2) _ (by simp; omega), slice_append_left _ _ _ _ (by omega),
        slice_slice _ _ _ _ _ (by omega)]
      rfl
    · exact onlyWithin_of (by omega) hd
  · rw [if_neg h0]
    exact ⟨dst, rfl, fun i hi => by omega, rfl, rfl, rfl⟩

/-- **C14**, pointers: `decorrelate_ycocg_r_ptr` and `recorrelate_ycocg_r_ptr` read `num_items` colours from the one pointer on, write the
decorrelated (recorrelated) colours in the same order from the other pointer on, and change nothing else. -/
theorem C14_batch_ptr (e : Endian) (v : Variant) (src dst : Buf) (sp dp n : Nat) (hs : sp + n * 2 ≤ src.length)
    (hd : dp + n * 2 ≤ dst.length) :
    ∃ d r, decorrelatePtr e src sp dst dp n v = some d ∧ recorrelatePtr e src sp dst dp n v = some r ∧
      (∀ i, i < n → colour e d (dp + i * 2) = Color565.decorr v (colour e src (sp + i * 2)) ∧
        colour e r (dp + i * 2) = Color565.recorr v (colour e src (sp + i * 2))) ∧
      OnlyWithin dst d dp (dp + n * 2) ∧ OnlyWithin dst r dp (dp + n * 2) := by
  suffices h : (∃ d, decorrelatePtr e src sp dst dp n v = some d ∧ Maps e (Color565.decorr v) src sp dst dp n d) ∧
      ∃ r, recorrelatePtr e src sp dst dp n v = some r ∧ Maps e (Color565.recorr v) src sp dst dp n r by
    obtain ⟨⟨d, h1, h2, h3⟩, r, k1, k2, k3⟩ := h
    exact ⟨d, r, h1, k1, fun i hi => ⟨h2 i hi, k2 i hi⟩, h3, k3⟩
  cases v
  · exact ⟨mapLoop_maps e _ src dst sp dp n hs hd, mapLoop_maps e _ src dst sp dp n hs hd⟩
  · exact ⟨mapLoop_maps e _ src dst sp dp n hs hd, mapLoop_maps e _ src dst sp dp n hs hd⟩
  · exact ⟨mapLoop_maps e _ src dst sp dp n hs hd, mapLoop_maps e _ src dst sp dp n hs hd⟩
  · exact ⟨copy_maps e src dst sp dp n hs hd, copy_maps e src dst sp dp n hs hd⟩

/-- Two colours in the middle of a buffer, written behind the first byte of another one. -/
example : decorrelatePtr .little [7, 0x1F, 0, 0, 0xF8, 7] 1 [9, 9, 9, 9, 9, 9, 9] 2 2 .v1 =
    some [9, 9, 0x41, 0xF8, 0xD1, 0xBF, 9] := by decide

/-- **C14**, in place: `decorrelate_ycocg_r_ptr` with both pointers at the start of the buffer. -/
theorem C14_batch_in_place (e : Endian) (v : Variant) (buf : Buf) (n : Nat) (h : n * 2 ≤ buf.length) :
    ∃ d, decorrelateInPlace e buf n v = some d ∧
      (∀ i, i < n → colour e d (i * 2) = Color565.decorr v (colour e buf (i * 2))) ∧ OnlyWithin buf d 0 (n * 2) := by
  refine ⟨_, Norm.decorrelateInPlace_eq e v buf n h, ?_⟩
  have hm : Norm.mapBlocks 2 (encCol e v) buf n = (List.range n).flatMap fun i => to16 e (Color565.decorr v (colour e buf (i * 2))) := rfl
  rw [hm]
  have hc := fun i hi => colour_at e (fun i => Color565.decorr v (colour e buf (i * 2))) buf 0 n i hi (by omega) (buf.drop (n * 2))
  have ho := onlyWithin_of (dst := buf) (p := 0) (q := n * 2)
    (A := (List.range n).flatMap fun i => to16 e (Color565.decorr v (colour e buf (i * 2))))
    (by rw [flatMap_range_length _ 2 _ fun i _ => to16_length _ _]; omega) h
  simp only [List.take_zero, List.nil_append, Nat.zero_add] at hc ho
  exact ⟨hc, ho⟩

/-- Two of three colours of a buffer. -/
example : decorrelateInPlace .little [0x1F, 0, 0, 0xF8, 5, 6] 2 .v1 = some [0x41, 0xF8, 0xD1, 0xBF, 5, 6] := by decide

/-! ## Two sources -/

theorem splitLoop_at (e : Endian) (f : U16 → U16) (src0 src1 dst : Buf) (sp0 sp1 dp k n : Nat) (hk : k / 2 = n)
    (h0 : sp0 + n * 2 ≤ src0.length) (h1 : sp1 + n * 2 ≤ src1.length) (hd : dp + n * 4 ≤ dst.length) :
    splitLoop e f src0 sp0 src1 sp1 dst dp k =
      some (dst.take dp ++ (List.range n).flatMap (fun i => to16 e (f (colour e src0 (sp0 + i * 2))) ++
        to16 e (f (colour e src1 (sp1 + i * 2)))) ++ dst.drop (dp + n * 4)) := by
  have hl : ∀ x, ((List.range x).flatMap (fun i => to16 e (f (colour e src0 (sp0 + i * 2))) ++
        to16 e (f (colour e src1 (sp1 + i * 2))))).length = x * 4 :=
    fun x => flatMap_range_length _ _ _ (fun i _ => by simp)
  suffices h : Ok (splitLoop e f src0 sp0 src1 sp1 dst dp k) (fun s => s =
      dst.take dp ++ (List.range n).flatMap (fun i => to16 e (f (colour e src0 (sp0 + i * 2))) ++
        to16 e (f (colour e src1 (sp1 + i * 2)))) ++ dst.drop (dp + n * 4)) by
    obtain ⟨a, ha, rfl⟩ := h; exact ha
  unfold splitLoop
  rw [hk]
  apply Ok.forM (fun x s => s =
      dst.take dp ++ (List.range x).flatMap (fun i => to16 e (f (colour e src0 (sp0 + i * 2))) ++
        to16 e (f (colour e src1 (sp1 + i * 2)))) ++ dst.drop (dp + x * 4)) 0 n
  · simp
  · rintro x s _ hx rfl
    rw [ld16_some (by omega), ld16_some (by omega)]
    refine ⟨_, ?_, rfl⟩
    simp only [Option.bind_eq_bind, Option.bind_some, st16]
    rw [st_append (by rw [List.length_append, hl]; simp; omega) (by simp; omega)]
    simp only [Option.bind_some]
    rw [st_append (by rw [List.length_append, List.length_append, hl]; simp; omega) (by simp; omega)]
    simp [List.range_succ, Nat.add_mul, colour, Nat.add_assoc]
  · rintro s rfl; simp

theorem splitLoop_interleaves (e : Endian) (f : U16 → U16) (src0 src1 dst : Buf) (sp0 sp1 dp k n : Nat) (hk : k / 2 = n)
    (h0 : sp0 + n * 2 ≤ src0.length) (h1 : sp1 + n * 2 ≤ src1.length) (hd : dp + n * 4 ≤ dst.length) :
    ∃ d, splitLoop e f src0 sp0 src1 sp1 dst dp k = some d ∧
      (∀ i, i < n → colour e d (dp + i * 4) = f (colour e src0 (sp0 + i * 2)) ∧
        colour e d (dp + i * 4 + 2) = f (colour e src1 (sp1 + i * 2))) ∧ OnlyWithin dst d dp (dp + n * 4) := by
  refine ⟨_, splitLoop_at e f src0 src1 dst sp0 sp1 dp k n hk h0 h1 hd, fun i hi => ?_, ?_⟩
  · have hw : ∀ i, i < n → (to16 e (f (colour e src0 (sp0 + i * 2))) ++ to16 e (f (colour e src1 (sp1 + i * 2)))).length = 4 :=
      fun i _ => by simp
    have hl := flatMap_range_length n 4 _ hw
    have hs := flatMap_range_slice _ 4 i 1 _ hw (by omega)
    simp only [Nat.one_mul, List.range_one, List.flatMap_cons, List.flatMap_nil, List.append_nil, Nat.add_zero] at hs
    have key : ∀ o, o + 2 ≤ 4 → slice (dst.take dp ++ (List.range n).flatMap (fun i => to16 e (f (colour e src0 (sp0 + i * 2))) ++
        to16 e (f (colour e src1 (sp1 + i * 2)))) ++ dst.drop (dp + n * 4)) (dp + i * 4 + o) 2 =
        slice (to16 e (f (colour e src0 (sp0 + i * 2))) ++ to16 e (f (colour e src1 (sp1 + i * 2)))) o 2 := by
      intro o ho
      rw [← hs, slice_slice _ _ _ _ _ ho, List.append_assoc, slice_append_right _ _ _ (i * 4 + o) _ (by simp; omega),
        slice_append_left _ _ _ _ (by omega)]
    constructor
    · have := key 0 (by omega)
      rw [Nat.add_zero] at this
      rw [colour, this, slice_append_left _ _ _ _ (by simp), slice_all (to16_length _ _), of16_to16]
    · rw [colour, key 2 (by omega), slice_append_right _ _ _ 0 _ (by simp), slice_all (to16_length _ _), of16_to16]
  · exact onlyWithin_of (by rw [flatMap_range_length _ 4 _ fun i _ => by simp]) hd

/-- **C14**, two source pointers: `recorrelate_ycocg_r_ptr_split` takes `num_items / 2` colours from each source, writes the recorrelated
colours alternately, and changes nothing else; a last odd item is not written. -/
theorem C14_batch_ptr_split (e : Endian) (v : Variant) (src0 src1 dst : Buf) (sp0 sp1 dp n : Nat)
    (h0 : sp0 + n / 2 * 2 ≤ src0.length) (h1 : sp1 + n / 2 * 2 ≤ src1.length) (hd : dp + n / 2 * 4 ≤ dst.length) :
    ∃ d, recorrelatePtrSplit e src0 sp0 src1 sp1 dst dp n v = some d ∧
      (∀ i, i < n / 2 → colour e d (dp + i * 4) = Color565.recorr v (colour e src0 (sp0 + i * 2)) ∧
        colour e d (dp + i * 4 + 2) = Color565.recorr v (colour e src1 (sp1 + i * 2))) ∧
      OnlyWithin dst d dp (dp + n / 2 * 4) := by
  have h := fun f => splitLoop_interleaves e f src0 src1 dst sp0 sp1 dp n (n / 2) rfl h0 h1 hd
  cases v
  · exact h _
  · exact h _
  · exact h _
  · simp only [recorrelatePtrSplit]
    split
    · exact h id
    · exact ⟨dst, rfl, fun i hi => by omega, rfl, rfl, rfl⟩

/-- One colour from each source; the number of items is odd. -/
example : recorrelatePtrSplit .little [0x41, 0xF8] 0 [7, 0xD1, 0xBF] 1 [9, 9, 9, 9, 9, 9, 9] 1 3 .v1 =
    some [9, 0x1F, 0, 0, 0xF8, 9, 9] := by decide

end Dlt.Props
