import Verif.Model.Bc2
import Verif.Lemmas.Bc2Simd
import Verif.Lemmas.SpecCol
/-! BC2: every machine and every setting meets the layout. -/

namespace Dlt.Bc2
open Spec

theorem fits {col : Buf → Buf} (hc : ∀ bs : Buf, bs.length = 2 → (col bs).length = 2) (split : Bool) :
    Fits 16 (bc2Fields col split) (widths split) := by
  cases split
  · exact fits_std hc
  · exact fits_split hc

theorem widths_sum (split : Bool) : (widths split).sum = 16 := by cases split <;> rfl

/-- Colour functions that agree on two-byte strings give the same layout. -/
theorem columns_col {c d : Buf → Buf} (h : ∀ bs : Buf, bs.length = 2 → c bs = d bs) (split : Bool)
    {inp : Buf} {n : Nat} (hd : inp.length = n * 16) :
    columns 16 (bc2Fields c split) inp = columns 16 (bc2Fields d split) inp := by
  apply columns_congr (by omega) hd
  intro b hb
  have h1 := h _ (slice_length_of_le (l := b) (off := 8) (n := 2) (by omega))
  have h2 := h _ (slice_length_of_le (l := b) (off := 10) (n := 2) (by omega))
  cases split <;> simp [bc2Fields, h1, h2]

theorem unsoa_none (e : Endian) (split : Bool) {inp : Buf} {n : Nat} (hd : inp.length = n * 16) :
    unsoa n (widths split) (unFields id split) inp =
      unsoa n (widths split) (unFields (decCol e .none) split) inp := by
  apply unsoa_congr
  intro i hi
  have := fieldsAt_shape hi 0 (widths split) (inp := inp) (by rw [widths_sum]; omega)
  revert this
  generalize fieldsAt n inp i 0 (widths split) = l
  intro hs
  cases split
  · match l, hs with
    | [a, c, x], hs =>
      simp only [widths, Shape] at hs
      simp only [unFields]
      rw [decCol_none e (slice_length_of_le (by omega)), decCol_none e (slice_length_of_le (by omega))]
      rfl
  · match l, hs with
    | [a, c0, c1, x], hs =>
      simp only [widths, Shape] at hs
      simp only [unFields]
      rw [decCol_none e (by omega), decCol_none e (by omega)]
      rfl

/-- Every machine and setting: the transform writes the documented layout and leaves the rest alone. -/
theorem transform_eq (m : Machine) (s : ColourSettings) {inp out : Buf} {n : Nat}
    (hd : inp.length = n * 16) (ho : n * 16 ≤ out.length) :
    transformWithSettings m inp out (n * 16) s =
      some (columns 16 (bc2Fields (encCol m.endian s.decorr) s.split) inp ++ out.drop (n * 16)) := by
  obtain ⟨v, split⟩ := s
  have hlen : ∀ (col : Buf → Buf), (∀ bs : Buf, bs.length = 2 → (col bs).length = 2) → ∀ split,
      (columns 16 (bc2Fields col split) inp).length = n * (widths split).sum := fun col hc split =>
    columns_length (by omega) hd (fits hc split)
  have q2 : n * 16 / 2 = n * 8 := by omega
  have q8 : n * 8 + n * 16 / 8 = n * 10 := by omega
  have q4 : n * 8 + n * 16 / 4 = n * 12 := by omega
  have q16 : n * 16 / 16 = n := by omega
  have cn : ∀ split, columns 16 (bc2Fields (encCol m.endian .none) split) inp =
      columns 16 (bc2Fields id split) inp := fun split =>
    columns_col (fun bs h => encCol_none m.endian h) split hd
  unfold transformWithSettings
  simp only [q2, q8, q4, q16]
  cases split
  · simp only [Bool.false_eq_true, if_false]
    by_cases hv : v = .none
    · subst hv
      simp only [if_true]
      rw [cn]
      have ha := agree_startT (hlen id (fun _ h => h) false) (by rw [widths_sum]; exact ho)
      rw [widths_sum] at ha
      apply ok_endT (n := n) (ws := [8, 4, 4])
      match m with
      | .x86 f =>
        simp only [stdTransform]
        split
        · simp only [transformAvx512, q2, q4]; exact transformAvx512Ptrs_ok hd rfl ha
        split
        · simp only [transformAvx2, q2, q4]; exact transformAvx2Ptrs_ok hd rfl ha
        split
        · split
          · simp only [transformSse2V3, q2, q4]; exact transformSse2V3Ptrs_ok hd rfl ha
          · simp only [transformSse2V2, q2, q4]; exact transformSse2V2Ptrs_ok hd rfl ha
        · simp only [transformPortable, q2, q4]
          simpa [Machine.endian] using transformPtrs_ok .little (k := 0) hd rfl ha (by omega)
      | .other e _ =>
        simp only [stdTransform, transformPortable, q2, q4]
        simpa [Machine.endian] using transformPtrs_ok e (k := 0) hd rfl ha (by omega)
    · simp only [hv, if_false]
      have ha := agree_startT (hlen (encCol m.endian v) (fun _ _ => encCol_length _ _ _) false)
        (by rw [widths_sum]; exact ho)
      rw [widths_sum] at ha
      apply ok_endT (n := n) (ws := [8, 4, 4])
      match m with
      | .x86 f =>
        simp only [transformWithDecorrelate, q2, q4, q16]
        split
        · exact transformRecorrAvx512_ok v hv hd rfl ha
        split
        · exact transformRecorrAvx2_ok v hv hd rfl ha
        split
        · exact transformRecorrSse2_ok v hv hd rfl ha
        · simpa [Machine.endian] using transformRecorrGeneric_ok .little v (k := 0) hv hd rfl ha (by omega)
      | .other e _ =>
        simp only [transformWithDecorrelate, q2, q4, q16]
        simpa [Machine.endian] using transformRecorrGeneric_ok e v (k := 0) hv hd rfl ha (by omega)
  · simp only [if_true]
    by_cases hv : v = .none
    · subst hv
      simp only [if_true]
      rw [cn]
      have ha := agree_startT (hlen id (fun _ h => h) true) (by rw [widths_sum]; exact ho)
      rw [widths_sum] at ha
      apply ok_endT (n := n) (ws := [8, 2, 2, 4])
      match m with
      | .x86 f =>
        simp only [transformWithSplitColour]
        split
        · exact transformSplitAvx512_ok hd rfl ha
        split
        · exact transformSplitAvx2_ok hd rfl ha
        split
        · exact transformSplitSse2_ok hd rfl ha
        · simpa [Machine.endian] using transformSplitGeneric_ok .little (k := 0) hd rfl ha (by omega)
      | .other e _ =>
        simpa [Machine.endian, transformWithSplitColour] using transformSplitGeneric_ok e (k := 0) hd rfl ha (by omega)
    · simp only [hv, if_false]
      have ha := agree_startT (hlen (encCol m.endian v) (fun _ _ => encCol_length _ _ _) true)
        (by rw [widths_sum]; exact ho)
      rw [widths_sum] at ha
      apply ok_endT (n := n) (ws := [8, 2, 2, 4])
      match m with
      | .x86 f =>
        simp only [transformWithSplitColourAndRecorr]
        split
        · exact transformSplitRecorrAvx512_ok v hv hd rfl ha
        split
        · exact transformSplitRecorrAvx2_ok v hv hd rfl ha
        split
        · exact transformSplitRecorrSse2_ok v hv hd rfl ha
        · simpa [Machine.endian] using transformSplitRecorrGeneric_ok .little v (k := 0) hv hd rfl ha (by omega)
      | .other e _ =>
        simpa [Machine.endian, transformWithSplitColourAndRecorr] using
          transformSplitRecorrGeneric_ok e v (k := 0) hv hd rfl ha (by omega)

/-- Every machine and setting: the untransform writes the inverse layout and leaves the rest alone. -/
theorem untransform_eq (m : Machine) (s : ColourSettings) {inp out : Buf} {n : Nat}
    (hd : inp.length = n * 16) (ho : n * 16 ≤ out.length) :
    untransformWithSettings m inp out (n * 16) s =
      some (unsoa n (widths s.split) (unFields (decCol m.endian s.decorr) s.split) inp ++
        out.drop (n * 16)) := by
  obtain ⟨v, split⟩ := s
  have hlen : ∀ (col : Buf → Buf), (∀ bs : Buf, bs.length = 2 → (col bs).length = 2) → ∀ split,
      (unsoa n (widths split) (unFields col split) inp).length = n * 16 := fun col hc split =>
    unsoa_length (by rw [widths_sum]; omega) (unFields_length hc split)
  have q2 : n * 16 / 2 = n * 8 := by omega
  have q8 : n * 8 + n * 16 / 8 = n * 10 := by omega
  have q4 : n * 8 + n * 16 / 4 = n * 12 := by omega
  have q16 : n * 16 / 16 = n := by omega
  unfold untransformWithSettings
  simp only [q2, q8, q4, q16]
  apply ok_endU (n := n) (B := 16)
  cases split
  · simp only [Bool.false_eq_true, if_false]
    by_cases hv : v = .none
    · subst hv
      simp only [if_true]
      rw [← unsoa_none m.endian false hd]
      have ha := agree_startU (hlen id (fun _ h => h) false) ho
      match m with
      | .x86 f =>
        simp only [stdUntransform]
        split
        · simp only [untransformAvx512, q2, q4]
          split
          · exact untransformAvx512Ptrs_ok hd rfl ha
          · exact untransformAvx512IPtrs_ok hd rfl ha
        split
        · simp only [untransformAvx2, q2, q4]; exact untransformAvx2Ptrs_ok hd rfl ha
        split
        · simp only [untransformSse2, q2, q4]; exact untransformSse2Ptrs_ok hd rfl ha
        · simp only [untransformPortable, q2, q4]
          simpa [Machine.endian] using untransformPtrs_ok .little (k := 0) hd rfl ha (by omega)
      | .other e _ =>
        simp only [stdUntransform, untransformPortable, q2, q4]
        simpa [Machine.endian] using untransformPtrs_ok e (k := 0) hd rfl ha (by omega)
    · simp only [hv, if_false]
      have ha := agree_startU (hlen (decCol m.endian v) (fun _ _ => decCol_length _ _ _) false) ho
      match m with
      | .x86 f =>
        simp only [untransformWithRecorrelate, q2, q4, q16]
        split
        · exact untransformRecorrAvx512_ok v hv hd rfl ha
        split
        · exact untransformRecorrAvx2_ok v hv hd rfl ha
        split
        · exact untransformRecorrSse2_ok v hv hd rfl ha
        · simpa [Machine.endian] using untransformRecorrGeneric_ok .little v (k := 0) hv hd rfl ha (by omega)
      | .other e _ =>
        simp only [untransformWithRecorrelate, q2, q4, q16]
        simpa [Machine.endian] using untransformRecorrGeneric_ok e v (k := 0) hv hd rfl ha (by omega)
  · simp only [if_true]
    by_cases hv : v = .none
    · subst hv
      simp only [if_true]
      rw [← unsoa_none m.endian true hd]
      have ha := agree_startU (hlen id (fun _ h => h) true) ho
      match m with
      | .x86 f =>
        simp only [untransformWithSplitColour]
        split
        · exact untransformSplitAvx512_ok hd rfl ha
        split
        · exact untransformSplitAvx2_ok hd rfl ha
        split
        · exact untransformSplitSse2_ok hd rfl ha
        · simpa [Machine.endian] using untransformSplitGeneric_ok .little (k := 0) hd rfl ha (by omega)
      | .other e _ =>
        simpa [Machine.endian, untransformWithSplitColour] using untransformSplitGeneric_ok e (k := 0) hd rfl ha (by omega)
    · simp only [hv, if_false]
      have ha := agree_startU (hlen (decCol m.endian v) (fun _ _ => decCol_length _ _ _) true) ho
      match m with
      | .x86 f =>
        simp only [untransformWithSplitColourAndRecorr]
        split
        · exact untransformSplitRecorrAvx512_ok v hv hd rfl ha
        split
        · exact untransformSplitRecorrAvx2_ok v hv hd rfl ha
        split
        · exact untransformSplitRecorrSse2_ok v hv hd rfl ha
        · simpa [Machine.endian] using untransformSplitRecorrGeneric_ok .little v (k := 0) hv hd rfl ha (by omega)
      | .other e _ =>
        simpa [Machine.endian, untransformWithSplitColourAndRecorr] using
          untransformSplitRecorrGeneric_ok e v (k := 0) hv hd rfl ha (by omega)

/-- The per-block inverse undoes the fields. -/
theorem unFields_fields (e : Endian) (v : Variant) (split : Bool) {b : Buf} (hb : b.length = 16) :
    unFields (decCol e v) split ((bc2Fields (encCol e v) split).map (fun f => f b)) = b := by
  have s0 : (slice b 8 2).length = 2 := slice_length_of_le (by omega)
  have s1 : (slice b 10 2).length = 2 := slice_length_of_le (by omega)
  have l0 := encCol_length e v (slice b 8 2)
  have l1 := encCol_length e v (slice b 10 2)
  have hcat : slice b 0 8 ++ (slice b 8 2 ++ slice b 10 2 ++ slice b 12 4) = b := by
    rw [slice_append_slice b 8 2 2, slice_append_slice b 8 4 4, slice_append_slice b 0 8 8,
      slice_all hb]
  cases split
  · simp only [bc2Fields, Bool.false_eq_true, if_false, List.map_cons, List.map_nil, unFields]
    rw [slice_append_left _ _ _ _ (by omega), slice_append_right _ _ _ 0 _ (by omega)]
    rw [slice_all l0, slice_all l1, decCol_encCol e v s0, decCol_encCol e v s1, hcat]
  · simp only [bc2Fields, if_true, List.map_cons, List.map_nil, unFields]
    rw [decCol_encCol e v s0, decCol_encCol e v s1, hcat]

theorem fields_unFields (e : Endian) (v : Variant) (split : Bool) (l : List Buf)
    (hl : Shape l (widths split)) :
    (bc2Fields (encCol e v) split).map (fun f => f (unFields (decCol e v) split l)) = l := by
  cases split
  · match l, hl with
    | [a, c, x], hl =>
      simp only [widths, Shape] at hl
      have s0 : (slice c 0 2).length = 2 := slice_length_of_le (by omega)
      have s1 : (slice c 2 2).length = 2 := slice_length_of_le (by omega)
      have d0 := decCol_length e v (slice c 0 2)
      have d1 := decCol_length e v (slice c 2 2)
      simp only [bc2Fields, Bool.false_eq_true, if_false, List.map_cons, List.map_nil, unFields,
        List.append_assoc]
      rw [slice_append_left _ _ 0 8 (by omega), slice_all hl.1,
        slice_append_right _ _ 8 0 _ (by omega), slice_append_left _ _ _ _ (by omega), slice_all d0,
        encCol_decCol e v s0,
        slice_append_right _ _ 10 2 _ (by omega), slice_append_right _ _ 2 0 _ (by omega),
        slice_append_left _ _ _ _ (by omega), slice_all d1, encCol_decCol e v s1,
        slice_append_right _ _ 12 4 _ (by omega), slice_append_right _ _ 4 2 _ (by omega),
        slice_append_right _ _ 2 0 _ (by omega), slice_all hl.2.2.1, slice_append_slice c 0 2 2,
        slice_all hl.2.1]
  · match l, hl with
    | [a, c0, c1, x], hl =>
      simp only [widths, Shape] at hl
      have d0 := decCol_length e v c0
      have d1 := decCol_length e v c1
      simp only [bc2Fields, if_true, List.map_cons, List.map_nil, unFields, List.append_assoc]
      rw [slice_append_left _ _ 0 8 (by omega), slice_all hl.1,
        slice_append_right _ _ 8 0 _ (by omega), slice_append_left _ _ _ _ (by omega), slice_all d0,
        encCol_decCol e v hl.2.1,
        slice_append_right _ _ 10 2 _ (by omega), slice_append_right _ _ 2 0 _ (by omega),
        slice_append_left _ _ _ _ (by omega), slice_all d1, encCol_decCol e v hl.2.2.1,
        slice_append_right _ _ 12 4 _ (by omega), slice_append_right _ _ 4 2 _ (by omega),
        slice_append_right _ _ 2 0 _ (by omega), slice_all hl.2.2.2.1]

/-- The transformed form of whole blocks. -/
def encode (e : Endian) (s : ColourSettings) (data : Buf) : Buf :=
  columns 16 (bc2Fields (encCol e s.decorr) s.split) data

/-- Its inverse. -/
def decode (e : Endian) (s : ColourSettings) (data : Buf) : Buf :=
  unsoa (data.length / 16) (widths s.split) (unFields (decCol e s.decorr) s.split) data

theorem encode_length (e : Endian) (s : ColourSettings) {data : Buf} (h : data.length % 16 = 0) :
    (encode e s data).length = data.length := by
  obtain ⟨n, hn⟩ : ∃ n, data.length = n * 16 := ⟨data.length / 16, by omega⟩
  rw [encode, columns_length (by omega) hn (fits (fun _ _ => encCol_length _ _ _) s.split), widths_sum, hn]

theorem decode_length (e : Endian) (s : ColourSettings) {data : Buf} (h : data.length % 16 = 0) :
    (decode e s data).length = data.length := by
  rw [decode, unsoa_length (by rw [widths_sum]; omega)
    (unFields_length (fun _ _ => decCol_length _ _ _) s.split)]; omega

theorem transform_impl (m : Machine) (s : ColourSettings) :
    Implements 16 (fun i o l => transformWithSettings m i o l s) (encode m.endian s) := by
  intro data out h ho
  obtain ⟨n, hn⟩ : ∃ n, data.length = n * 16 := ⟨data.length / 16, by omega⟩
  refine ⟨encode_length _ _ h, ?_⟩
  show transformWithSettings m data out data.length s = _
  rw [hn]; exact transform_eq m s hn (by omega)

theorem untransform_impl (m : Machine) (s : ColourSettings) :
    Implements 16 (fun i o l => untransformWithSettings m i o l s) (decode m.endian s) := by
  intro data out h ho
  obtain ⟨n, hn⟩ : ∃ n, data.length = n * 16 := ⟨data.length / 16, by omega⟩
  refine ⟨decode_length _ _ h, ?_⟩
  show untransformWithSettings m data out data.length s = _
  rw [decode, hn, Nat.mul_div_cancel _ (by omega)]; exact untransform_eq m s hn (by omega)

theorem decode_encode (e : Endian) (s : ColourSettings) (data : Buf) (h : data.length % 16 = 0) :
    decode e s (encode e s data) = data := by
  obtain ⟨n, hn⟩ : ∃ n, data.length = n * 16 := ⟨data.length / 16, by omega⟩
  rw [decode, encode_length e s h, hn, Nat.mul_div_cancel _ (by omega), encode]
  have := unsoa_columns (by omega) hn (fits (col := encCol e s.decorr)
      (fun _ _ => encCol_length _ _ _) s.split)
      (fun b hb => unFields_fields e s.decorr s.split hb) []
  rwa [List.append_nil] at this

theorem encode_decode (e : Endian) (s : ColourSettings) (data : Buf) (h : data.length % 16 = 0) :
    encode e s (decode e s data) = data := by
  obtain ⟨n, hn⟩ : ∃ n, data.length = n * 16 := ⟨data.length / 16, by omega⟩
  rw [decode, hn, Nat.mul_div_cancel _ (by omega), encode]
  exact columns_unsoa (by omega) (by rw [widths_sum]; exact hn)
    (unFields_length (fun _ _ => decCol_length _ _ _) s.split)
    (fun l hs => fields_unFields e s.decorr s.split l hs)

end Dlt.Bc2
