import Verif.Model.Bc1
import Verif.Lemmas.Bc1Std
import Verif.Lemmas.Bc1Simd
import Verif.Lemmas.Batch
/-! BC1: every machine and every setting meets the layout. -/

namespace Dlt
open Spec

theorem encCol_none (e : Endian) {bs : Buf} (h : bs.length = 2) : encCol e .none bs = bs := by
  match bs, h with
  | [a, b], _ => exact to16_of16 e a b

theorem decCol_none (e : Endian) {bs : Buf} (h : bs.length = 2) : decCol e .none bs = bs := by
  match bs, h with
  | [a, b], _ => exact to16_of16 e a b

theorem decCol_encCol (e : Endian) (v : Variant) {bs : Buf} (h : bs.length = 2) :
    decCol e v (encCol e v bs) = bs := by
  match bs, h with
  | [a, b], _ => rw [decCol, encCol, of16_to16, Color565.recorr_decorr, to16_of16]

theorem encCol_decCol (e : Endian) (v : Variant) {bs : Buf} (h : bs.length = 2) :
    encCol e v (decCol e v bs) = bs := by
  match bs, h with
  | [a, b], _ => rw [decCol, encCol, of16_to16, Color565.decorr_recorr, to16_of16]

/-- Fields that agree on all blocks give the same layout. -/
theorem columns_congr {B n : Nat} {data : Buf} (hB : 0 < B) (hd : data.length = n * B)
    {fs gs : List (Buf → Buf)}
    (h : ∀ b : Buf, b.length = B → fs.map (fun f => f b) = gs.map (fun f => f b)) :
    columns B fs data = columns B gs data := by
  induction fs generalizing gs with
  | nil =>
    cases gs with
    | nil => rfl
    | cons g gs => exact absurd (h (List.replicate B 0) (by simp)) (by simp)
  | cons f fs ih =>
    cases gs with
    | nil => exact absurd (h (List.replicate B 0) (by simp)) (by simp)
    | cons g gs =>
      have ih := ih (gs := gs) (fun b hb => (List.cons.injEq _ _ _ _ ▸ h b hb).2)
      unfold columns at ih ⊢
      rw [List.flatMap_cons, List.flatMap_cons, ih]
      congr 1
      unfold column
      rw [length_div hB hd]
      apply flatMap_congr_range
      intro i hi
      exact (List.cons.injEq _ _ _ _ ▸ h _ (block_length hd hi)).1

end Dlt

namespace Dlt.Bc1
open Spec

theorem fits {col : Buf → Buf} (hc : ∀ bs : Buf, bs.length = 2 → (col bs).length = 2) (split : Bool) :
    Fits 8 (bc1Fields col split) (widths split) := by
  cases split
  · exact fits_std hc
  · exact fits_split hc

theorem widths_sum (split : Bool) : (widths split).sum = 8 := by cases split <;> rfl

theorem columns_none (e : Endian) (split : Bool) {inp : Buf} {n : Nat} (hd : inp.length = n * 8) :
    columns 8 (bc1Fields id split) inp = columns 8 (bc1Fields (encCol e .none) split) inp := by
  apply columns_congr (by omega) hd
  intro b hb
  have h1 := encCol_none e (slice_length_of_le (l := b) (off := 0) (n := 2) (by omega))
  have h2 := encCol_none e (slice_length_of_le (l := b) (off := 2) (n := 2) (by omega))
  cases split <;> simp [bc1Fields, h1, h2]

theorem unsoa_none (e : Endian) (split : Bool) {inp : Buf} {n : Nat} (hd : inp.length = n * 8) :
    unsoa n (widths split) (unFields id split) inp =
      unsoa n (widths split) (unFields (decCol e .none) split) inp := by
  apply unsoa_congr
  intro i hi
  have := fieldsAt_shape hi 0 (widths split) (inp := inp) (by rw [widths_sum]; omega)
  revert this
  generalize fieldsAt n inp i 0 (widths split) = l
  intro hs
  cases split
  · match l, hs with
    | [c, x], hs =>
      simp only [widths, Shape] at hs
      simp only [unFields]
      rw [decCol_none e (slice_length_of_le (by omega)), decCol_none e (slice_length_of_le (by omega))]
      rfl
  · match l, hs with
    | [c0, c1, x], hs =>
      simp only [widths, Shape] at hs
      simp only [unFields]
      rw [decCol_none e (by omega), decCol_none e (by omega)]
      rfl

/-- The work-buffer path of the generic untransform. -/
theorem untransformSplitRecorrWork_ok (e : Endian) (fresh : Nat → Byte) (v : Variant) {inp : Buf} {n : Nat}
    {T out tail : Buf} (hd : inp.length = n * 8)
    (hT : T = unsoa n (widths true) (unFields (decCol e v) true) inp ++ tail)
    (ho : Agree (DoneU n 8 0) T out) :
    Ok (untransformSplitRecorrWork e fresh inp 0 (n * 2) (n * 4) out 0 n v) (Agree (DoneU n 8 n) T) := by
  have hg := unFields_length (col := decCol e v) (fun _ _ => decCol_length _ _ _) true
  have hl : n * (widths true).sum ≤ inp.length := by simp [widths]; omega
  have hTl : n * 8 ≤ T.length := by
    rw [hT, List.length_append, unsoa_length hl hg]; omega
  unfold untransformSplitRecorrWork
  dsimp only
  rw [Batch.recorrelatePtrSplit_eq e v inp inp _ 0 (n * 2) n (by omega) (by omega) (by simp; omega)]
  simp only [Option.bind_eq_bind, Option.bind_some]
  generalize hR : ((List.range (n * 8)).map fresh).drop (n * 4) = R
  have hcol : ∀ i, i < n → ld32 e ((List.range n).flatMap (fun i => decCol e v (slice inp (0 + i * 2) 2) ++
        decCol e v (slice inp (n * 2 + i * 2) 2)) ++ R) (i * 4) =
      some (of32 e (decCol e v (slice inp (i * 2) 2) ++ decCol e v (slice inp (n * 2 + i * 2) 2))) := by
    intro i hi
    have hlen : ((List.range n).flatMap (fun i => decCol e v (slice inp (0 + i * 2) 2) ++
        decCol e v (slice inp (n * 2 + i * 2) 2))).length = n * 4 :=
      flatMap_range_length _ _ _ (fun i _ => by simp)
    rw [ld32, ld_some (by rw [List.length_append, hlen]; omega), slice_append_left _ _ _ _ (by omega)]
    have := flatMap_range_slice n 4 i 1 (fun i => decCol e v (slice inp (0 + i * 2) 2) ++
        decCol e v (slice inp (n * 2 + i * 2) 2)) (fun i _ => by simp) (by omega)
    rw [Nat.one_mul] at this
    rw [this]
    simp
  generalize (List.range n).flatMap (fun i => decCol e v (slice inp (0 + i * 2) 2) ++
        decCol e v (slice inp (n * 2 + i * 2) 2)) ++ R = work at hcol ⊢
  unfold untransformPtrs
  apply Ok.bind
  apply Ok.whileM (fun i s => s.1 = i * 4 ∧ s.2.1 = n * 4 + i * 4 ∧
    s.2.2.1 = i * 8 ∧ Agree (DoneU n 8 i) T s.2.2.2) n (by omega)
  · exact ⟨by simp, by simp, by simp, ho⟩
  · rintro i ⟨cp, xp, op, out⟩ hi ⟨rfl, rfl, rfl, ha⟩
    refine ⟨by simp; omega, ?_⟩
    kblk h0 i 1 tail hl hg hT
    simp only [widths, chunkFields, Nat.zero_add, ← Nat.mul_add, Nat.reduceAdd] at h0
    kld
    rw [hcol i hi]
    have e0 : slice inp (i * 2) 2 = mk 2 (rd inp (i * 2)) := slice_eq_mk (by omega)
    have e1 : slice inp (n * 2 + i * 2) 2 = mk 2 (rd inp (n * 2 + i * 2)) := slice_eq_mk (by omega)
    rw [e0, e1]
    simp only [Option.bind_eq_bind, Option.bind_some]
    have h4 : ∀ a b : Buf, a.length = 2 → b.length = 2 → to32 e (of32 e (a ++ b)) = a ++ b := by
      intro a b ha hb
      match a, b, ha, hb with
      | [a, b], [c, d], _, _ => exact to32_of32 e a b c d
    have hb := h4 _ _ (decCol_length e v (mk 2 (rd inp (i * 2))))
      (decCol_length e v (mk 2 (rd inp (n * 2 + i * 2))))
    kst ha h0 0
    · rw [hb]
      simp only [List.range_one, List.flatMap_cons, List.flatMap_nil, List.append_nil, Nat.zero_mul,
        Nat.zero_add, decCol]
      cases e <;> rfl
    kst ha h0 4
    · simp only [List.range_one, List.flatMap_cons, List.flatMap_nil, List.append_nil, Nat.zero_mul,
        Nat.zero_add, to32_of32]
      cases e <;> rfl
    kend ha
  · rintro ⟨cp, xp, op, out⟩ ⟨rfl, rfl, rfl, ha⟩
    exact ⟨by simp, Ok.pure ha⟩

/-- Every machine and setting: the transform writes the documented layout and leaves the rest alone. -/
theorem transform_eq (m : Machine) (s : ColourSettings) {inp out : Buf} {n : Nat}
    (hd : inp.length = n * 8) (ho : n * 8 ≤ out.length) :
    transformWithSettings m inp out (n * 8) s =
      some (columns 8 (bc1Fields (encCol m.endian s.decorr) s.split) inp ++ out.drop (n * 8)) := by
  obtain ⟨v, split⟩ := s
  have hlen : ∀ (col : Buf → Buf), (∀ bs : Buf, bs.length = 2 → (col bs).length = 2) → ∀ split,
      (columns 8 (bc1Fields col split) inp).length = n * (widths split).sum := fun col hc split =>
    columns_length (by omega) hd (fits hc split)
  have q4 : n * 8 / 4 = n * 2 := by omega
  have q2 : n * 8 / 2 = n * 4 := by omega
  have q8 : n * 8 / 8 = n := by omega
  unfold transformWithSettings
  simp only [q4, q2, q8]
  cases split
  · simp only [Bool.false_eq_true, if_false]
    by_cases hv : v = .none
    · subst hv
      simp only [if_true]
      rw [← columns_none m.endian false hd]
      have ha := agree_startT (hlen id (fun _ h => h) false) (by rw [widths_sum]; exact ho)
      rw [widths_sum] at ha
      apply ok_endT (n := n) (ws := [4, 4])
      match m with
      | .x86 f =>
        simp only [stdTransform]
        split
        · simp only [transformAvx512, q2]; exact transformAvx512Ptrs_ok hd rfl ha
        split
        · simp only [transformAvx2, q2]; exact transformAvx2Ptrs_ok hd rfl ha
        split
        · simp only [transformSse2, q2]; exact transformSse2Ptrs_ok hd rfl ha
        · simp only [transformPortable, q2]
          simpa [Machine.endian] using transformPtrs_ok .little (k := 0) hd rfl ha (by omega)
      | .other e _ =>
        simp only [stdTransform, transformPortable, q2]
        simpa [Machine.endian] using transformPtrs_ok e (k := 0) hd rfl ha (by omega)
    · simp only [hv, if_false]
      have ha := agree_startT (hlen (encCol m.endian v) (fun _ _ => encCol_length _ _ _) false)
        (by rw [widths_sum]; exact ho)
      rw [widths_sum] at ha
      apply ok_endT (n := n) (ws := [4, 4])
      match m with
      | .x86 f =>
        simp only [transformWithDecorrelate, q2, q8]
        split
        · exact transformRecorrAvx512_ok v hv hd rfl ha
        split
        · exact transformRecorrAvx2_ok v hv hd rfl ha
        split
        · exact transformRecorrSse2_ok v hv hd rfl ha
        · simpa [Machine.endian] using transformRecorrGeneric_ok .little v (k := 0) hv hd rfl ha (by omega)
      | .other e _ =>
        simp only [transformWithDecorrelate, q2, q8]
        simpa [Machine.endian] using transformRecorrGeneric_ok e v (k := 0) hv hd rfl ha (by omega)
  · simp only [if_true]
    by_cases hv : v = .none
    · subst hv
      simp only [if_true]
      rw [← columns_none m.endian true hd]
      have ha := agree_startT (hlen id (fun _ h => h) true) (by rw [widths_sum]; exact ho)
      rw [widths_sum] at ha
      apply ok_endT (n := n) (ws := [2, 2, 4])
      match m with
      | .x86 f =>
        simp only [transformWithSplitColour]
        split
        · exact transformSplitAvx512_ok hd rfl ha
        split
        · exact transformSplitAvx2_ok hd rfl ha
        split
        · exact transformSplitSse2_ok hd rfl ha
        · simpa [Machine.endian] using transformSplitGeneric_ok .little (k := 0) hd rfl ha (by omega)
      | .other e _ =>
        simpa [Machine.endian, transformWithSplitColour] using transformSplitGeneric_ok e (k := 0) hd rfl ha (by omega)
    · simp only [hv, if_false]
      have ha := agree_startT (hlen (encCol m.endian v) (fun _ _ => encCol_length _ _ _) true)
        (by rw [widths_sum]; exact ho)
      rw [widths_sum] at ha
      apply ok_endT (n := n) (ws := [2, 2, 4])
      match m with
      | .x86 f =>
        simp only [transformWithSplitColourAndRecorr]
        split
        · exact transformSplitRecorrAvx512_ok v hv hd rfl ha
        split
        · exact transformSplitRecorrAvx2_ok v hv hd rfl ha
        split
        · exact transformSplitRecorrSse2_ok v hv hd rfl ha
        · simpa [Machine.endian] using transformSplitRecorrGeneric_ok .little v (k := 0) hv hd rfl ha (by omega)
      | .other e _ =>
        simpa [Machine.endian, transformWithSplitColourAndRecorr] using
          transformSplitRecorrGeneric_ok e v (k := 0) hv hd rfl ha (by omega)

/-- Every machine and setting: the untransform writes the inverse layout and leaves the rest alone. -/
theorem untransform_eq (m : Machine) (s : ColourSettings) {inp out : Buf} {n : Nat}
    (hd : inp.length = n * 8) (ho : n * 8 ≤ out.length) :
    untransformWithSettings m inp out (n * 8) s =
      some (unsoa n (widths s.split) (unFields (decCol m.endian s.decorr) s.split) inp ++
        out.drop (n * 8)) := by
  obtain ⟨v, split⟩ := s
  have hlen : ∀ (col : Buf → Buf), (∀ bs : Buf, bs.length = 2 → (col bs).length = 2) → ∀ split,
      (unsoa n (widths split) (unFields col split) inp).length = n * 8 := fun col hc split =>
    unsoa_length (by rw [widths_sum]; omega) (unFields_length hc split)
  have q4 : n * 8 / 4 = n * 2 := by omega
  have q2 : n * 8 / 2 = n * 4 := by omega
  have q8 : n * 8 / 8 = n := by omega
  unfold untransformWithSettings
  simp only [q4, q2, q8]
  apply ok_endU (n := n) (B := 8)
  cases split
  · simp only [Bool.false_eq_true, if_false]
    by_cases hv : v = .none
    · subst hv
      simp only [if_true]
      rw [← unsoa_none m.endian false hd]
      have ha := agree_startU (hlen id (fun _ h => h) false) ho
      match m with
      | .x86 f =>
        simp only [stdUntransform]
        split
        · simp only [untransformAvx512, q2]; exact untransformAvx512Ptrs_ok hd rfl ha
        split
        · simp only [untransformAvx2, q2]; exact untransformAvx2Ptrs_ok hd rfl ha
        split
        · simp only [untransformSse2, q2]; exact untransformSse2Ptrs_ok hd rfl ha
        · simp only [untransformPortable, q2]
          simpa [Machine.endian] using untransformPtrs_ok .little (k := 0) hd rfl ha (by omega)
      | .other e _ =>
        simp only [stdUntransform, untransformPortable, q2]
        simpa [Machine.endian] using untransformPtrs_ok e (k := 0) hd rfl ha (by omega)
    · simp only [hv, if_false]
      have ha := agree_startU (hlen (decCol m.endian v) (fun _ _ => decCol_length _ _ _) false) ho
      match m with
      | .x86 f =>
        simp only [untransformWithRecorrelate, q2, q8]
        split
        · exact untransformRecorrAvx512_ok v hv hd rfl ha
        split
        · exact untransformRecorrAvx2_ok v hv hd rfl ha
        split
        · exact untransformRecorrSse2_ok v hv hd rfl ha
        · simpa [Machine.endian] using untransformRecorrGeneric_ok .little v (k := 0) hv hd rfl ha (by omega)
      | .other e _ =>
        simp only [untransformWithRecorrelate, q2, q8]
        simpa [Machine.endian] using untransformRecorrGeneric_ok e v (k := 0) hv hd rfl ha (by omega)
  · simp only [if_true]
    by_cases hv : v = .none
    · subst hv
      simp only [if_true]
      rw [← unsoa_none m.endian true hd]
      have ha := agree_startU (hlen id (fun _ h => h) true) ho
      match m with
      | .x86 f =>
        simp only [untransformWithSplitColour]
        split
        · exact untransformSplitAvx512_ok hd rfl ha
        split
        · exact untransformSplitAvx2_ok hd rfl ha
        split
        · exact untransformSplitSse2_ok hd rfl ha
        · simpa [Machine.endian] using untransformSplitGeneric_ok .little (k := 0) hd rfl ha (by omega)
      | .other e _ =>
        simpa [Machine.endian, untransformWithSplitColour] using untransformSplitGeneric_ok e (k := 0) hd rfl ha (by omega)
    · simp only [hv, if_false]
      have ha := agree_startU (hlen (decCol m.endian v) (fun _ _ => decCol_length _ _ _) true) ho
      match m with
      | .x86 f =>
        simp only [untransformWithSplitColourAndRecorr]
        split
        · exact untransformSplitRecorrAvx512_ok v hv hd rfl ha
        split
        · exact untransformSplitRecorrAvx2_ok v hv hd rfl ha
        split
        · exact untransformSplitRecorrSse2_ok v hv hd rfl ha
        · simpa [Machine.endian] using untransformSplitRecorrLoop_ok .little v (k := 0) hv hd rfl ha (by omega)
      | .other e fresh =>
        simp only [untransformWithSplitColourAndRecorr]
        split
        · exact untransformSplitRecorrWork_ok e fresh v hd rfl ha
        · simpa [Machine.endian] using untransformSplitRecorrLoop_ok e v (k := 0) hv hd rfl ha (by omega)

/-- The per-block inverse undoes the fields. -/
theorem unFields_fields (e : Endian) (v : Variant) (split : Bool) {b : Buf} (hb : b.length = 8) :
    unFields (decCol e v) split ((bc1Fields (encCol e v) split).map (fun f => f b)) = b := by
  have s0 : (slice b 0 2).length = 2 := slice_length_of_le (by omega)
  have s1 : (slice b 2 2).length = 2 := slice_length_of_le (by omega)
  have l0 := encCol_length e v (slice b 0 2)
  have l1 := encCol_length e v (slice b 2 2)
  have hcat : slice b 0 2 ++ slice b 2 2 ++ slice b 4 4 = b := by
    rw [slice_append_slice b 0 2 2, slice_append_slice b 0 4 4]
    unfold slice; simp [← hb]
  cases split
  · simp only [bc1Fields, Bool.false_eq_true, if_false, List.map_cons, List.map_nil, unFields]
    rw [slice_append_left _ _ _ _ (by omega), slice_append_right _ _ _ 0 _ (by omega)]
    rw [slice_all l0, slice_all l1, decCol_encCol e v s0, decCol_encCol e v s1, hcat]
  · simp only [bc1Fields, if_true, List.map_cons, List.map_nil, unFields]
    rw [decCol_encCol e v s0, decCol_encCol e v s1, hcat]

theorem fields_unFields (e : Endian) (v : Variant) (split : Bool) (l : List Buf)
    (hl : Shape l (widths split)) :
    (bc1Fields (encCol e v) split).map (fun f => f (unFields (decCol e v) split l)) = l := by
  cases split
  · match l, hl with
    | [c, x], hl =>
      simp only [widths, Shape] at hl
      have s0 : (slice c 0 2).length = 2 := slice_length_of_le (by omega)
      have s1 : (slice c 2 2).length = 2 := slice_length_of_le (by omega)
      have d0 := decCol_length e v (slice c 0 2)
      have d1 := decCol_length e v (slice c 2 2)
      simp only [bc1Fields, Bool.false_eq_true, if_false, List.map_cons, List.map_nil, unFields,
        List.append_assoc]
      rw [slice_append_left _ _ _ _ (by omega), slice_all d0, encCol_decCol e v s0,
        slice_append_right _ _ 2 0 _ (by omega), slice_append_left _ _ _ _ (by omega), slice_all d1,
        encCol_decCol e v s1, slice_append_right _ _ 4 2 _ (by omega),
        slice_append_right _ _ 2 0 _ (by omega), slice_all hl.2.1, slice_append_slice c 0 2 2,
        slice_all hl.1]
  · match l, hl with
    | [c0, c1, x], hl =>
      simp only [widths, Shape] at hl
      have d0 := decCol_length e v c0
      have d1 := decCol_length e v c1
      simp only [bc1Fields, if_true, List.map_cons, List.map_nil, unFields, List.append_assoc]
      rw [slice_append_left _ _ _ _ (by omega), slice_all d0, encCol_decCol e v hl.1,
        slice_append_right _ _ 2 0 _ (by omega), slice_append_left _ _ _ _ (by omega), slice_all d1,
        encCol_decCol e v hl.2.1, slice_append_right _ _ 4 2 _ (by omega),
        slice_append_right _ _ 2 0 _ (by omega), slice_all hl.2.2.1]

end Dlt.Bc1

namespace Dlt.Bc1
open Spec

/-- The transformed form of whole blocks. -/
def encode (e : Endian) (s : ColourSettings) (data : Buf) : Buf :=
  columns 8 (bc1Fields (encCol e s.decorr) s.split) data

/-- Its inverse. -/
def decode (e : Endian) (s : ColourSettings) (data : Buf) : Buf :=
  unsoa (data.length / 8) (widths s.split) (unFields (decCol e s.decorr) s.split) data

theorem encode_length (e : Endian) (s : ColourSettings) {data : Buf} (h : data.length % 8 = 0) :
    (encode e s data).length = data.length := by
  obtain ⟨n, hn⟩ : ∃ n, data.length = n * 8 := ⟨data.length / 8, by omega⟩
  rw [encode, columns_length (by omega) hn (fits (fun _ _ => encCol_length _ _ _) s.split), widths_sum, hn]

theorem decode_length (e : Endian) (s : ColourSettings) {data : Buf} (h : data.length % 8 = 0) :
    (decode e s data).length = data.length := by
  rw [decode, unsoa_length (by rw [widths_sum]; omega)
    (unFields_length (fun _ _ => decCol_length _ _ _) s.split)]; omega

theorem transform_impl (m : Machine) (s : ColourSettings) :
    Implements 8 (fun i o l => transformWithSettings m i o l s) (encode m.endian s) := by
  intro data out h ho
  obtain ⟨n, hn⟩ : ∃ n, data.length = n * 8 := ⟨data.length / 8, by omega⟩
  refine ⟨encode_length _ _ h, ?_⟩
  show transformWithSettings m data out data.length s = _
  rw [hn]; exact transform_eq m s hn (by omega)

theorem untransform_impl (m : Machine) (s : ColourSettings) :
    Implements 8 (fun i o l => untransformWithSettings m i o l s) (decode m.endian s) := by
  intro data out h ho
  obtain ⟨n, hn⟩ : ∃ n, data.length = n * 8 := ⟨data.length / 8, by omega⟩
  refine ⟨decode_length _ _ h, ?_⟩
  show untransformWithSettings m data out data.length s = _
  rw [decode, hn, Nat.mul_div_cancel _ (by omega)]; exact untransform_eq m s hn (by omega)

theorem decode_encode (e : Endian) (s : ColourSettings) (data : Buf) (h : data.length % 8 = 0) :
    decode e s (encode e s data) = data := by
  obtain ⟨n, hn⟩ : ∃ n, data.length = n * 8 := ⟨data.length / 8, by omega⟩
  rw [decode, encode_length e s h, hn, Nat.mul_div_cancel _ (by omega), encode]
  have := unsoa_columns (by omega) hn (fits (col := encCol e s.decorr)
      (fun _ _ => encCol_length _ _ _) s.split)
      (fun b hb => unFields_fields e s.decorr s.split hb) []
  rwa [List.append_nil] at this

theorem encode_decode (e : Endian) (s : ColourSettings) (data : Buf) (h : data.length % 8 = 0) :
    encode e s (decode e s data) = data := by
  obtain ⟨n, hn⟩ : ∃ n, data.length = n * 8 := ⟨data.length / 8, by omega⟩
  rw [decode, hn, Nat.mul_div_cancel _ (by omega), encode]
  exact columns_unsoa (by omega) (by rw [widths_sum]; exact hn)
    (unFields_length (fun _ _ => decCol_length _ _ _) s.split)
    (fun l hs => fields_unFields e s.decorr s.split l hs)

end Dlt.Bc1
