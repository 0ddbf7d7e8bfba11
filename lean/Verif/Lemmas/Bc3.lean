import Verif.Model.Bc3
import Verif.Lemmas.Bc3Simd
import Verif.Lemmas.Bc1
import Verif.Lemmas.SpecCol
/-! BC3: every machine and every setting meets the layout. -/

set_option linter.unusedSimpArgs false

namespace Dlt.Bc3
open Spec

theorem fits {col : Buf → Buf} (hc : ∀ bs : Buf, bs.length = 2 → (col bs).length = 2) (sa sc : Bool) :
    Fits 16 (bc3Fields col sa sc) (widths sa sc) := by
  cases sa <;> cases sc
  · exact fits00 hc
  · exact fits01 hc
  · exact fits10 hc
  · exact fits11 hc

theorem widths_sum (sa sc : Bool) : (widths sa sc).sum = 16 := by cases sa <;> cases sc <;> rfl

/-- Colour functions that agree on two-byte strings give the same layout. -/
theorem columns_col {c d : Buf → Buf} (h : ∀ bs : Buf, bs.length = 2 → c bs = d bs) (sa sc : Bool)
    {inp : Buf} {n : Nat} (hd : inp.length = n * 16) :
    columns 16 (bc3Fields c sa sc) inp = columns 16 (bc3Fields d sa sc) inp := by
  apply columns_congr (by omega) hd
  intro b hb
  have h1 := h _ (slice_length_of_le (l := b) (off := 8) (n := 2) (by omega))
  have h2 := h _ (slice_length_of_le (l := b) (off := 10) (n := 2) (by omega))
  cases sa <;> cases sc <;> simp [bc3Fields, h1, h2]

theorem unsoa_none (e : Endian) (sa sc : Bool) {inp : Buf} {n : Nat} (hd : inp.length = n * 16) :
    unsoa n (widths sa sc) (unFields id sa sc) inp =
      unsoa n (widths sa sc) (unFields (decCol e .none) sa sc) inp := by
  apply unsoa_congr
  intro i hi
  have := fieldsAt_shape hi 0 (widths sa sc) (inp := inp) (by rw [widths_sum]; omega)
  revert this
  generalize fieldsAt n inp i 0 (widths sa sc) = l
  intro hs
  cases sa <;> cases sc
  · match l, hs with
    | [a, b, c, x], hs =>
      simp only [widths, Shape] at hs
      simp only [unFields]
      rw [decCol_none e (slice_length_of_le (by omega)), decCol_none e (slice_length_of_le (by omega))]
      rfl
  · match l, hs with
    | [a, b, c0, c1, x], hs =>
      simp only [widths, Shape] at hs
      simp only [unFields]
      rw [decCol_none e (by omega), decCol_none e (by omega)]
      rfl
  · match l, hs with
    | [a0, a1, b, c, x], hs =>
      simp only [widths, Shape] at hs
      simp only [unFields]
      rw [decCol_none e (slice_length_of_le (by omega)), decCol_none e (slice_length_of_le (by omega))]
      rfl
  · match l, hs with
    | [a0, a1, b, c0, c1, x], hs =>
      simp only [widths, Shape] at hs
      simp only [unFields]
      rw [decCol_none e (by omega), decCol_none e (by omega)]
      rfl

/-- Every machine and setting: the transform writes the documented layout and leaves the rest alone. -/
theorem transform_eq (m : Machine) (s : Settings) {inp out : Buf} {n : Nat}
    (hd : inp.length = n * 16) (ho : n * 16 ≤ out.length) :
    transformWithSettings m inp out (n * 16) s =
      some (columns 16 (bc3Fields (encCol m.endian s.decorr) s.splitAlpha s.splitColour) inp ++
        out.drop (n * 16)) := by
  obtain ⟨v, sa, sc⟩ := s
  have hlen : ∀ (col : Buf → Buf), (∀ bs : Buf, bs.length = 2 → (col bs).length = 2) → ∀ sa sc,
      (columns 16 (bc3Fields col sa sc) inp).length = n * (widths sa sc).sum := fun col hc sa sc =>
    columns_length (by omega) hd (fits hc sa sc)
  have q8 : n * 16 / 8 = n * 2 := by omega
  have q2 : n * 16 / 2 = n * 8 := by omega
  have q4 : n * 8 + n * 16 / 4 = n * 12 := by omega
  have q16 : n * 16 / 16 = n := by omega
  have cn : ∀ sa sc, columns 16 (bc3Fields (encCol m.endian .none) sa sc) inp =
      columns 16 (bc3Fields id sa sc) inp := fun sa sc =>
    columns_col (fun bs h => encCol_none m.endian h) sa sc hd
  unfold transformWithSettings
  cases sa <;> cases sc
  · -- split alpha false, split colour false
    by_cases hv : v = .none
    · subst hv
      have hdv : decide (Variant.none ≠ .none) = false := by simp
      simp only [hdv]
      rw [cn]
      have ha := agree_startT (hlen id (fun _ h => h) false false) (by rw [widths_sum]; exact ho)
      rw [widths_sum] at ha
      apply ok_endT (n := n) (ws := [2, 6, 4, 4])
      match m with
      | .x86 f =>
        simp only [stdTransform, transformVbmi, transformAvx2, transformPortable, q16]
        split
        · exact transformVbmiPtrs_ok hd rfl ha
        split
        · exact transformAvx2Ptrs_ok _ hd rfl ha
        · simpa [Machine.endian] using transformPtrs_ok .little (k := 0) hd rfl ha (by omega)
      | .other e _ =>
        simp only [stdTransform, transformPortable, q16]
        simpa [Machine.endian] using transformPtrs_ok e (k := 0) hd rfl ha (by omega)
    · have hdv : decide (v ≠ .none) = true := by simp [hv]
      simp only [hdv]
      have ha := agree_startT (hlen (encCol m.endian v) (fun _ _ => encCol_length _ _ _) false false) (by rw [widths_sum]; exact ho)
      rw [widths_sum] at ha
      apply ok_endT (n := n) (ws := [2, 6, 4, 4])
      match m with
      | .x86 f =>
        simp only [transformWithDecorrelate, q8, q2, q4, q16]
        split
        · exact transformRecorrVbmi_ok v hv hd rfl ha
        split
        · exact transformRecorrAvx2_ok _ v hv hd rfl ha
        · simpa [Machine.endian] using transformRecorrGeneric_ok .little v (k := 0) hv hd rfl ha (by omega)
      | .other e _ =>
        simp only [transformWithDecorrelate, q8, q2, q4, q16]
        simpa [Machine.endian] using transformRecorrGeneric_ok e v (k := 0) hv hd rfl ha (by omega)
  · -- split alpha false, split colour true
    by_cases hv : v = .none
    · subst hv
      have hdv : decide (Variant.none ≠ .none) = false := by simp
      simp only [hdv]
      rw [cn]
      have ha := agree_startT (hlen id (fun _ h => h) false true) (by rw [widths_sum]; exact ho)
      rw [widths_sum] at ha
      apply ok_endT (n := n) (ws := [2, 6, 2, 2, 4])
      simp only [q16]
      simpa using transformColourGeneric_ok m.endian (k := 0) hd rfl ha (by omega)
    · have hdv : decide (v ≠ .none) = true := by simp [hv]
      simp only [hdv]
      have ha := agree_startT (hlen (encCol m.endian v) (fun _ _ => encCol_length _ _ _) false true) (by rw [widths_sum]; exact ho)
      rw [widths_sum] at ha
      apply ok_endT (n := n) (ws := [2, 6, 2, 2, 4])
      simp only [q16]
      simpa using transformColourRecorrGeneric_ok m.endian v (k := 0) hv hd rfl ha (by omega)
  · -- split alpha true, split colour false
    by_cases hv : v = .none
    · subst hv
      have hdv : decide (Variant.none ≠ .none) = false := by simp
      simp only [hdv]
      rw [cn]
      have ha := agree_startT (hlen id (fun _ h => h) true false) (by rw [widths_sum]; exact ho)
      rw [widths_sum] at ha
      apply ok_endT (n := n) (ws := [1, 1, 6, 4, 4])
      match m with
      | .x86 f =>
        simp only [transformWithSplitAlphas, q16]
        split
        · exact transformAlphaVbmi_ok hd rfl ha
        split
        · exact transformAlphaAvx2_ok _ hd rfl ha
        · simpa [Machine.endian] using transformAlphaGeneric_ok .little (k := 0) hd rfl ha (by omega)
      | .other e _ =>
        simp only [transformWithSplitAlphas, q16]
        simpa [Machine.endian] using transformAlphaGeneric_ok e (k := 0) hd rfl ha (by omega)
    · have hdv : decide (v ≠ .none) = true := by simp [hv]
      simp only [hdv]
      have ha := agree_startT (hlen (encCol m.endian v) (fun _ _ => encCol_length _ _ _) true false) (by rw [widths_sum]; exact ho)
      rw [widths_sum] at ha
      apply ok_endT (n := n) (ws := [1, 1, 6, 4, 4])
      simp only [q16]
      simpa using transformAlphaRecorrGeneric_ok m.endian v (k := 0) hv hd rfl ha (by omega)
  · -- split alpha true, split colour true
    by_cases hv : v = .none
    · subst hv
      have hdv : decide (Variant.none ≠ .none) = false := by simp
      simp only [hdv]
      rw [cn]
      have ha := agree_startT (hlen id (fun _ h => h) true true) (by rw [widths_sum]; exact ho)
      rw [widths_sum] at ha
      apply ok_endT (n := n) (ws := [1, 1, 6, 2, 2, 4])
      simp only [q16]
      simpa using transformBothGeneric_ok m.endian (k := 0) hd rfl ha (by omega)
    · have hdv : decide (v ≠ .none) = true := by simp [hv]
      simp only [hdv]
      have ha := agree_startT (hlen (encCol m.endian v) (fun _ _ => encCol_length _ _ _) true true) (by rw [widths_sum]; exact ho)
      rw [widths_sum] at ha
      apply ok_endT (n := n) (ws := [1, 1, 6, 2, 2, 4])
      simp only [q16]
      simpa using transformBothRecorrGeneric_ok m.endian v (k := 0) hv hd rfl ha (by omega)

/-- Every machine and setting: the untransform writes the inverse layout and leaves the rest alone. -/
theorem untransform_eq (m : Machine) (s : Settings) {inp out : Buf} {n : Nat}
    (hd : inp.length = n * 16) (ho : n * 16 ≤ out.length) :
    untransformWithSettings m inp out (n * 16) s =
      some (unsoa n (widths s.splitAlpha s.splitColour)
        (unFields (decCol m.endian s.decorr) s.splitAlpha s.splitColour) inp ++ out.drop (n * 16)) := by
  obtain ⟨v, sa, sc⟩ := s
  have hlen : ∀ (col : Buf → Buf), (∀ bs : Buf, bs.length = 2 → (col bs).length = 2) → ∀ sa sc,
      (unsoa n (widths sa sc) (unFields col sa sc) inp).length = n * 16 := fun col hc sa sc =>
    unsoa_length (by rw [widths_sum]; omega) (unFields_length hc sa sc)
  have q8 : n * 16 / 8 = n * 2 := by omega
  have q2 : n * 16 / 2 = n * 8 := by omega
  have q4 : n * 8 + n * 16 / 4 = n * 12 := by omega
  have q16 : n * 16 / 16 = n := by omega
  unfold untransformWithSettings
  apply ok_endU (n := n) (B := 16)
  cases sa <;> cases sc
  · -- split alpha false, split colour false
    by_cases hv : v = .none
    · subst hv
      have hdv : decide (Variant.none ≠ .none) = false := by simp
      simp only [hdv]
      rw [← unsoa_none m.endian false false hd]
      have ha := agree_startU (hlen id (fun _ h => h) false false) ho
      match m with
      | .x86 f =>
        simp only [stdUntransform, untransformVbmi64, untransformVbmi32, untransformSse2x64, q16]
        split
        · split
          · exact untransformVbmi64Ptrs_ok hd rfl ha
          · exact untransformVbmi32Ptrs_ok _ hd rfl ha
        split
        · exact untransformSse2x64Ptrs_ok hd rfl ha
        split
        · exact untransformSse2x32_ok hd rfl ha
        · exact untransformV2_ok .little hd rfl ha
      | .other e _ =>
        exact untransformV2_ok e hd rfl ha
    · have hdv : decide (v ≠ .none) = true := by simp [hv]
      simp only [hdv]
      have ha := agree_startU (hlen (decCol m.endian v) (fun _ _ => decCol_length _ _ _) false false) ho
      match m with
      | .x86 f =>
        simp only [untransformWithRecorrelate, q8, q2, q4, q16]
        split
        · split
          · exact untransformRecorrVbmi64_ok v hv hd rfl ha
          · exact untransformRecorrVbmi32_ok _ v hv hd rfl ha
        split
        · exact untransformRecorrSse2_ok v hv hd rfl ha
        · simpa [Machine.endian] using untransformRecorrGeneric_ok .little v (k := 0) hv hd rfl ha (by omega)
      | .other e _ =>
        simp only [untransformWithRecorrelate, q8, q2, q4, q16]
        simpa [Machine.endian] using untransformRecorrGeneric_ok e v (k := 0) hv hd rfl ha (by omega)
  · -- split alpha false, split colour true
    by_cases hv : v = .none
    · subst hv
      have hdv : decide (Variant.none ≠ .none) = false := by simp
      simp only [hdv]
      rw [← unsoa_none m.endian false true hd]
      have ha := agree_startU (hlen id (fun _ h => h) false true) ho
      simp only [q16]
      simpa using untransformColourGeneric_ok m.endian (k := 0) hd rfl ha (by omega)
    · have hdv : decide (v ≠ .none) = true := by simp [hv]
      simp only [hdv]
      have ha := agree_startU (hlen (decCol m.endian v) (fun _ _ => decCol_length _ _ _) false true) ho
      simp only [q16]
      simpa using untransformColourRecorrGeneric_ok m.endian v (k := 0) hv hd rfl ha (by omega)
  · -- split alpha true, split colour false
    by_cases hv : v = .none
    · subst hv
      have hdv : decide (Variant.none ≠ .none) = false := by simp
      simp only [hdv]
      rw [← unsoa_none m.endian true false hd]
      have ha := agree_startU (hlen id (fun _ h => h) true false) ho
      match m with
      | .x86 f =>
        simp only [untransformWithSplitAlphas, q16]
        split
        · exact untransformAlphaSse2_ok hd rfl ha
        · simpa [Machine.endian] using untransformAlphaGeneric_ok .little (k := 0) hd rfl ha (by omega)
      | .other e _ =>
        simp only [untransformWithSplitAlphas, q16]
        simpa [Machine.endian] using untransformAlphaGeneric_ok e (k := 0) hd rfl ha (by omega)
    · have hdv : decide (v ≠ .none) = true := by simp [hv]
      simp only [hdv]
      have ha := agree_startU (hlen (decCol m.endian v) (fun _ _ => decCol_length _ _ _) true false) ho
      simp only [q16]
      simpa using untransformAlphaRecorrGeneric_ok m.endian v (k := 0) hv hd rfl ha (by omega)
  · -- split alpha true, split colour true
    by_cases hv : v = .none
    · subst hv
      have hdv : decide (Variant.none ≠ .none) = false := by simp
      simp only [hdv]
      rw [← unsoa_none m.endian true true hd]
      have ha := agree_startU (hlen id (fun _ h => h) true true) ho
      simp only [q16]
      simpa using untransformBothGeneric_ok m.endian (k := 0) hd rfl ha (by omega)
    · have hdv : decide (v ≠ .none) = true := by simp [hv]
      simp only [hdv]
      have ha := agree_startU (hlen (decCol m.endian v) (fun _ _ => decCol_length _ _ _) true true) ho
      simp only [q16]
      simpa using untransformBothRecorrGeneric_ok m.endian v (k := 0) hv hd rfl ha (by omega)

/-- The per-block inverse undoes the fields. -/
theorem unFields_fields (e : Endian) (v : Variant) (sa sc : Bool) {b : Buf} (hb : b.length = 16) :
    unFields (decCol e v) sa sc ((bc3Fields (encCol e v) sa sc).map (fun f => f b)) = b := by
  have s0 : (slice b 8 2).length = 2 := slice_length_of_le (by omega)
  have s1 : (slice b 10 2).length = 2 := slice_length_of_le (by omega)
  have l0 := encCol_length e v (slice b 8 2)
  have l1 := encCol_length e v (slice b 10 2)
  have hcat : slice b 2 6 ++ (slice b 8 2 ++ slice b 10 2 ++ slice b 12 4) = slice b 2 14 := by
    rw [slice_append_slice b 8 2 2, slice_append_slice b 8 4 4, slice_append_slice b 2 6 8]
  cases sa <;> cases sc
  · simp only [bc3Fields, Bool.false_eq_true, if_false, if_true, List.map_cons, List.map_nil, List.map_append, List.cons_append, List.nil_append, unFields]
    rw [slice_append_left _ _ _ _ (by omega), slice_append_right _ _ _ 0 _ (by omega)]
    rw [slice_all l0, slice_all l1]
    rw [decCol_encCol e v s0, decCol_encCol e v s1, hcat]
    rw [slice_append_slice b 0 2 14, slice_all hb]
  · simp only [bc3Fields, Bool.false_eq_true, if_false, if_true, List.map_cons, List.map_nil, List.map_append, List.cons_append, List.nil_append, unFields]
    rw [decCol_encCol e v s0, decCol_encCol e v s1, hcat]
    rw [slice_append_slice b 0 2 14, slice_all hb]
  · simp only [bc3Fields, Bool.false_eq_true, if_false, if_true, List.map_cons, List.map_nil, List.map_append, List.cons_append, List.nil_append, unFields]
    rw [slice_append_left _ _ _ _ (by omega), slice_append_right _ _ _ 0 _ (by omega)]
    rw [slice_all l0, slice_all l1]
    rw [decCol_encCol e v s0, decCol_encCol e v s1, hcat]
    rw [slice_append_slice b 1 1 14, slice_append_slice b 0 1 15, slice_all hb]
  · simp only [bc3Fields, Bool.false_eq_true, if_false, if_true, List.map_cons, List.map_nil, List.map_append, List.cons_append, List.nil_append, unFields]
    rw [decCol_encCol e v s0, decCol_encCol e v s1, hcat]
    rw [slice_append_slice b 1 1 14, slice_append_slice b 0 1 15, slice_all hb]

theorem fields_unFields (e : Endian) (v : Variant) (sa sc : Bool) (l : List Buf)
    (hl : Shape l (widths sa sc)) :
    (bc3Fields (encCol e v) sa sc).map (fun f => f (unFields (decCol e v) sa sc l)) = l := by
  cases sa <;> cases sc
  · match l, hl with
    | [a, b, c, x], hl =>
      simp only [widths, Shape] at hl
      have s0 : (slice c 0 2).length = 2 := slice_length_of_le (by omega)
      have s1 : (slice c 2 2).length = 2 := slice_length_of_le (by omega)
      have d0 := decCol_length e v (slice c 0 2)
      have d1 := decCol_length e v (slice c 2 2)
      simp only [bc3Fields, Bool.false_eq_true, if_false, if_true, List.map_cons, List.map_nil, List.cons_append, List.nil_append, unFields,
        List.append_assoc]
      rw [slice_append_left _ _ 0 2 (by omega),
        slice_all hl.1,
        slice_append_right _ _ 2 0 6 (by omega),
        slice_append_left _ _ 0 6 (by omega),
        slice_all hl.2.1,
        slice_append_right _ _ 8 6 2 (by omega),
        slice_append_right _ _ 6 0 2 (by omega),
        slice_append_left _ _ 0 2 (by omega),
        slice_all d0,
        encCol_decCol e v s0,
        slice_append_right _ _ 10 8 2 (by omega),
        slice_append_right _ _ 8 2 2 (by omega),
        slice_append_right _ _ 2 0 2 (by omega),
        slice_append_left _ _ 0 2 (by omega),
        slice_all d1,
        encCol_decCol e v s1,
        slice_append_right _ _ 12 10 4 (by omega),
        slice_append_right _ _ 10 4 4 (by omega),
        slice_append_right _ _ 4 2 4 (by omega),
        slice_append_right _ _ 2 0 4 (by omega),
        slice_all hl.2.2.2.1,
        slice_append_slice c 0 2 2,
        slice_all hl.2.2.1]
  · match l, hl with
    | [a, b, c0, c1, x], hl =>
      simp only [widths, Shape] at hl
      have d0 := decCol_length e v c0
      have d1 := decCol_length e v c1
      simp only [bc3Fields, Bool.false_eq_true, if_false, if_true, List.map_cons, List.map_nil, List.cons_append, List.nil_append, unFields,
        List.append_assoc]
      rw [slice_append_left _ _ 0 2 (by omega),
        slice_all hl.1,
        slice_append_right _ _ 2 0 6 (by omega),
        slice_append_left _ _ 0 6 (by omega),
        slice_all hl.2.1,
        slice_append_right _ _ 8 6 2 (by omega),
        slice_append_right _ _ 6 0 2 (by omega),
        slice_append_left _ _ 0 2 (by omega),
        slice_all d0,
        encCol_decCol e v hl.2.2.1,
        slice_append_right _ _ 10 8 2 (by omega),
        slice_append_right _ _ 8 2 2 (by omega),
        slice_append_right _ _ 2 0 2 (by omega),
        slice_append_left _ _ 0 2 (by omega),
        slice_all d1,
        encCol_decCol e v hl.2.2.2.1,
        slice_append_right _ _ 12 10 4 (by omega),
        slice_append_right _ _ 10 4 4 (by omega),
        slice_append_right _ _ 4 2 4 (by omega),
        slice_append_right _ _ 2 0 4 (by omega),
        slice_all hl.2.2.2.2.1]
  · match l, hl with
    | [a0, a1, b, c, x], hl =>
      simp only [widths, Shape] at hl
      have s0 : (slice c 0 2).length = 2 := slice_length_of_le (by omega)
      have s1 : (slice c 2 2).length = 2 := slice_length_of_le (by omega)
      have d0 := decCol_length e v (slice c 0 2)
      have d1 := decCol_length e v (slice c 2 2)
      simp only [bc3Fields, Bool.false_eq_true, if_false, if_true, List.map_cons, List.map_nil, List.cons_append, List.nil_append, unFields,
        List.append_assoc]
      rw [slice_append_left _ _ 0 1 (by omega),
        slice_all hl.1,
        slice_append_right _ _ 1 0 1 (by omega),
        slice_append_left _ _ 0 1 (by omega),
        slice_all hl.2.1,
        slice_append_right _ _ 2 1 6 (by omega),
        slice_append_right _ _ 1 0 6 (by omega),
        slice_append_left _ _ 0 6 (by omega),
        slice_all hl.2.2.1,
        slice_append_right _ _ 8 7 2 (by omega),
        slice_append_right _ _ 7 6 2 (by omega),
        slice_append_right _ _ 6 0 2 (by omega),
        slice_append_left _ _ 0 2 (by omega),
        slice_all d0,
        encCol_decCol e v s0,
        slice_append_right _ _ 10 9 2 (by omega),
        slice_append_right _ _ 9 8 2 (by omega),
        slice_append_right _ _ 8 2 2 (by omega),
        slice_append_right _ _ 2 0 2 (by omega),
        slice_append_left _ _ 0 2 (by omega),
        slice_all d1,
        encCol_decCol e v s1,
        slice_append_right _ _ 12 11 4 (by omega),
        slice_append_right _ _ 11 10 4 (by omega),
        slice_append_right _ _ 10 4 4 (by omega),
        slice_append_right _ _ 4 2 4 (by omega),
        slice_append_right _ _ 2 0 4 (by omega),
        slice_all hl.2.2.2.2.1,
        slice_append_slice c 0 2 2,
        slice_all hl.2.2.2.1]
  · match l, hl with
    | [a0, a1, b, c0, c1, x], hl =>
      simp only [widths, Shape] at hl
      have d0 := decCol_length e v c0
      have d1 := decCol_length e v c1
      simp only [bc3Fields, Bool.false_eq_true, if_false, if_true, List.map_cons, List.map_nil, List.cons_append, List.nil_append, unFields,
        List.append_assoc]
      rw [slice_append_left _ _ 0 1 (by omega),
        slice_all hl.1,
        slice_append_right _ _ 1 0 1 (by omega),
        slice_append_left _ _ 0 1 (by omega),
        slice_all hl.2.1,
        slice_append_right _ _ 2 1 6 (by omega),
        slice_append_right _ _ 1 0 6 (by omega),
        slice_append_left _ _ 0 6 (by omega),
        slice_all hl.2.2.1,
        slice_append_right _ _ 8 7 2 (by omega),
        slice_append_right _ _ 7 6 2 (by omega),
        slice_append_right _ _ 6 0 2 (by omega),
        slice_append_left _ _ 0 2 (by omega),
        slice_all d0,
        encCol_decCol e v hl.2.2.2.1,
        slice_append_right _ _ 10 9 2 (by omega),
        slice_append_right _ _ 9 8 2 (by omega),
        slice_append_right _ _ 8 2 2 (by omega),
        slice_append_right _ _ 2 0 2 (by omega),
        slice_append_left _ _ 0 2 (by omega),
        slice_all d1,
        encCol_decCol e v hl.2.2.2.2.1,
        slice_append_right _ _ 12 11 4 (by omega),
        slice_append_right _ _ 11 10 4 (by omega),
        slice_append_right _ _ 10 4 4 (by omega),
        slice_append_right _ _ 4 2 4 (by omega),
        slice_append_right _ _ 2 0 4 (by omega),
        slice_all hl.2.2.2.2.2.1]

/-- The transformed form of whole blocks. -/
def encode (e : Endian) (s : Settings) (data : Buf) : Buf :=
  columns 16 (bc3Fields (encCol e s.decorr) s.splitAlpha s.splitColour) data

/-- Its inverse. -/
def decode (e : Endian) (s : Settings) (data : Buf) : Buf :=
  unsoa (data.length / 16) (widths s.splitAlpha s.splitColour) (unFields (decCol e s.decorr) s.splitAlpha s.splitColour) data

theorem encode_length (e : Endian) (s : Settings) {data : Buf} (h : data.length % 16 = 0) :
    (encode e s data).length = data.length := by
  obtain ⟨n, hn⟩ : ∃ n, data.length = n * 16 := ⟨data.length / 16, by omega⟩
  rw [encode, columns_length (by omega) hn (fits (fun _ _ => encCol_length _ _ _) s.splitAlpha s.splitColour), widths_sum, hn]

theorem decode_length (e : Endian) (s : Settings) {data : Buf} (h : data.length % 16 = 0) :
    (decode e s data).length = data.length := by
  rw [decode, unsoa_length (by rw [widths_sum]; omega)
    (unFields_length (fun _ _ => decCol_length _ _ _) s.splitAlpha s.splitColour)]; omega

theorem transform_impl (m : Machine) (s : Settings) :
    Implements 16 (fun i o l => transformWithSettings m i o l s) (encode m.endian s) := by
  intro data out h ho
  obtain ⟨n, hn⟩ : ∃ n, data.length = n * 16 := ⟨data.length / 16, by omega⟩
  refine ⟨encode_length _ _ h, ?_⟩
  show transformWithSettings m data out data.length s = _
  rw [hn]; exact transform_eq m s hn (by omega)

theorem untransform_impl (m : Machine) (s : Settings) :
    Implements 16 (fun i o l => untransformWithSettings m i o l s) (decode m.endian s) := by
  intro data out h ho
  obtain ⟨n, hn⟩ : ∃ n, data.length = n * 16 := ⟨data.length / 16, by omega⟩
  refine ⟨decode_length _ _ h, ?_⟩
  show untransformWithSettings m data out data.length s = _
  rw [decode, hn, Nat.mul_div_cancel _ (by omega)]; exact untransform_eq m s hn (by omega)

theorem decode_encode (e : Endian) (s : Settings) (data : Buf) (h : data.length % 16 = 0) :
    decode e s (encode e s data) = data := by
  obtain ⟨n, hn⟩ : ∃ n, data.length = n * 16 := ⟨data.length / 16, by omega⟩
  rw [decode, encode_length e s h, hn, Nat.mul_div_cancel _ (by omega), encode]
  have := unsoa_columns (by omega) hn (fits (col := encCol e s.decorr)
      (fun _ _ => encCol_length _ _ _) s.splitAlpha s.splitColour)
      (fun b hb => unFields_fields e s.decorr s.splitAlpha s.splitColour hb) []
  rwa [List.append_nil] at this

theorem encode_decode (e : Endian) (s : Settings) (data : Buf) (h : data.length % 16 = 0) :
    encode e s (decode e s data) = data := by
  obtain ⟨n, hn⟩ : ∃ n, data.length = n * 16 := ⟨data.length / 16, by omega⟩
  rw [decode, hn, Nat.mul_div_cancel _ (by omega), encode]
  exact columns_unsoa (by omega) (by rw [widths_sum]; exact hn)
    (unFields_length (fun _ _ => decCol_length _ _ _) s.splitAlpha s.splitColour)
    (fun l hs => fields_unFields e s.decorr s.splitAlpha s.splitColour l hs)

end Dlt.Bc3
