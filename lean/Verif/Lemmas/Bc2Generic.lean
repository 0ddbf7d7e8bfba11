import Verif.Model.Bc2Generic
import Verif.Lemmas.Tactic
/-! The portable BC2 kernels produce the specified layout, from any intermediate state. -/

set_option linter.unusedSimpArgs false

namespace Dlt.Bc2
open Spec

/-- Field widths of the BC2 layouts. -/
def widths : Bool → List Nat
  | false => [8, 4, 4]
  | true => [8, 2, 2, 4]

theorem fits_std {col : Buf → Buf} (hc : ∀ bs : Buf, bs.length = 2 → (col bs).length = 2) :
    Fits 16 (bc2Fields col false) [8, 4, 4] := by
  refine ⟨fun b hb => ?_, fun b hb => ?_, fun b hb => ?_, trivial⟩
  · exact slice_length_of_le (by omega)
  · rw [List.length_append, hc _ (slice_length_of_le (by omega)),
      hc _ (slice_length_of_le (by omega))]
  · exact slice_length_of_le (by omega)

theorem fits_split {col : Buf → Buf} (hc : ∀ bs : Buf, bs.length = 2 → (col bs).length = 2) :
    Fits 16 (bc2Fields col true) [8, 2, 2, 4] := by
  refine ⟨fun b hb => ?_, fun b hb => ?_, fun b hb => ?_, fun b hb => ?_, trivial⟩
  · exact slice_length_of_le (by omega)
  · exact hc _ (slice_length_of_le (by omega))
  · exact hc _ (slice_length_of_le (by omega))
  · exact slice_length_of_le (by omega)

/-- Inverse of `bc2Fields` on one block. -/
def unFields (col : Buf → Buf) : Bool → List Buf → Buf
  | false, [a, c, x] => a ++ (col (slice c 0 2) ++ col (slice c 2 2) ++ x)
  | true, [a, c0, c1, x] => a ++ (col c0 ++ col c1 ++ x)
  | _, _ => []

theorem unFields_length {col : Buf → Buf} (hc : ∀ bs : Buf, bs.length = 2 → (col bs).length = 2)
    (split : Bool) (l : List Buf) (h : Shape l (widths split)) : (unFields col split l).length = 16 := by
  cases split
  · match l, h with
    | [a, c, x], h =>
      simp only [widths, Shape] at h
      simp only [unFields, List.length_append]
      rw [hc _ (slice_length_of_le (by omega)), hc _ (slice_length_of_le (by omega))]; omega
  · match l, h with
    | [a, c0, c1, x], h =>
      simp only [widths, Shape] at h
      simp only [unFields, List.length_append]
      rw [hc _ h.2.1, hc _ h.2.2.1]; omega

theorem transformPtrs_ok (e : Endian) {inp : Buf} {n k : Nat} {T out tail : Buf}
    (hd : inp.length = n * 16) (hT : T = columns 16 (bc2Fields id false) inp ++ tail)
    (ho : Agree (DoneT n [8, 4, 4] k) T out) (hk : k ≤ n) :
    Ok (transformPtrs e inp (k * 16) out (k * 8) (n * 8 + k * 4) (n * 12 + k * 4) ((n - k) * 16)) (Agree (DoneT n [8, 4, 4] n) T) := by
  have hf := fits_std (col := id) (fun _ h => h)
  have hTl : n * 16 ≤ T.length := by
    rw [hT, List.length_append, columns_length (by omega) hd hf]; simp
  unfold transformPtrs
  apply Ok.bind
  apply Ok.whileM (fun i s => s.1 = (k + i) * 16 ∧ s.2.1 = (k + i) * 8 ∧ s.2.2.1 = n * 8 + (k + i) * 4 ∧ s.2.2.2.1 = n * 12 + (k + i) * 4 ∧ Agree (DoneT n [8, 4, 4] (k + i)) T s.2.2.2.2) (n - k) (by omega)
  · exact ⟨rfl, rfl, rfl, rfl, ho⟩
  · rintro i ⟨ip, ap, cp, xp, out⟩ hi ⟨rfl, rfl, rfl, rfl, ha⟩
    refine ⟨by simp; omega, ?_⟩
    ksec h0 0 (k + i) 1 hd tail hf hT
    ksec h1 1 (k + i) 1 hd tail hf hT
    ksec h2 2 (k + i) 1 hd tail hf hT
    kld
    kld
    kld
    kst ha h0 0
    · kbytes e
    kst ha h1 0
    · kbytes e
    kst ha h2 0
    · kbytes e
    kend ha
  · rintro ⟨ip, ap, cp, xp, out⟩ ⟨rfl, rfl, rfl, rfl, ha⟩
    refine ⟨by simp; omega, Ok.pure ?_⟩
    rw [show k + (n - k) = n by omega] at ha
    exact ha

theorem transformSplitGeneric_ok (e : Endian) {inp : Buf} {n k : Nat} {T out tail : Buf}
    (hd : inp.length = n * 16) (hT : T = columns 16 (bc2Fields id true) inp ++ tail)
    (ho : Agree (DoneT n [8, 2, 2, 4] k) T out) (hk : k ≤ n) :
    Ok (transformSplitGeneric e inp (k * 16) out (k * 8) (n * 8 + k * 2) (n * 10 + k * 2) (n * 12 + k * 4) (n - k)) (Agree (DoneT n [8, 2, 2, 4] n) T) := by
  have hf := fits_split (col := id) (fun _ h => h)
  have hTl : n * 16 ≤ T.length := by
    rw [hT, List.length_append, columns_length (by omega) hd hf]; simp
  unfold transformSplitGeneric
  apply Ok.bind
  apply Ok.whileM (fun i s => s.1 = (k + i) * 16 ∧ s.2.1 = (k + i) * 8 ∧ s.2.2.1 = n * 8 + (k + i) * 2 ∧ s.2.2.2.1 = n * 10 + (k + i) * 2 ∧ s.2.2.2.2.1 = n * 12 + (k + i) * 4 ∧ Agree (DoneT n [8, 2, 2, 4] (k + i)) T s.2.2.2.2.2) (n - k) (by omega)
  · exact ⟨rfl, rfl, rfl, rfl, rfl, ho⟩
  · rintro i ⟨ip, ap, c0p, c1p, xp, out⟩ hi ⟨rfl, rfl, rfl, rfl, rfl, ha⟩
    refine ⟨by simp; omega, ?_⟩
    ksec h0 0 (k + i) 1 hd tail hf hT
    ksec h1 1 (k + i) 1 hd tail hf hT
    ksec h2 2 (k + i) 1 hd tail hf hT
    ksec h3 3 (k + i) 1 hd tail hf hT
    kld
    kld
    kld
    kld
    kst ha h0 0
    · kbytes e
    kst ha h1 0
    · kbytes e
    kst ha h2 0
    · kbytes e
    kst ha h3 0
    · kbytes e
    kend ha
  · rintro ⟨ip, ap, c0p, c1p, xp, out⟩ ⟨rfl, rfl, rfl, rfl, rfl, ha⟩
    refine ⟨by simp; omega, Ok.pure ?_⟩
    rw [show k + (n - k) = n by omega] at ha
    exact ha

theorem untransformPtrs_ok (e : Endian) {inp : Buf} {n k : Nat} {T out tail : Buf}
    (hd : inp.length = n * 16) (hT : T = unsoa n (widths false) (unFields id false) inp ++ tail)
    (ho : Agree (DoneU n 16 k) T out) (hk : k ≤ n) :
    Ok (untransformPtrs e inp (k * 8) (n * 8 + k * 4) (n * 12 + k * 4) out (k * 16) ((n - k) * 16)) (Agree (DoneU n 16 n) T) := by
  have hg := unFields_length (col := id) (fun _ h => h) false
  have hl : n * ((widths false)).sum ≤ inp.length := by simp [widths]; omega
  have hTl : n * 16 ≤ T.length := by
    rw [hT, List.length_append, unsoa_length hl hg]; omega
  unfold untransformPtrs
  apply Ok.bind
  apply Ok.whileM (fun i s => s.1 = (k + i) * 8 ∧ s.2.1 = n * 8 + (k + i) * 4 ∧ s.2.2.1 = n * 12 + (k + i) * 4 ∧ s.2.2.2.1 = (k + i) * 16 ∧ Agree (DoneU n 16 (k + i)) T s.2.2.2.2) (n - k) (by omega)
  · exact ⟨rfl, rfl, rfl, rfl, ho⟩
  · rintro i ⟨ap, cp, xp, op, out⟩ hi ⟨rfl, rfl, rfl, rfl, ha⟩
    refine ⟨by simp; omega, ?_⟩
    kblk h0 (k + i) 1 tail hl hg hT
    simp only [widths, chunkFields, Nat.zero_add, ← Nat.mul_add, Nat.reduceAdd] at h0
    kld
    kld
    kld
    kst ha h0 0
    · kbytes e
    kst ha h0 8
    · kbytes e
    kst ha h0 12
    · kbytes e
    kend ha
  · rintro ⟨ap, cp, xp, op, out⟩ ⟨rfl, rfl, rfl, rfl, ha⟩
    refine ⟨by simp; omega, Ok.pure ?_⟩
    rw [show k + (n - k) = n by omega] at ha
    exact ha

theorem untransformSplitGeneric_ok (e : Endian) {inp : Buf} {n k : Nat} {T out tail : Buf}
    (hd : inp.length = n * 16) (hT : T = unsoa n (widths true) (unFields id true) inp ++ tail)
    (ho : Agree (DoneU n 16 k) T out) (hk : k ≤ n) :
    Ok (untransformSplitGeneric e inp (k * 8) (n * 8 + k * 2) (n * 10 + k * 2) (n * 12 + k * 4) out (k * 16) (n - k)) (Agree (DoneU n 16 n) T) := by
  have hg := unFields_length (col := id) (fun _ h => h) true
  have hl : n * ((widths true)).sum ≤ inp.length := by simp [widths]; omega
  have hTl : n * 16 ≤ T.length := by
    rw [hT, List.length_append, unsoa_length hl hg]; omega
  unfold untransformSplitGeneric
  apply Ok.bind
  apply Ok.whileM (fun i s => s.1 = (k + i) * 8 ∧ s.2.1 = n * 8 + (k + i) * 2 ∧ s.2.2.1 = n * 10 + (k + i) * 2 ∧ s.2.2.2.1 = n * 12 + (k + i) * 4 ∧ s.2.2.2.2.1 = (k + i) * 16 ∧ Agree (DoneU n 16 (k + i)) T s.2.2.2.2.2) (n - k) (by omega)
  · exact ⟨rfl, rfl, rfl, rfl, rfl, ho⟩
  · rintro i ⟨ap, c0p, c1p, xp, op, out⟩ hi ⟨rfl, rfl, rfl, rfl, rfl, ha⟩
    refine ⟨by simp; omega, ?_⟩
    kblk h0 (k + i) 1 tail hl hg hT
    simp only [widths, chunkFields, Nat.zero_add, ← Nat.mul_add, Nat.reduceAdd] at h0
    kld
    kld
    kld
    kld
    kst ha h0 0
    · kbytes e
    kst ha h0 8
    · kbytes e
    kst ha h0 10
    · kbytes e
    kst ha h0 12
    · kbytes e
    kend ha
  · rintro ⟨ap, c0p, c1p, xp, op, out⟩ ⟨rfl, rfl, rfl, rfl, rfl, ha⟩
    refine ⟨by simp; omega, Ok.pure ?_⟩
    rw [show k + (n - k) = n by omega] at ha
    exact ha

theorem transformRecorrGeneric_ok (e : Endian) (v : Variant) {inp : Buf} {n k : Nat} {T out tail : Buf}
    (hv : v ≠ .none) (hd : inp.length = n * 16) (hT : T = columns 16 (bc2Fields (encCol e v) false) inp ++ tail)
    (ho : Agree (DoneT n [8, 4, 4] k) T out) (hk : k ≤ n) :
    Ok (transformRecorrGeneric e inp (k * 16) out (k * 8) (n * 8 + k * 4) (n * 12 + k * 4) (n - k) v) (Agree (DoneT n [8, 4, 4] n) T) := by
  have hf := fits_std (col := (encCol e v)) (fun _ _ => encCol_length _ _ _)
  have hTl : n * 16 ≤ T.length := by
    rw [hT, List.length_append, columns_length (by omega) hd hf]; simp
  unfold transformRecorrGeneric
  rw [if_neg hv]
  apply Ok.bind
  apply Ok.whileM (fun i s => s.1 = (k + i) * 16 ∧ s.2.1 = (k + i) * 8 ∧ s.2.2.1 = n * 8 + (k + i) * 4 ∧ s.2.2.2.1 = n * 12 + (k + i) * 4 ∧ Agree (DoneT n [8, 4, 4] (k + i)) T s.2.2.2.2) (n - k) (by omega)
  · exact ⟨rfl, rfl, rfl, rfl, ho⟩
  · rintro i ⟨ip, ap, cp, xp, out⟩ hi ⟨rfl, rfl, rfl, rfl, ha⟩
    refine ⟨by simp; omega, ?_⟩
    ksec h0 0 (k + i) 1 hd tail hf hT
    ksec h1 1 (k + i) 1 hd tail hf hT
    ksec h2 2 (k + i) 1 hd tail hf hT
    kld
    kld
    kld
    kst ha h0 0
    · kbytes e
    kst ha h1 0
    · kbytes e
    kst ha h2 0
    · kbytes e
    kend ha
  · rintro ⟨ip, ap, cp, xp, out⟩ ⟨rfl, rfl, rfl, rfl, ha⟩
    refine ⟨by simp; omega, Ok.pure ?_⟩
    rw [show k + (n - k) = n by omega] at ha
    exact ha

theorem transformSplitRecorrGeneric_ok (e : Endian) (v : Variant) {inp : Buf} {n k : Nat} {T out tail : Buf}
    (hv : v ≠ .none) (hd : inp.length = n * 16) (hT : T = columns 16 (bc2Fields (encCol e v) true) inp ++ tail)
    (ho : Agree (DoneT n [8, 2, 2, 4] k) T out) (hk : k ≤ n) :
    Ok (transformSplitRecorrGeneric e inp (k * 16) out (k * 8) (n * 8 + k * 2) (n * 10 + k * 2) (n * 12 + k * 4) (n - k) v) (Agree (DoneT n [8, 2, 2, 4] n) T) := by
  have hf := fits_split (col := (encCol e v)) (fun _ _ => encCol_length _ _ _)
  have hTl : n * 16 ≤ T.length := by
    rw [hT, List.length_append, columns_length (by omega) hd hf]; simp
  unfold transformSplitRecorrGeneric
  rw [if_neg hv]
  apply Ok.bind
  apply Ok.whileM (fun i s => s.1 = (k + i) * 16 ∧ s.2.1 = (k + i) * 8 ∧ s.2.2.1 = n * 8 + (k + i) * 2 ∧ s.2.2.2.1 = n * 10 + (k + i) * 2 ∧ s.2.2.2.2.1 = n * 12 + (k + i) * 4 ∧ Agree (DoneT n [8, 2, 2, 4] (k + i)) T s.2.2.2.2.2) (n - k) (by omega)
  · exact ⟨rfl, rfl, rfl, rfl, rfl, ho⟩
  · rintro i ⟨ip, ap, c0p, c1p, xp, out⟩ hi ⟨rfl, rfl, rfl, rfl, rfl, ha⟩
    refine ⟨by simp; omega, ?_⟩
    ksec h0 0 (k + i) 1 hd tail hf hT
    ksec h1 1 (k + i) 1 hd tail hf hT
    ksec h2 2 (k + i) 1 hd tail hf hT
    ksec h3 3 (k + i) 1 hd tail hf hT
    kld
    kld
    kld
    kld
    kst ha h0 0
    · kbytes e
    kst ha h1 0
    · kbytes e
    kst ha h2 0
    · kbytes e
    kst ha h3 0
    · kbytes e
    kend ha
  · rintro ⟨ip, ap, c0p, c1p, xp, out⟩ ⟨rfl, rfl, rfl, rfl, rfl, ha⟩
    refine ⟨by simp; omega, Ok.pure ?_⟩
    rw [show k + (n - k) = n by omega] at ha
    exact ha

theorem untransformRecorrGeneric_ok (e : Endian) (v : Variant) {inp : Buf} {n k : Nat} {T out tail : Buf}
    (hv : v ≠ .none) (hd : inp.length = n * 16) (hT : T = unsoa n (widths false) (unFields (decCol e v) false) inp ++ tail)
    (ho : Agree (DoneU n 16 k) T out) (hk : k ≤ n) :
    Ok (untransformRecorrGeneric e inp (k * 8) (n * 8 + k * 4) (n * 12 + k * 4) out (k * 16) (n - k) v) (Agree (DoneU n 16 n) T) := by
  have hg := unFields_length (col := (decCol e v)) (fun _ _ => decCol_length _ _ _) false
  have hl : n * ((widths false)).sum ≤ inp.length := by simp [widths]; omega
  have hTl : n * 16 ≤ T.length := by
    rw [hT, List.length_append, unsoa_length hl hg]; omega
  unfold untransformRecorrGeneric
  rw [if_neg hv]
  apply Ok.bind
  apply Ok.whileM (fun i s => s.1 = (k + i) * 8 ∧ s.2.1 = n * 8 + (k + i) * 4 ∧ s.2.2.1 = n * 12 + (k + i) * 4 ∧ s.2.2.2.1 = (k + i) * 16 ∧ Agree (DoneU n 16 (k + i)) T s.2.2.2.2) (n - k) (by omega)
  · exact ⟨rfl, rfl, rfl, rfl, ho⟩
  · rintro i ⟨ap, cp, xp, op, out⟩ hi ⟨rfl, rfl, rfl, rfl, ha⟩
    refine ⟨by simp; omega, ?_⟩
    kblk h0 (k + i) 1 tail hl hg hT
    simp only [widths, chunkFields, Nat.zero_add, ← Nat.mul_add, Nat.reduceAdd] at h0
    kld
    kld
    kld
    kst ha h0 0
    · kbytes e
    kst ha h0 8
    · kbytes e
    kst ha h0 12
    · kbytes e
    kend ha
  · rintro ⟨ap, cp, xp, op, out⟩ ⟨rfl, rfl, rfl, rfl, ha⟩
    refine ⟨by simp; omega, Ok.pure ?_⟩
    rw [show k + (n - k) = n by omega] at ha
    exact ha

theorem untransformSplitRecorrGeneric_ok (e : Endian) (v : Variant) {inp : Buf} {n k : Nat} {T out tail : Buf}
    (hv : v ≠ .none) (hd : inp.length = n * 16) (hT : T = unsoa n (widths true) (unFields (decCol e v) true) inp ++ tail)
    (ho : Agree (DoneU n 16 k) T out) (hk : k ≤ n) :
    Ok (untransformSplitRecorrGeneric e inp (k * 8) (n * 8 + k * 2) (n * 10 + k * 2) (n * 12 + k * 4) out (k * 16) (n - k) v) (Agree (DoneU n 16 n) T) := by
  have hg := unFields_length (col := (decCol e v)) (fun _ _ => decCol_length _ _ _) true
  have hl : n * ((widths true)).sum ≤ inp.length := by simp [widths]; omega
  have hTl : n * 16 ≤ T.length := by
    rw [hT, List.length_append, unsoa_length hl hg]; omega
  unfold untransformSplitRecorrGeneric
  rw [if_neg hv]
  apply Ok.bind
  apply Ok.whileM (fun i s => s.1 = (k + i) * 8 ∧ s.2.1 = n * 8 + (k + i) * 2 ∧ s.2.2.1 = n * 10 + (k + i) * 2 ∧ s.2.2.2.1 = n * 12 + (k + i) * 4 ∧ s.2.2.2.2.1 = (k + i) * 16 ∧ Agree (DoneU n 16 (k + i)) T s.2.2.2.2.2) (n - k) (by omega)
  · exact ⟨rfl, rfl, rfl, rfl, rfl, ho⟩
  · rintro i ⟨ap, c0p, c1p, xp, op, out⟩ hi ⟨rfl, rfl, rfl, rfl, rfl, ha⟩
    refine ⟨by simp; omega, ?_⟩
    kblk h0 (k + i) 1 tail hl hg hT
    simp only [widths, chunkFields, Nat.zero_add, ← Nat.mul_add, Nat.reduceAdd] at h0
    kld
    kld
    kld
    kld
    kst ha h0 0
    · kbytes e
    kst ha h0 8
    · kbytes e
    kst ha h0 10
    · kbytes e
    kst ha h0 12
    · kbytes e
    kend ha
  · rintro ⟨ap, c0p, c1p, xp, op, out⟩ ⟨rfl, rfl, rfl, rfl, rfl, ha⟩
    refine ⟨by simp; omega, Ok.pure ?_⟩
    rw [show k + (n - k) = n by omega] at ha
    exact ha

end Dlt.Bc2
