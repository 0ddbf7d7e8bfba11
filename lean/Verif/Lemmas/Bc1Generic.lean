import Verif.Lemmas.Tactic
import Verif.Lemmas.Ints
/-! The portable BC1 kernels produce the specified layout, from any intermediate state. -/

set_option linter.unusedSimpArgs false

namespace Dlt.Bc1
open Spec

theorem fits_std {col : Buf → Buf} (hc : ∀ bs : Buf, bs.length = 2 → (col bs).length = 2) :
    Fits 8 (bc1Fields col false) [4, 4] := by
  refine ⟨fun b hb => ?_, fun b hb => ?_, trivial⟩
  · rw [List.length_append, hc _ (slice_length_of_le (by omega)),
      hc _ (slice_length_of_le (by omega))]
  · exact slice_length_of_le (by omega)

theorem fits_split {col : Buf → Buf} (hc : ∀ bs : Buf, bs.length = 2 → (col bs).length = 2) :
    Fits 8 (bc1Fields col true) [2, 2, 4] := by
  refine ⟨fun b hb => ?_, fun b hb => ?_, fun b hb => ?_, trivial⟩
  · exact hc _ (slice_length_of_le (by omega))
  · exact hc _ (slice_length_of_le (by omega))
  · exact slice_length_of_le (by omega)

theorem transformPtrs_ok (e : Endian) {inp : Buf} {n k : Nat} {T out tail : Buf}
    (hd : inp.length = n * 8) (hT : T = columns 8 (bc1Fields id false) inp ++ tail)
    (ho : Agree (DoneT n [4, 4] k) T out) (hk : k ≤ n) :
    Ok (transformPtrs e inp (k * 8) out (k * 4) (n * 4 + k * 4) ((n - k) * 8))
      (Agree (DoneT n [4, 4] n) T) := by
  have hf := fits_std (col := id) (fun _ h => h)
  have hTl : n * 8 ≤ T.length := by
    rw [hT, List.length_append, columns_length (by omega) hd hf]; simp
  unfold transformPtrs
  apply Ok.bind
  apply Ok.whileM (fun i s => s.1 = (k + i) * 8 ∧ s.2.1 = (k + i) * 4 ∧
    s.2.2.1 = n * 4 + (k + i) * 4 ∧ Agree (DoneT n [4, 4] (k + i)) T s.2.2.2) (n - k) (by omega)
  · exact ⟨rfl, rfl, rfl, ho⟩
  · rintro i ⟨ip, cp, xp, out⟩ hi ⟨rfl, rfl, rfl, ha⟩
    refine ⟨by simp; omega, ?_⟩
    ksec h0 0 (k + i) 1 hd tail hf hT
    ksec h1 1 (k + i) 1 hd tail hf hT
    kld
    kld
    kst ha h0 0
    · kbytes e
    kst ha h1 0
    · kbytes e
    kend ha
  · rintro ⟨ip, cp, xp, out⟩ ⟨rfl, rfl, rfl, ha⟩
    refine ⟨by simp; omega, Ok.pure ?_⟩
    rw [show k + (n - k) = n by omega] at ha
    exact ha

theorem transformRecorrGeneric_ok (e : Endian) (v : Variant) {inp : Buf} {n k : Nat} {T out tail : Buf}
    (hv : v ≠ .none) (hd : inp.length = n * 8) (hT : T = columns 8 (bc1Fields (encCol e v) false) inp ++ tail)
    (ho : Agree (DoneT n [4, 4] k) T out) (hk : k ≤ n) :
    Ok (transformRecorrGeneric e inp (k * 8) out (k * 4) (n * 4 + k * 4) (n - k) v)
      (Agree (DoneT n [4, 4] n) T) := by
  have hf := fits_std (col := (encCol e v)) (fun _ _ => encCol_length _ _ _)
  have hTl : n * 8 ≤ T.length := by
    rw [hT, List.length_append, columns_length (by omega) hd hf]; simp
  unfold transformRecorrGeneric
  rw [if_neg hv]
  apply Ok.bind
  apply Ok.whileM (fun i s => s.1 = (k + i) * 8 ∧ s.2.1 = (k + i) * 4 ∧
    s.2.2.1 = n * 4 + (k + i) * 4 ∧ Agree (DoneT n [4, 4] (k + i)) T s.2.2.2) (n - k) (by omega)
  · exact ⟨rfl, rfl, rfl, ho⟩
  · rintro i ⟨ip, cp, xp, out⟩ hi ⟨rfl, rfl, rfl, ha⟩
    refine ⟨by simp; omega, ?_⟩
    ksec h0 0 (k + i) 1 hd tail hf hT
    ksec h1 1 (k + i) 1 hd tail hf hT
    kld
    kld
    kst ha h0 0
    · kbytes e
    kst ha h1 0
    · kbytes e
    kend ha
  · rintro ⟨ip, cp, xp, out⟩ ⟨rfl, rfl, rfl, ha⟩
    refine ⟨by simp; omega, Ok.pure ?_⟩
    rw [show k + (n - k) = n by omega] at ha
    exact ha

theorem transformSplitGeneric_ok (e : Endian) {inp : Buf} {n k : Nat} {T out tail : Buf}
    (hd : inp.length = n * 8) (hT : T = columns 8 (bc1Fields id true) inp ++ tail)
    (ho : Agree (DoneT n [2, 2, 4] k) T out) (hk : k ≤ n) :
    Ok (transformSplitGeneric e inp (k * 8) out (k * 2) (n * 2 + k * 2) (n * 4 + k * 4) (n - k))
      (Agree (DoneT n [2, 2, 4] n) T) := by
  have hf := fits_split (col := id) (fun _ h => h)
  have hTl : n * 8 ≤ T.length := by
    rw [hT, List.length_append, columns_length (by omega) hd hf]; simp
  unfold transformSplitGeneric
  apply Ok.bind
  apply Ok.whileM (fun i s => s.1 = (k + i) * 8 ∧ s.2.1 = (k + i) * 2 ∧
    s.2.2.1 = n * 2 + (k + i) * 2 ∧ s.2.2.2.1 = n * 4 + (k + i) * 4 ∧
    Agree (DoneT n [2, 2, 4] (k + i)) T s.2.2.2.2) (n - k) (by omega)
  · exact ⟨rfl, rfl, rfl, rfl, ho⟩
  · rintro i ⟨ip, c0p, c1p, xp, out⟩ hi ⟨rfl, rfl, rfl, rfl, ha⟩
    refine ⟨by simp; omega, ?_⟩
    ksec h0 0 (k + i) 1 hd tail hf hT
    ksec h1 1 (k + i) 1 hd tail hf hT
    ksec h2 2 (k + i) 1 hd tail hf hT
    kld
    kld
    kld
    kst ha h0 0
    · kbytes e
    kst ha h1 0
    · kbytes e
    kst ha h2 0
    · kbytes e
    kend ha
  · rintro ⟨ip, c0p, c1p, xp, out⟩ ⟨rfl, rfl, rfl, rfl, ha⟩
    refine ⟨by simp; omega, Ok.pure ?_⟩
    rw [show k + (n - k) = n by omega] at ha
    exact ha

theorem transformSplitRecorrGeneric_ok (e : Endian) (v : Variant) {inp : Buf} {n k : Nat} {T out tail : Buf}
    (hv : v ≠ .none) (hd : inp.length = n * 8) (hT : T = columns 8 (bc1Fields (encCol e v) true) inp ++ tail)
    (ho : Agree (DoneT n [2, 2, 4] k) T out) (hk : k ≤ n) :
    Ok (transformSplitRecorrGeneric e inp (k * 8) out (k * 2) (n * 2 + k * 2) (n * 4 + k * 4) (n - k) v)
      (Agree (DoneT n [2, 2, 4] n) T) := by
  have hf := fits_split (col := (encCol e v)) (fun _ _ => encCol_length _ _ _)
  have hTl : n * 8 ≤ T.length := by
    rw [hT, List.length_append, columns_length (by omega) hd hf]; simp
  unfold transformSplitRecorrGeneric
  rw [if_neg hv]
  apply Ok.bind
  apply Ok.whileM (fun i s => s.1 = (k + i) * 8 ∧ s.2.1 = (k + i) * 2 ∧
    s.2.2.1 = n * 2 + (k + i) * 2 ∧ s.2.2.2.1 = n * 4 + (k + i) * 4 ∧
    Agree (DoneT n [2, 2, 4] (k + i)) T s.2.2.2.2) (n - k) (by omega)
  · exact ⟨rfl, rfl, rfl, rfl, ho⟩
  · rintro i ⟨ip, c0p, c1p, xp, out⟩ hi ⟨rfl, rfl, rfl, rfl, ha⟩
    refine ⟨by simp; omega, ?_⟩
    ksec h0 0 (k + i) 1 hd tail hf hT
    ksec h1 1 (k + i) 1 hd tail hf hT
    ksec h2 2 (k + i) 1 hd tail hf hT
    kld
    kld
    kld
    kst ha h0 0
    · kbytes e
    kst ha h1 0
    · kbytes e
    kst ha h2 0
    · kbytes e
    kend ha
  · rintro ⟨ip, c0p, c1p, xp, out⟩ ⟨rfl, rfl, rfl, rfl, ha⟩
    refine ⟨by simp; omega, Ok.pure ?_⟩
    rw [show k + (n - k) = n by omega] at ha
    exact ha

/-! ## Inverse kernels -/

/-- Inverse of `bc1Fields` on one block. -/
def unFields (col : Buf → Buf) : Bool → List Buf → Buf
  | false, [c, x] => col (slice c 0 2) ++ col (slice c 2 2) ++ x
  | true, [c0, c1, x] => col c0 ++ col c1 ++ x
  | _, _ => []

/-- Field widths of the BC1 layouts. -/
def widths : Bool → List Nat
  | false => [4, 4]
  | true => [2, 2, 4]

theorem unFields_length {col : Buf → Buf} (hc : ∀ bs : Buf, bs.length = 2 → (col bs).length = 2)
    (split : Bool) (l : List Buf) (h : Shape l (widths split)) : (unFields col split l).length = 8 := by
  cases split
  · match l, h with
    | [c, x], h =>
      simp only [widths, Shape] at h
      simp only [unFields, List.length_append]
      rw [hc _ (slice_length_of_le (by omega)), hc _ (slice_length_of_le (by omega))]; omega
  · match l, h with
    | [c0, c1, x], h =>
      simp only [widths, Shape] at h
      simp only [unFields, List.length_append]
      rw [hc _ h.1, hc _ h.2.1]; omega

theorem untransformPtrs_ok (e : Endian) {inp : Buf} {n k : Nat} {T out tail : Buf}
    (hd : inp.length = n * 8)
    (hT : T = unsoa n (widths false) (unFields id false) inp ++ tail)
    (ho : Agree (DoneU n 8 k) T out) (hk : k ≤ n) :
    Ok (untransformPtrs e inp (k * 4) inp (n * 4 + k * 4) out (k * 8) ((n - k) * 8))
      (Agree (DoneU n 8 n) T) := by
  have hg := unFields_length (col := id) (fun _ h => h) false
  have hl : n * (widths false).sum ≤ inp.length := by simp [widths]; omega
  have hTl : n * 8 ≤ T.length := by
    rw [hT, List.length_append, unsoa_length hl hg]; omega
  unfold untransformPtrs
  apply Ok.bind
  apply Ok.whileM (fun i s => s.1 = (k + i) * 4 ∧ s.2.1 = n * 4 + (k + i) * 4 ∧
    s.2.2.1 = (k + i) * 8 ∧ Agree (DoneU n 8 (k + i)) T s.2.2.2) (n - k) (by omega)
  · exact ⟨rfl, rfl, rfl, ho⟩
  · rintro i ⟨cp, xp, op, out⟩ hi ⟨rfl, rfl, rfl, ha⟩
    refine ⟨by simp; omega, ?_⟩
    kblk h0 (k + i) 1 tail hl hg hT
    simp only [widths, chunkFields, Nat.zero_add, ← Nat.mul_add, Nat.reduceAdd] at h0
    kld
    kld
    kst ha h0 0
    · kbytes e
    kst ha h0 4
    · kbytes e
    kend ha
  · rintro ⟨cp, xp, op, out⟩ ⟨rfl, rfl, rfl, ha⟩
    refine ⟨by simp; omega, Ok.pure ?_⟩
    rw [show k + (n - k) = n by omega] at ha
    exact ha

theorem untransformRecorrGeneric_ok (e : Endian) (v : Variant) {inp : Buf} {n k : Nat} {T out tail : Buf}
    (hv : v ≠ .none) (hd : inp.length = n * 8)
    (hT : T = unsoa n (widths false) (unFields (decCol e v) false) inp ++ tail)
    (ho : Agree (DoneU n 8 k) T out) (hk : k ≤ n) :
    Ok (untransformRecorrGeneric e inp (k * 4) (n * 4 + k * 4) out (k * 8) (n - k) v)
      (Agree (DoneU n 8 n) T) := by
  have hg := unFields_length (col := (decCol e v)) (fun _ _ => decCol_length _ _ _) false
  have hl : n * (widths false).sum ≤ inp.length := by simp [widths]; omega
  have hTl : n * 8 ≤ T.length := by
    rw [hT, List.length_append, unsoa_length hl hg]; omega
  unfold untransformRecorrGeneric
  rw [if_neg hv]
  apply Ok.bind
  apply Ok.whileM (fun i s => s.1 = (k + i) * 4 ∧ s.2.1 = n * 4 + (k + i) * 4 ∧
    s.2.2.1 = (k + i) * 8 ∧ Agree (DoneU n 8 (k + i)) T s.2.2.2) (n - k) (by omega)
  · exact ⟨rfl, rfl, rfl, ho⟩
  · rintro i ⟨cp, xp, op, out⟩ hi ⟨rfl, rfl, rfl, ha⟩
    refine ⟨by simp; omega, ?_⟩
    kblk h0 (k + i) 1 tail hl hg hT
    simp only [widths, chunkFields, Nat.zero_add, ← Nat.mul_add, Nat.reduceAdd] at h0
    kld
    kld
    kst ha h0 0
    · kbytes e
    kst ha h0 4
    · kbytes e
    kend ha
  · rintro ⟨cp, xp, op, out⟩ ⟨rfl, rfl, rfl, ha⟩
    refine ⟨by simp; omega, Ok.pure ?_⟩
    rw [show k + (n - k) = n by omega] at ha
    exact ha

theorem untransformSplitGeneric_ok (e : Endian) {inp : Buf} {n k : Nat} {T out tail : Buf}
    (hd : inp.length = n * 8)
    (hT : T = unsoa n (widths true) (unFields id true) inp ++ tail)
    (ho : Agree (DoneU n 8 k) T out) (hk : k ≤ n) :
    Ok (untransformSplitGeneric e inp (k * 2) (n * 2 + k * 2) (n * 4 + k * 4) out (k * 8) (n - k))
      (Agree (DoneU n 8 n) T) := by
  have hg := unFields_length (col := id) (fun _ h => h) true
  have hl : n * (widths true).sum ≤ inp.length := by simp [widths]; omega
  have hTl : n * 8 ≤ T.length := by
    rw [hT, List.length_append, unsoa_length hl hg]; omega
  unfold untransformSplitGeneric
  apply Ok.bind
  apply Ok.whileM (fun i s => s.1 = (k + i) * 2 ∧ s.2.1 = n * 2 + (k + i) * 2 ∧
    s.2.2.1 = n * 4 + (k + i) * 4 ∧ s.2.2.2.1 = (k + i) * 8 ∧
    Agree (DoneU n 8 (k + i)) T s.2.2.2.2) (n - k) (by omega)
  · exact ⟨rfl, rfl, rfl, rfl, ho⟩
  · rintro i ⟨c0p, c1p, xp, op, out⟩ hi ⟨rfl, rfl, rfl, rfl, ha⟩
    refine ⟨by simp; omega, ?_⟩
    kblk h0 (k + i) 1 tail hl hg hT
    simp only [widths, chunkFields, Nat.zero_add, ← Nat.mul_add, Nat.reduceAdd] at h0
    kld
    kld
    kld
    kst ha h0 0
    · kbytes e
    kst ha h0 2
    · kbytes e
    kst ha h0 4
    · kbytes e
    kend ha
  · rintro ⟨c0p, c1p, xp, op, out⟩ ⟨rfl, rfl, rfl, rfl, ha⟩
    refine ⟨by simp; omega, Ok.pure ?_⟩
    rw [show k + (n - k) = n by omega] at ha
    exact ha

theorem untransformSplitRecorrLoop_ok (e : Endian) (v : Variant) {inp : Buf} {n k : Nat} {T out tail : Buf}
    (hv : v ≠ .none) (hd : inp.length = n * 8)
    (hT : T = unsoa n (widths true) (unFields (decCol e v) true) inp ++ tail)
    (ho : Agree (DoneU n 8 k) T out) (hk : k ≤ n) :
    Ok (untransformSplitRecorrLoop e inp (k * 2) (n * 2 + k * 2) (n * 4 + k * 4) out (k * 8) (n - k) v)
      (Agree (DoneU n 8 n) T) := by
  have hg := unFields_length (col := (decCol e v)) (fun _ _ => decCol_length _ _ _) true
  have hl : n * (widths true).sum ≤ inp.length := by simp [widths]; omega
  have hTl : n * 8 ≤ T.length := by
    rw [hT, List.length_append, unsoa_length hl hg]; omega
  unfold untransformSplitRecorrLoop
  rw [if_neg hv]
  apply Ok.bind
  apply Ok.whileM (fun i s => s.1 = (k + i) * 2 ∧ s.2.1 = n * 2 + (k + i) * 2 ∧
    s.2.2.1 = n * 4 + (k + i) * 4 ∧ s.2.2.2.1 = (k + i) * 8 ∧
    Agree (DoneU n 8 (k + i)) T s.2.2.2.2) (n - k) (by omega)
  · exact ⟨rfl, rfl, rfl, rfl, ho⟩
  · rintro i ⟨c0p, c1p, xp, op, out⟩ hi ⟨rfl, rfl, rfl, rfl, ha⟩
    refine ⟨by simp; omega, ?_⟩
    kblk h0 (k + i) 1 tail hl hg hT
    simp only [widths, chunkFields, Nat.zero_add, ← Nat.mul_add, Nat.reduceAdd] at h0
    kld
    kld
    kld
    kst ha h0 0
    · kbytes e
    kst ha h0 2
    · kbytes e
    kst ha h0 4
    · kbytes e
    kend ha
  · rintro ⟨c0p, c1p, xp, op, out⟩ ⟨rfl, rfl, rfl, rfl, ha⟩
    refine ⟨by simp; omega, Ok.pure ?_⟩
    rw [show k + (n - k) = n by omega] at ha
    exact ha

end Dlt.Bc1
