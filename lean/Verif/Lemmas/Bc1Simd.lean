import Verif.Model.Bc1Simd
import Verif.Lemmas.Bc1Generic
import Verif.Lemmas.Intrinsics
/-! The vector kernels of BC1 with split endpoints and/or decorrelation produce the specified
layout. -/

set_option linter.unusedSimpArgs false

namespace Dlt.Bc1
open Spec Simd

theorem transformSplitSse2_ok {inp : Buf} {n : Nat} {T out tail : Buf}
    (hd : inp.length = n * 8) (hT : T = columns 8 (bc1Fields id true) inp ++ tail)
    (ho : Agree (DoneT n [2, 2, 4] 0) T out) :
    Ok (transformSplitSse2 inp 0 out 0 (n * 2) (n * 4) n) (Agree (DoneT n [2, 2, 4] n) T) := by
  have hf := fits_split (col := id) (fun _ h => h)
  have hTl : n * 8 ≤ T.length := by
    rw [hT, List.length_append, columns_length (by omega) hd hf]; simp
  unfold transformSplitSse2
  apply Ok.bind
  apply Ok.whileM (fun j s => s.1 = j * 8 * 8 ∧ s.2.1 = j * 8 * 2 ∧ s.2.2.1 = n * 2 + j * 8 * 2 ∧ s.2.2.2.1 = n * 4 + j * 8 * 4 ∧ Agree (DoneT n [2, 2, 4] (j * 8)) T s.2.2.2.2) (n / 8) (by omega)
  · exact ⟨by simp, by simp, by simp, by simp, by simpa using ho⟩
  · rintro i ⟨ip, c0p, c1p, xp, out⟩ hi ⟨rfl, rfl, rfl, rfl, ha⟩
    refine ⟨by first | (simp; done) | (simp; omega), ?_⟩
    ksec h0 0 (i * 8) 8 hd tail hf hT
    ksec h1 1 (i * 8) 8 hd tail hf hT
    ksec h2 2 (i * 8) 8 hd tail hf hT
    kldv (i * 8 * 8) 0
    kldv (i * 8 * 8) 16
    kldv (i * 8 * 8) 32
    kldv (i * 8 * 8) 48
    kstv ha h0 0 16
    kstv ha h1 0 16
    kstv ha h2 0 16
    kstv ha h2 16 16
    kend ha
  · rintro ⟨ip, c0p, c1p, xp, out⟩ ⟨rfl, rfl, rfl, rfl, ha⟩
    refine ⟨by first | (simp; done) | (simp; omega), ?_⟩
    have := transformSplitGeneric_ok .little hd hT ha (by omega)
    simp only
    rw [show n % 8 = n - n / 8 * 8 by omega]
    exact this

theorem untransformSplitSse2_ok {inp : Buf} {n : Nat} {T out tail : Buf}
    (hd : inp.length = n * 8) (hT : T = unsoa n (widths true) (unFields id true) inp ++ tail)
    (ho : Agree (DoneU n 8 0) T out) :
    Ok (untransformSplitSse2 inp 0 (n * 2) (n * 4) out 0 n) (Agree (DoneU n 8 n) T) := by
  have hg := unFields_length (col := id) (fun _ h => h) true
  have hl : n * ((widths true)).sum ≤ inp.length := by simp [widths]; omega
  have hTl : n * 8 ≤ T.length := by
    rw [hT, List.length_append, unsoa_length hl hg]; omega
  unfold untransformSplitSse2
  apply Ok.bind
  apply Ok.whileM (fun j s => s.1 = j * 8 * 2 ∧ s.2.1 = n * 2 + j * 8 * 2 ∧ s.2.2.1 = n * 4 + j * 8 * 4 ∧ s.2.2.2.1 = j * 8 * 8 ∧ Agree (DoneU n 8 (j * 8)) T s.2.2.2.2) (n / 8) (by omega)
  · exact ⟨by simp, by simp, by simp, by simp, by simpa using ho⟩
  · rintro i ⟨c0p, c1p, xp, op, out⟩ hi ⟨rfl, rfl, rfl, rfl, ha⟩
    refine ⟨by first | (simp; done) | (simp; omega), ?_⟩
    kblk h0 (i * 8) 8 tail hl hg hT
    simp only [widths, chunkFields, Nat.zero_add, ← Nat.mul_add, Nat.reduceAdd] at h0
    kldv (i * 8 * 2) 0
    kldv (n * 2 + i * 8 * 2) 0
    kldv (n * 4 + i * 8 * 4) 0
    kldv (n * 4 + i * 8 * 4) 16
    kstv ha h0 0 16
    kstv ha h0 16 16
    kstv ha h0 32 16
    kstv ha h0 48 16
    kend ha
  · rintro ⟨c0p, c1p, xp, op, out⟩ ⟨rfl, rfl, rfl, rfl, ha⟩
    refine ⟨by first | (simp; done) | (simp; omega), ?_⟩
    have := untransformSplitGeneric_ok .little hd hT ha (by omega)
    simp only
    rw [show n - (n - n % 8) = n - n / 8 * 8 by omega]
    exact this

theorem transformSplitRecorrSse2_ok (v : Variant) {inp : Buf} {n : Nat} {T out tail : Buf}
    (hv : v ≠ .none) (hd : inp.length = n * 8) (hT : T = columns 8 (bc1Fields (encCol .little v) true) inp ++ tail)
    (ho : Agree (DoneT n [2, 2, 4] 0) T out) :
    Ok (transformSplitRecorrSse2 inp 0 out 0 (n * 2) (n * 4) n v) (Agree (DoneT n [2, 2, 4] n) T) := by
  have hf := fits_split (col := (encCol .little v)) (fun _ _ => encCol_length _ _ _)
  have hTl : n * 8 ≤ T.length := by
    rw [hT, List.length_append, columns_length (by omega) hd hf]; simp
  unfold transformSplitRecorrSse2
  rw [if_neg hv]
  simp only [decorrSse2_eq]
  apply Ok.bind
  apply Ok.whileM (fun j s => s.1 = j * 8 * 8 ∧ s.2.1 = j * 8 * 2 ∧ s.2.2.1 = n * 2 + j * 8 * 2 ∧ s.2.2.2.1 = n * 4 + j * 8 * 4 ∧ Agree (DoneT n [2, 2, 4] (j * 8)) T s.2.2.2.2) (n / 8) (by omega)
  · exact ⟨by simp, by simp, by simp, by simp, by simpa using ho⟩
  · rintro i ⟨ip, c0p, c1p, xp, out⟩ hi ⟨rfl, rfl, rfl, rfl, ha⟩
    refine ⟨by first | (simp; done) | (simp; omega), ?_⟩
    ksec h0 0 (i * 8) 8 hd tail hf hT
    ksec h1 1 (i * 8) 8 hd tail hf hT
    ksec h2 2 (i * 8) 8 hd tail hf hT
    kldv (i * 8 * 8) 0
    kldv (i * 8 * 8) 16
    kldv (i * 8 * 8) 32
    kldv (i * 8 * 8) 48
    kstv ha h0 0 16
    kstv ha h1 0 16
    kstv ha h2 0 16
    kstv ha h2 16 16
    kend ha
  · rintro ⟨ip, c0p, c1p, xp, out⟩ ⟨rfl, rfl, rfl, rfl, ha⟩
    refine ⟨by first | (simp; done) | (simp; omega), ?_⟩
    have := transformSplitRecorrGeneric_ok .little v hv hd hT ha (by omega)
    simp only
    rw [show n % 8 = n - n / 8 * 8 by omega]
    exact this

theorem transformRecorrSse2_ok (v : Variant) {inp : Buf} {n : Nat} {T out tail : Buf}
    (hv : v ≠ .none) (hd : inp.length = n * 8) (hT : T = columns 8 (bc1Fields (encCol .little v) false) inp ++ tail)
    (ho : Agree (DoneT n [4, 4] 0) T out) :
    Ok (transformRecorrSse2 inp 0 out 0 (n * 4) n v) (Agree (DoneT n [4, 4] n) T) := by
  have hf := fits_std (col := (encCol .little v)) (fun _ _ => encCol_length _ _ _)
  have hTl : n * 8 ≤ T.length := by
    rw [hT, List.length_append, columns_length (by omega) hd hf]; simp
  unfold transformRecorrSse2
  rw [if_neg hv]
  simp only [decorrSse2_eq]
  apply Ok.bind
  apply Ok.whileM (fun j s => s.1 = j * 8 * 8 ∧ s.2.1 = j * 8 * 4 ∧ s.2.2.1 = n * 4 + j * 8 * 4 ∧ Agree (DoneT n [4, 4] (j * 8)) T s.2.2.2) (n / 8) (by omega)
  · exact ⟨by simp, by simp, by simp, by simpa using ho⟩
  · rintro i ⟨ip, cp, xp, out⟩ hi ⟨rfl, rfl, rfl, ha⟩
    refine ⟨by first | (simp; done) | (simp; omega), ?_⟩
    ksec h0 0 (i * 8) 8 hd tail hf hT
    ksec h1 1 (i * 8) 8 hd tail hf hT
    kldv (i * 8 * 8) 0
    kldv (i * 8 * 8) 16
    kldv (i * 8 * 8) 32
    kldv (i * 8 * 8) 48
    kstv ha h0 0 16
    kstv ha h0 16 16
    kstv ha h1 0 16
    kstv ha h1 16 16
    kend ha
  · rintro ⟨ip, cp, xp, out⟩ ⟨rfl, rfl, rfl, ha⟩
    refine ⟨by first | (simp; done) | (simp; omega), ?_⟩
    have := transformRecorrGeneric_ok .little v hv hd hT ha (by omega)
    simp only
    rw [show n % 8 = n - n / 8 * 8 by omega]
    exact this

theorem untransformSplitRecorrSse2_ok (v : Variant) {inp : Buf} {n : Nat} {T out tail : Buf}
    (hv : v ≠ .none) (hd : inp.length = n * 8) (hT : T = unsoa n (widths true) (unFields (decCol .little v) true) inp ++ tail)
    (ho : Agree (DoneU n 8 0) T out) :
    Ok (untransformSplitRecorrSse2 inp 0 (n * 2) (n * 4) out 0 n v) (Agree (DoneU n 8 n) T) := by
  have hg := unFields_length (col := (decCol .little v)) (fun _ _ => decCol_length _ _ _) true
  have hl : n * ((widths true)).sum ≤ inp.length := by simp [widths]; omega
  have hTl : n * 8 ≤ T.length := by
    rw [hT, List.length_append, unsoa_length hl hg]; omega
  unfold untransformSplitRecorrSse2
  rw [if_neg hv]
  simp only [recorrSse2_eq]
  apply Ok.bind
  apply Ok.whileM (fun j s => s.1 = j * 8 * 2 ∧ s.2.1 = n * 2 + j * 8 * 2 ∧ s.2.2.1 = n * 4 + j * 8 * 4 ∧ s.2.2.2.1 = j * 8 * 8 ∧ Agree (DoneU n 8 (j * 8)) T s.2.2.2.2) (n / 8) (by omega)
  · exact ⟨by simp, by simp, by simp, by simp, by simpa using ho⟩
  · rintro i ⟨c0p, c1p, xp, op, out⟩ hi ⟨rfl, rfl, rfl, rfl, ha⟩
    refine ⟨by first | (simp; done) | (simp; omega), ?_⟩
    kblk h0 (i * 8) 8 tail hl hg hT
    simp only [widths, chunkFields, Nat.zero_add, ← Nat.mul_add, Nat.reduceAdd] at h0
    kldv (i * 8 * 2) 0
    kldv (n * 2 + i * 8 * 2) 0
    kldv (n * 4 + i * 8 * 4) 0
    kldv (n * 4 + i * 8 * 4) 16
    kstv ha h0 0 16
    kstv ha h0 16 16
    kstv ha h0 32 16
    kstv ha h0 48 16
    kend ha
  · rintro ⟨c0p, c1p, xp, op, out⟩ ⟨rfl, rfl, rfl, rfl, ha⟩
    refine ⟨by first | (simp; done) | (simp; omega), ?_⟩
    have := untransformSplitRecorrLoop_ok .little v hv hd hT ha (by omega)
    simp only
    rw [show n - (n - n % 8) = n - n / 8 * 8 by omega]
    exact this

theorem untransformRecorrSse2_ok (v : Variant) {inp : Buf} {n : Nat} {T out tail : Buf}
    (hv : v ≠ .none) (hd : inp.length = n * 8) (hT : T = unsoa n (widths false) (unFields (decCol .little v) false) inp ++ tail)
    (ho : Agree (DoneU n 8 0) T out) :
    Ok (untransformRecorrSse2 inp 0 (n * 4) out 0 n v) (Agree (DoneU n 8 n) T) := by
  have hg := unFields_length (col := (decCol .little v)) (fun _ _ => decCol_length _ _ _) false
  have hl : n * ((widths false)).sum ≤ inp.length := by simp [widths]; omega
  have hTl : n * 8 ≤ T.length := by
    rw [hT, List.length_append, unsoa_length hl hg]; omega
  unfold untransformRecorrSse2
  rw [if_neg hv]
  simp only [recorrSse2_eq]
  apply Ok.bind
  apply Ok.whileM (fun j s => s.1 = j * 8 * 4 ∧ s.2.1 = n * 4 + j * 8 * 4 ∧ s.2.2.1 = j * 8 * 8 ∧ Agree (DoneU n 8 (j * 8)) T s.2.2.2) (n / 8) (by omega)
  · exact ⟨by simp, by simp, by simp, by simpa using ho⟩
  · rintro i ⟨cp, xp, op, out⟩ hi ⟨rfl, rfl, rfl, ha⟩
    refine ⟨by first | (simp; done) | (simp; omega), ?_⟩
    kblk h0 (i * 8) 8 tail hl hg hT
    simp only [widths, chunkFields, Nat.zero_add, ← Nat.mul_add, Nat.reduceAdd] at h0
    kldv (i * 8 * 4) 0
    kldv (i * 8 * 4) 16
    kldv (n * 4 + i * 8 * 4) 0
    kldv (n * 4 + i * 8 * 4) 16
    kstv ha h0 0 16
    kstv ha h0 16 16
    kstv ha h0 32 16
    kstv ha h0 48 16
    kend ha
  · rintro ⟨cp, xp, op, out⟩ ⟨rfl, rfl, rfl, ha⟩
    refine ⟨by first | (simp; done) | (simp; omega), ?_⟩
    have := untransformRecorrGeneric_ok .little v hv hd hT ha (by omega)
    simp only
    rw [show n - (n - n % 8) = n - n / 8 * 8 by omega]
    exact this

theorem transformSplitAvx2_ok {inp : Buf} {n : Nat} {T out tail : Buf}
    (hd : inp.length = n * 8) (hT : T = columns 8 (bc1Fields id true) inp ++ tail)
    (ho : Agree (DoneT n [2, 2, 4] 0) T out) :
    Ok (transformSplitAvx2 inp 0 out 0 (n * 2) (n * 4) n) (Agree (DoneT n [2, 2, 4] n) T) := by
  have hf := fits_split (col := id) (fun _ h => h)
  have hTl : n * 8 ≤ T.length := by
    rw [hT, List.length_append, columns_length (by omega) hd hf]; simp
  unfold transformSplitAvx2
  apply Ok.bind
  apply Ok.whileM (fun j s => s.1 = j * 16 * 8 ∧ s.2.1 = j * 16 * 2 ∧ s.2.2.1 = n * 2 + j * 16 * 2 ∧ s.2.2.2.1 = n * 4 + j * 16 * 4 ∧ Agree (DoneT n [2, 2, 4] (j * 16)) T s.2.2.2.2) (n / 16) (by omega)
  · exact ⟨by simp, by simp, by simp, by simp, by simpa using ho⟩
  · rintro i ⟨ip, c0p, c1p, xp, out⟩ hi ⟨rfl, rfl, rfl, rfl, ha⟩
    refine ⟨by first | (simp; done) | (simp; omega), ?_⟩
    ksec h0 0 (i * 16) 16 hd tail hf hT
    ksec h1 1 (i * 16) 16 hd tail hf hT
    ksec h2 2 (i * 16) 16 hd tail hf hT
    kldv (i * 16 * 8) 0
    kldv (i * 16 * 8) 32
    kldv (i * 16 * 8) 64
    kldv (i * 16 * 8) 96
    kstv ha h0 0 32
    kstv ha h1 0 32
    kstv ha h2 0 32
    kstv ha h2 32 32
    kend ha
  · rintro ⟨ip, c0p, c1p, xp, out⟩ ⟨rfl, rfl, rfl, rfl, ha⟩
    refine ⟨by first | (simp; done) | (simp; omega), ?_⟩
    have := transformSplitGeneric_ok .little hd hT ha (by omega)
    simp only
    rw [show (n * 8 - (n * 8 - n * 8 % 128)) / 8 = n - n / 16 * 16 by omega]
    exact this

theorem untransformSplitAvx2_ok {inp : Buf} {n : Nat} {T out tail : Buf}
    (hd : inp.length = n * 8) (hT : T = unsoa n (widths true) (unFields id true) inp ++ tail)
    (ho : Agree (DoneU n 8 0) T out) :
    Ok (untransformSplitAvx2 inp 0 (n * 2) (n * 4) out 0 n) (Agree (DoneU n 8 n) T) := by
  have hg := unFields_length (col := id) (fun _ h => h) true
  have hl : n * ((widths true)).sum ≤ inp.length := by simp [widths]; omega
  have hTl : n * 8 ≤ T.length := by
    rw [hT, List.length_append, unsoa_length hl hg]; omega
  unfold untransformSplitAvx2
  apply Ok.bind
  apply Ok.whileM (fun j s => s.1 = j * 16 * 2 ∧ s.2.1 = n * 2 + j * 16 * 2 ∧ s.2.2.1 = n * 4 + j * 16 * 4 ∧ s.2.2.2.1 = j * 16 * 8 ∧ Agree (DoneU n 8 (j * 16)) T s.2.2.2.2) (n / 16) (by omega)
  · exact ⟨by simp, by simp, by simp, by simp, by simpa using ho⟩
  · rintro i ⟨c0p, c1p, xp, op, out⟩ hi ⟨rfl, rfl, rfl, rfl, ha⟩
    refine ⟨by first | (simp; done) | (simp; omega), ?_⟩
    kblk h0 (i * 16) 16 tail hl hg hT
    simp only [widths, chunkFields, Nat.zero_add, ← Nat.mul_add, Nat.reduceAdd] at h0
    kldv (i * 16 * 2) 0
    kldv (n * 2 + i * 16 * 2) 0
    kldv (n * 4 + i * 16 * 4) 0
    kldv (n * 4 + i * 16 * 4) 32
    kstv ha h0 0 32
    kstv ha h0 32 32
    kstv ha h0 64 32
    kstv ha h0 96 32
    kend ha
  · rintro ⟨c0p, c1p, xp, op, out⟩ ⟨rfl, rfl, rfl, rfl, ha⟩
    refine ⟨by first | (simp; done) | (simp; omega), ?_⟩
    have := untransformSplitGeneric_ok .little hd hT ha (by omega)
    simp only
    rw [show n - (n - n % 16) = n - n / 16 * 16 by omega]
    exact this

theorem transformSplitRecorrAvx2_ok (v : Variant) {inp : Buf} {n : Nat} {T out tail : Buf}
    (hv : v ≠ .none) (hd : inp.length = n * 8) (hT : T = columns 8 (bc1Fields (encCol .little v) true) inp ++ tail)
    (ho : Agree (DoneT n [2, 2, 4] 0) T out) :
    Ok (transformSplitRecorrAvx2 inp 0 out 0 (n * 2) (n * 4) n v) (Agree (DoneT n [2, 2, 4] n) T) := by
  have hf := fits_split (col := (encCol .little v)) (fun _ _ => encCol_length _ _ _)
  have hTl : n * 8 ≤ T.length := by
    rw [hT, List.length_append, columns_length (by omega) hd hf]; simp
  unfold transformSplitRecorrAvx2
  rw [if_neg hv]
  simp only [decorrAvx2_eq]
  apply Ok.bind
  apply Ok.whileM (fun j s => s.1 = j * 16 * 8 ∧ s.2.1 = j * 16 * 2 ∧ s.2.2.1 = n * 2 + j * 16 * 2 ∧ s.2.2.2.1 = n * 4 + j * 16 * 4 ∧ Agree (DoneT n [2, 2, 4] (j * 16)) T s.2.2.2.2) (n / 16) (by omega)
  · exact ⟨by simp, by simp, by simp, by simp, by simpa using ho⟩
  · rintro i ⟨ip, c0p, c1p, xp, out⟩ hi ⟨rfl, rfl, rfl, rfl, ha⟩
    refine ⟨by first | (simp; done) | (simp; omega), ?_⟩
    ksec h0 0 (i * 16) 16 hd tail hf hT
    ksec h1 1 (i * 16) 16 hd tail hf hT
    ksec h2 2 (i * 16) 16 hd tail hf hT
    kldv (i * 16 * 8) 0
    kldv (i * 16 * 8) 32
    kldv (i * 16 * 8) 64
    kldv (i * 16 * 8) 96
    kstv ha h0 0 32
    kstv ha h1 0 32
    kstv ha h2 0 32
    kstv ha h2 32 32
    kend ha
  · rintro ⟨ip, c0p, c1p, xp, out⟩ ⟨rfl, rfl, rfl, rfl, ha⟩
    refine ⟨by first | (simp; done) | (simp; omega), ?_⟩
    have := transformSplitRecorrGeneric_ok .little v hv hd hT ha (by omega)
    simp only
    rw [show n % 16 = n - n / 16 * 16 by omega]
    exact this

theorem transformRecorrAvx2_ok (v : Variant) {inp : Buf} {n : Nat} {T out tail : Buf}
    (hv : v ≠ .none) (hd : inp.length = n * 8) (hT : T = columns 8 (bc1Fields (encCol .little v) false) inp ++ tail)
    (ho : Agree (DoneT n [4, 4] 0) T out) :
    Ok (transformRecorrAvx2 inp 0 out 0 (n * 4) n v) (Agree (DoneT n [4, 4] n) T) := by
  have hf := fits_std (col := (encCol .little v)) (fun _ _ => encCol_length _ _ _)
  have hTl : n * 8 ≤ T.length := by
    rw [hT, List.length_append, columns_length (by omega) hd hf]; simp
  unfold transformRecorrAvx2
  rw [if_neg hv]
  simp only [decorrAvx2_eq]
  apply Ok.bind
  apply Ok.whileM (fun j s => s.1 = j * 16 * 8 ∧ s.2.1 = j * 16 * 4 ∧ s.2.2.1 = n * 4 + j * 16 * 4 ∧ Agree (DoneT n [4, 4] (j * 16)) T s.2.2.2) (n / 16) (by omega)
  · exact ⟨by simp, by simp, by simp, by simpa using ho⟩
  · rintro i ⟨ip, cp, xp, out⟩ hi ⟨rfl, rfl, rfl, ha⟩
    refine ⟨by first | (simp; done) | (simp; omega), ?_⟩
    ksec h0 0 (i * 16) 16 hd tail hf hT
    ksec h1 1 (i * 16) 16 hd tail hf hT
    kldv (i * 16 * 8) 0
    kldv (i * 16 * 8) 32
    kldv (i * 16 * 8) 64
    kldv (i * 16 * 8) 96
    kstv ha h0 0 32
    kstv ha h0 32 32
    kstv ha h1 0 32
    kstv ha h1 32 32
    kend ha
  · rintro ⟨ip, cp, xp, out⟩ ⟨rfl, rfl, rfl, ha⟩
    refine ⟨by first | (simp; done) | (simp; omega), ?_⟩
    have := transformRecorrGeneric_ok .little v hv hd hT ha (by omega)
    simp only
    rw [show n % 16 = n - n / 16 * 16 by omega]
    exact this

theorem untransformSplitRecorrAvx2_ok (v : Variant) {inp : Buf} {n : Nat} {T out tail : Buf}
    (hv : v ≠ .none) (hd : inp.length = n * 8) (hT : T = unsoa n (widths true) (unFields (decCol .little v) true) inp ++ tail)
    (ho : Agree (DoneU n 8 0) T out) :
    Ok (untransformSplitRecorrAvx2 inp 0 (n * 2) (n * 4) out 0 n v) (Agree (DoneU n 8 n) T) := by
  have hg := unFields_length (col := (decCol .little v)) (fun _ _ => decCol_length _ _ _) true
  have hl : n * ((widths true)).sum ≤ inp.length := by simp [widths]; omega
  have hTl : n * 8 ≤ T.length := by
    rw [hT, List.length_append, unsoa_length hl hg]; omega
  unfold untransformSplitRecorrAvx2
  rw [if_neg hv]
  simp only [recorrAvx2_eq]
  apply Ok.bind
  apply Ok.whileM (fun j s => s.1 = j * 16 * 2 ∧ s.2.1 = n * 2 + j * 16 * 2 ∧ s.2.2.1 = n * 4 + j * 16 * 4 ∧ s.2.2.2.1 = j * 16 * 8 ∧ Agree (DoneU n 8 (j * 16)) T s.2.2.2.2) (n / 16) (by omega)
  · exact ⟨by simp, by simp, by simp, by simp, by simpa using ho⟩
  · rintro i ⟨c0p, c1p, xp, op, out⟩ hi ⟨rfl, rfl, rfl, rfl, ha⟩
    refine ⟨by first | (simp; done) | (simp; omega), ?_⟩
    kblk h0 (i * 16) 16 tail hl hg hT
    simp only [widths, chunkFields, Nat.zero_add, ← Nat.mul_add, Nat.reduceAdd] at h0
    kldv (i * 16 * 2) 0
    kldv (n * 2 + i * 16 * 2) 0
    kldv (n * 4 + i * 16 * 4) 0
    kldv (n * 4 + i * 16 * 4) 32
    kstv ha h0 0 32
    kstv ha h0 32 32
    kstv ha h0 64 32
    kstv ha h0 96 32
    kend ha
  · rintro ⟨c0p, c1p, xp, op, out⟩ ⟨rfl, rfl, rfl, rfl, ha⟩
    refine ⟨by first | (simp; done) | (simp; omega), ?_⟩
    have := untransformSplitRecorrLoop_ok .little v hv hd hT ha (by omega)
    simp only
    rw [show n - (n - n % 16) = n - n / 16 * 16 by omega]
    exact this

theorem untransformRecorrAvx2_ok (v : Variant) {inp : Buf} {n : Nat} {T out tail : Buf}
    (hv : v ≠ .none) (hd : inp.length = n * 8) (hT : T = unsoa n (widths false) (unFields (decCol .little v) false) inp ++ tail)
    (ho : Agree (DoneU n 8 0) T out) :
    Ok (untransformRecorrAvx2 inp 0 (n * 4) out 0 n v) (Agree (DoneU n 8 n) T) := by
  have hg := unFields_length (col := (decCol .little v)) (fun _ _ => decCol_length _ _ _) false
  have hl : n * ((widths false)).sum ≤ inp.length := by simp [widths]; omega
  have hTl : n * 8 ≤ T.length := by
    rw [hT, List.length_append, unsoa_length hl hg]; omega
  unfold untransformRecorrAvx2
  rw [if_neg hv]
  simp only [recorrAvx2_eq]
  apply Ok.bind
  apply Ok.whileM (fun j s => s.1 = j * 16 * 4 ∧ s.2.1 = n * 4 + j * 16 * 4 ∧ s.2.2.1 = j * 16 * 8 ∧ Agree (DoneU n 8 (j * 16)) T s.2.2.2) (n / 16) (by omega)
  · exact ⟨by simp, by simp, by simp, by simpa using ho⟩
  · rintro i ⟨cp, xp, op, out⟩ hi ⟨rfl, rfl, rfl, ha⟩
    refine ⟨by first | (simp; done) | (simp; omega), ?_⟩
    kblk h0 (i * 16) 16 tail hl hg hT
    simp only [widths, chunkFields, Nat.zero_add, ← Nat.mul_add, Nat.reduceAdd] at h0
    kldv (i * 16 * 4) 0
    kldv (i * 16 * 4) 32
    kldv (n * 4 + i * 16 * 4) 0
    kldv (n * 4 + i * 16 * 4) 32
    kstv ha h0 0 32
    kstv ha h0 32 32
    kstv ha h0 64 32
    kstv ha h0 96 32
    kend ha
  · rintro ⟨cp, xp, op, out⟩ ⟨rfl, rfl, rfl, ha⟩
    refine ⟨by first | (simp; done) | (simp; omega), ?_⟩
    have := untransformRecorrGeneric_ok .little v hv hd hT ha (by omega)
    simp only
    rw [show n - (n - n % 16) = n - n / 16 * 16 by omega]
    exact this

theorem transformSplitAvx512_ok {inp : Buf} {n : Nat} {T out tail : Buf}
    (hd : inp.length = n * 8) (hT : T = columns 8 (bc1Fields id true) inp ++ tail)
    (ho : Agree (DoneT n [2, 2, 4] 0) T out) :
    Ok (transformSplitAvx512 inp 0 out 0 (n * 2) (n * 4) n) (Agree (DoneT n [2, 2, 4] n) T) := by
  have hf := fits_split (col := id) (fun _ h => h)
  have hTl : n * 8 ≤ T.length := by
    rw [hT, List.length_append, columns_length (by omega) hd hf]; simp
  unfold transformSplitAvx512
  apply Ok.bind
  apply Ok.whileM (fun j s => s.1 = j * 32 * 8 ∧ s.2.1 = j * 32 * 2 ∧ s.2.2.1 = n * 2 + j * 32 * 2 ∧ s.2.2.2.1 = n * 4 + j * 32 * 4 ∧ Agree (DoneT n [2, 2, 4] (j * 32)) T s.2.2.2.2) (n / 32) (by omega)
  · exact ⟨by simp, by simp, by simp, by simp, by simpa using ho⟩
  · rintro i ⟨ip, c0p, c1p, xp, out⟩ hi ⟨rfl, rfl, rfl, rfl, ha⟩
    refine ⟨by first | (simp; done) | (simp; omega), ?_⟩
    ksec h0 0 (i * 32) 32 hd tail hf hT
    ksec h1 1 (i * 32) 32 hd tail hf hT
    ksec h2 2 (i * 32) 32 hd tail hf hT
    kldv (i * 32 * 8) 0
    kldv (i * 32 * 8) 64
    kldv (i * 32 * 8) 128
    kldv (i * 32 * 8) 192
    kstv ha h0 0 64
    kstv ha h1 0 64
    kstv ha h2 0 64
    kstv ha h2 64 64
    kend ha
  · rintro ⟨ip, c0p, c1p, xp, out⟩ ⟨rfl, rfl, rfl, rfl, ha⟩
    refine ⟨by first | (simp; done) | (simp; omega), ?_⟩
    have := transformSplitGeneric_ok .little hd hT ha (by omega)
    simp only
    rw [show n - (n - n % 32) = n - n / 32 * 32 by omega]
    exact this

theorem untransformSplitAvx512_ok {inp : Buf} {n : Nat} {T out tail : Buf}
    (hd : inp.length = n * 8) (hT : T = unsoa n (widths true) (unFields id true) inp ++ tail)
    (ho : Agree (DoneU n 8 0) T out) :
    Ok (untransformSplitAvx512 inp 0 (n * 2) (n * 4) out 0 n) (Agree (DoneU n 8 n) T) := by
  have hg := unFields_length (col := id) (fun _ h => h) true
  have hl : n * ((widths true)).sum ≤ inp.length := by simp [widths]; omega
  have hTl : n * 8 ≤ T.length := by
    rw [hT, List.length_append, unsoa_length hl hg]; omega
  unfold untransformSplitAvx512
  apply Ok.bind
  apply Ok.whileM (fun j s => s.1 = j * 32 * 2 ∧ s.2.1 = n * 2 + j * 32 * 2 ∧ s.2.2.1 = n * 4 + j * 32 * 4 ∧ s.2.2.2.1 = j * 32 * 8 ∧ Agree (DoneU n 8 (j * 32)) T s.2.2.2.2) (n / 32) (by omega)
  · exact ⟨by simp, by simp, by simp, by simp, by simpa using ho⟩
  · rintro i ⟨c0p, c1p, xp, op, out⟩ hi ⟨rfl, rfl, rfl, rfl, ha⟩
    refine ⟨by first | (simp; done) | (simp; omega), ?_⟩
    kblk h0 (i * 32) 32 tail hl hg hT
    simp only [widths, chunkFields, Nat.zero_add, ← Nat.mul_add, Nat.reduceAdd] at h0
    kldv (i * 32 * 2) 0
    kldv (n * 2 + i * 32 * 2) 0
    kldv (n * 4 + i * 32 * 4) 0
    kldv (n * 4 + i * 32 * 4) 64
    kstv ha h0 0 64
    kstv ha h0 64 64
    kstv ha h0 128 64
    kstv ha h0 192 64
    kend ha
  · rintro ⟨c0p, c1p, xp, op, out⟩ ⟨rfl, rfl, rfl, rfl, ha⟩
    refine ⟨by first | (simp; done) | (simp; omega), ?_⟩
    have := untransformSplitGeneric_ok .little hd hT ha (by omega)
    simp only
    rw [show n - (n - n % 32) = n - n / 32 * 32 by omega]
    exact this

theorem transformSplitRecorrAvx512_ok (v : Variant) {inp : Buf} {n : Nat} {T out tail : Buf}
    (hv : v ≠ .none) (hd : inp.length = n * 8) (hT : T = columns 8 (bc1Fields (encCol .little v) true) inp ++ tail)
    (ho : Agree (DoneT n [2, 2, 4] 0) T out) :
    Ok (transformSplitRecorrAvx512 inp 0 out 0 (n * 2) (n * 4) n v) (Agree (DoneT n [2, 2, 4] n) T) := by
  have hf := fits_split (col := (encCol .little v)) (fun _ _ => encCol_length _ _ _)
  have hTl : n * 8 ≤ T.length := by
    rw [hT, List.length_append, columns_length (by omega) hd hf]; simp
  unfold transformSplitRecorrAvx512
  rw [if_neg hv]
  simp only [decorrAvx512_eq]
  apply Ok.bind
  apply Ok.whileM (fun j s => s.1 = j * 32 * 8 ∧ s.2.1 = j * 32 * 2 ∧ s.2.2.1 = n * 2 + j * 32 * 2 ∧ s.2.2.2.1 = n * 4 + j * 32 * 4 ∧ Agree (DoneT n [2, 2, 4] (j * 32)) T s.2.2.2.2) (n / 32) (by omega)
  · exact ⟨by simp, by simp, by simp, by simp, by simpa using ho⟩
  · rintro i ⟨ip, c0p, c1p, xp, out⟩ hi ⟨rfl, rfl, rfl, rfl, ha⟩
    refine ⟨by first | (simp; done) | (simp; omega), ?_⟩
    ksec h0 0 (i * 32) 32 hd tail hf hT
    ksec h1 1 (i * 32) 32 hd tail hf hT
    ksec h2 2 (i * 32) 32 hd tail hf hT
    kldv (i * 32 * 8) 0
    kldv (i * 32 * 8) 64
    kldv (i * 32 * 8) 128
    kldv (i * 32 * 8) 192
    kstv ha h0 0 64
    kstv ha h1 0 64
    kstv ha h2 0 64
    kstv ha h2 64 64
    kend ha
  · rintro ⟨ip, c0p, c1p, xp, out⟩ ⟨rfl, rfl, rfl, rfl, ha⟩
    refine ⟨by first | (simp; done) | (simp; omega), ?_⟩
    have := transformSplitRecorrGeneric_ok .little v hv hd hT ha (by omega)
    simp only
    rw [show n - (n - n % 32) = n - n / 32 * 32 by omega]
    exact this

theorem transformRecorrAvx512_ok (v : Variant) {inp : Buf} {n : Nat} {T out tail : Buf}
    (hv : v ≠ .none) (hd : inp.length = n * 8) (hT : T = columns 8 (bc1Fields (encCol .little v) false) inp ++ tail)
    (ho : Agree (DoneT n [4, 4] 0) T out) :
    Ok (transformRecorrAvx512 inp 0 out 0 (n * 4) n v) (Agree (DoneT n [4, 4] n) T) := by
  have hf := fits_std (col := (encCol .little v)) (fun _ _ => encCol_length _ _ _)
  have hTl : n * 8 ≤ T.length := by
    rw [hT, List.length_append, columns_length (by omega) hd hf]; simp
  unfold transformRecorrAvx512
  rw [if_neg hv]
  simp only [decorrAvx512_eq]
  apply Ok.bind
  apply Ok.whileM (fun j s => s.1 = j * 32 * 8 ∧ s.2.1 = j * 32 * 4 ∧ s.2.2.1 = n * 4 + j * 32 * 4 ∧ Agree (DoneT n [4, 4] (j * 32)) T s.2.2.2) (n / 32) (by omega)
  · exact ⟨by simp, by simp, by simp, by simpa using ho⟩
  · rintro i ⟨ip, cp, xp, out⟩ hi ⟨rfl, rfl, rfl, ha⟩
    refine ⟨by first | (simp; done) | (simp; omega), ?_⟩
    ksec h0 0 (i * 32) 32 hd tail hf hT
    ksec h1 1 (i * 32) 32 hd tail hf hT
    kldv (i * 32 * 8) 0
    kldv (i * 32 * 8) 64
    kldv (i * 32 * 8) 128
    kldv (i * 32 * 8) 192
    kstv ha h0 0 64
    kstv ha h0 64 64
    kstv ha h1 0 64
    kstv ha h1 64 64
    kend ha
  · rintro ⟨ip, cp, xp, out⟩ ⟨rfl, rfl, rfl, ha⟩
    refine ⟨by first | (simp; done) | (simp; omega), ?_⟩
    have := transformRecorrGeneric_ok .little v hv hd hT ha (by omega)
    simp only
    rw [show n % 32 = n - n / 32 * 32 by omega]
    exact this

theorem untransformSplitRecorrAvx512_ok (v : Variant) {inp : Buf} {n : Nat} {T out tail : Buf}
    (hv : v ≠ .none) (hd : inp.length = n * 8) (hT : T = unsoa n (widths true) (unFields (decCol .little v) true) inp ++ tail)
    (ho : Agree (DoneU n 8 0) T out) :
    Ok (untransformSplitRecorrAvx512 inp 0 (n * 2) (n * 4) out 0 n v) (Agree (DoneU n 8 n) T) := by
  have hg := unFields_length (col := (decCol .little v)) (fun _ _ => decCol_length _ _ _) true
  have hl : n * ((widths true)).sum ≤ inp.length := by simp [widths]; omega
  have hTl : n * 8 ≤ T.length := by
    rw [hT, List.length_append, unsoa_length hl hg]; omega
  unfold untransformSplitRecorrAvx512
  rw [if_neg hv]
  simp only [recorrAvx512_eq]
  apply Ok.bind
  apply Ok.whileM (fun j s => s.1 = j * 32 * 2 ∧ s.2.1 = n * 2 + j * 32 * 2 ∧ s.2.2.1 = n * 4 + j * 32 * 4 ∧ s.2.2.2.1 = j * 32 * 8 ∧ Agree (DoneU n 8 (j * 32)) T s.2.2.2.2) (n / 32) (by omega)
  · exact ⟨by simp, by simp, by simp, by simp, by simpa using ho⟩
  · rintro i ⟨c0p, c1p, xp, op, out⟩ hi ⟨rfl, rfl, rfl, rfl, ha⟩
    refine ⟨by first | (simp; done) | (simp; omega), ?_⟩
    kblk h0 (i * 32) 32 tail hl hg hT
    simp only [widths, chunkFields, Nat.zero_add, ← Nat.mul_add, Nat.reduceAdd] at h0
    kldv (i * 32 * 2) 0
    kldv (n * 2 + i * 32 * 2) 0
    kldv (n * 4 + i * 32 * 4) 0
    kldv (n * 4 + i * 32 * 4) 64
    kstv ha h0 0 64
    kstv ha h0 64 64
    kstv ha h0 128 64
    kstv ha h0 192 64
    kend ha
  · rintro ⟨c0p, c1p, xp, op, out⟩ ⟨rfl, rfl, rfl, rfl, ha⟩
    refine ⟨by first | (simp; done) | (simp; omega), ?_⟩
    have := untransformSplitRecorrLoop_ok .little v hv hd hT ha (by omega)
    simp only
    rw [show n - (n - n % 32) = n - n / 32 * 32 by omega]
    exact this

theorem untransformRecorrAvx512_ok (v : Variant) {inp : Buf} {n : Nat} {T out tail : Buf}
    (hv : v ≠ .none) (hd : inp.length = n * 8) (hT : T = unsoa n (widths false) (unFields (decCol .little v) false) inp ++ tail)
    (ho : Agree (DoneU n 8 0) T out) :
    Ok (untransformRecorrAvx512 inp 0 (n * 4) out 0 n v) (Agree (DoneU n 8 n) T) := by
  have hg := unFields_length (col := (decCol .little v)) (fun _ _ => decCol_length _ _ _) false
  have hl : n * ((widths false)).sum ≤ inp.length := by simp [widths]; omega
  have hTl : n * 8 ≤ T.length := by
    rw [hT, List.length_append, unsoa_length hl hg]; omega
  unfold untransformRecorrAvx512
  rw [if_neg hv]
  simp only [recorrAvx512_eq]
  apply Ok.bind
  apply Ok.whileM (fun j s => s.1 = j * 32 * 4 ∧ s.2.1 = n * 4 + j * 32 * 4 ∧ s.2.2.1 = j * 32 * 8 ∧ Agree (DoneU n 8 (j * 32)) T s.2.2.2) (n / 32) (by omega)
  · exact ⟨by simp, by simp, by simp, by simpa using ho⟩
  · rintro i ⟨cp, xp, op, out⟩ hi ⟨rfl, rfl, rfl, ha⟩
    refine ⟨by first | (simp; done) | (simp; omega), ?_⟩
    kblk h0 (i * 32) 32 tail hl hg hT
    simp only [widths, chunkFields, Nat.zero_add, ← Nat.mul_add, Nat.reduceAdd] at h0
    kldv (i * 32 * 4) 0
    kldv (i * 32 * 4) 64
    kldv (n * 4 + i * 32 * 4) 0
    kldv (n * 4 + i * 32 * 4) 64
    kstv ha h0 0 64
    kstv ha h0 64 64
    kstv ha h0 128 64
    kstv ha h0 192 64
    kend ha
  · rintro ⟨cp, xp, op, out⟩ ⟨rfl, rfl, rfl, ha⟩
    refine ⟨by first | (simp; done) | (simp; omega), ?_⟩
    have := untransformRecorrGeneric_ok .little v hv hd hT ha (by omega)
    simp only
    rw [show n - n % 32 = n / 32 * 32 by omega, Nat.zero_add, Nat.zero_add]
    exact this

end Dlt.Bc1
