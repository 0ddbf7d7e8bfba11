import Verif.Model.Bc1Std
import Verif.Lemmas.Bc1Generic
/-! The vector kernels of the standard BC1 transform produce the specified layout. -/

set_option linter.unusedSimpArgs false

namespace Dlt.Bc1
open Spec

theorem transformSse2Ptrs_ok {inp : Buf} {n : Nat} {T out tail : Buf}
    (hd : inp.length = n * 8) (hT : T = columns 8 (bc1Fields id false) inp ++ tail)
    (ho : Agree (DoneT n [4, 4] 0) T out) :
    Ok (transformSse2Ptrs inp 0 out 0 (n * 4) (n * 8)) (Agree (DoneT n [4, 4] n) T) := by
  have hf := fits_std (col := id) (fun _ h => h)
  have hTl : n * 8 ≤ T.length := by
    rw [hT, List.length_append, columns_length (by omega) hd hf]; simp
  unfold transformSse2Ptrs
  apply Ok.bind
  apply Ok.asm (fun j s => s.1 = j * 8 * 8 ∧ s.2.1 = j * 8 * 4 ∧ s.2.2.1 = n * 4 + j * 8 * 4 ∧ Agree (DoneT n [4, 4] (j * 8)) T s.2.2.2) (n / 8) (by omega) (by omega)
  · exact ⟨by simp, by simp, by simp, by simpa using ho⟩
  · rintro i ⟨ip, cp, xp, out⟩ hi ⟨rfl, rfl, rfl, ha⟩
    ksec h0 0 (i * 8) 8 hd tail hf hT
    ksec h1 1 (i * 8) 8 hd tail hf hT
    kldv (i * 8 * 8) 0
    kldv (i * 8 * 8) 16
    kldv (i * 8 * 8) 32
    kldv (i * 8 * 8) 48
    kstv ha h1 0 16
    kstv ha h1 16 16
    kstv ha h0 0 16
    kstv ha h0 16 16
    kend ha
  · rintro i ⟨ip, cp, xp, out⟩ hi ⟨rfl, rfl, rfl, ha⟩ _
    simp; omega
  · rintro ⟨ip, cp, xp, out⟩ hm ⟨rfl, rfl, rfl, ha⟩
    simp; omega
  · rintro ⟨ip, cp, xp, out⟩ ⟨rfl, rfl, rfl, ha⟩
    have := transformPtrs_ok .little hd hT ha (by omega)
    simp only
    rw [show n * 8 - (n * 8 - n * 8 % 64) = (n - n / 8 * 8) * 8 by omega]
    exact this

theorem transformAvx2Ptrs_ok {inp : Buf} {n : Nat} {T out tail : Buf}
    (hd : inp.length = n * 8) (hT : T = columns 8 (bc1Fields id false) inp ++ tail)
    (ho : Agree (DoneT n [4, 4] 0) T out) :
    Ok (transformAvx2Ptrs inp 0 out 0 (n * 4) (n * 8)) (Agree (DoneT n [4, 4] n) T) := by
  have hf := fits_std (col := id) (fun _ h => h)
  have hTl : n * 8 ≤ T.length := by
    rw [hT, List.length_append, columns_length (by omega) hd hf]; simp
  unfold transformAvx2Ptrs
  apply Ok.bind
  apply Ok.asm (fun j s => s.1 = j * 16 * 8 ∧ s.2.1 = j * 16 * 4 ∧ s.2.2.1 = n * 4 + j * 16 * 4 ∧ Agree (DoneT n [4, 4] (j * 16)) T s.2.2.2) (n / 16) (by omega) (by omega)
  · exact ⟨by simp, by simp, by simp, by simpa using ho⟩
  · rintro i ⟨ip, cp, xp, out⟩ hi ⟨rfl, rfl, rfl, ha⟩
    ksec h0 0 (i * 16) 16 hd tail hf hT
    ksec h1 1 (i * 16) 16 hd tail hf hT
    kldv (i * 16 * 8) 0
    kldv (i * 16 * 8) 32
    kldv (i * 16 * 8) 64
    kldv (i * 16 * 8) 96
    kstv ha h0 0 32
    kstv ha h1 0 32
    kstv ha h0 32 32
    kstv ha h1 32 32
    kend ha
  · rintro i ⟨ip, cp, xp, out⟩ hi ⟨rfl, rfl, rfl, ha⟩ _
    simp; omega
  · rintro ⟨ip, cp, xp, out⟩ hm ⟨rfl, rfl, rfl, ha⟩
    simp; omega
  · rintro ⟨ip, cp, xp, out⟩ ⟨rfl, rfl, rfl, ha⟩
    have := transformPtrs_ok .little hd hT ha (by omega)
    simp only
    rw [show n * 8 - (n * 8 - n * 8 % 128) = (n - n / 16 * 16) * 8 by omega]
    exact this

theorem transformAvx512Ptrs_ok {inp : Buf} {n : Nat} {T out tail : Buf}
    (hd : inp.length = n * 8) (hT : T = columns 8 (bc1Fields id false) inp ++ tail)
    (ho : Agree (DoneT n [4, 4] 0) T out) :
    Ok (transformAvx512Ptrs inp 0 out 0 (n * 4) (n * 8)) (Agree (DoneT n [4, 4] n) T) := by
  have hf := fits_std (col := id) (fun _ h => h)
  have hTl : n * 8 ≤ T.length := by
    rw [hT, List.length_append, columns_length (by omega) hd hf]; simp
  unfold transformAvx512Ptrs
  apply Ok.bind
  apply Ok.asm (fun j s => s.1 = j * 16 * 8 ∧ s.2.1 = j * 16 * 4 ∧ s.2.2.1 = n * 4 + j * 16 * 4 ∧ Agree (DoneT n [4, 4] (j * 16)) T s.2.2.2) (n / 16) (by omega) (by omega)
  · exact ⟨by simp, by simp, by simp, by simpa using ho⟩
  · rintro i ⟨ip, cp, xp, out⟩ hi ⟨rfl, rfl, rfl, ha⟩
    ksec h0 0 (i * 16) 16 hd tail hf hT
    ksec h1 1 (i * 16) 16 hd tail hf hT
    kldv (i * 16 * 8) 0
    kldv (i * 16 * 8) 64
    kstv ha h0 0 64
    kstv ha h1 0 64
    kend ha
  · rintro i ⟨ip, cp, xp, out⟩ hi ⟨rfl, rfl, rfl, ha⟩ _
    simp; omega
  · rintro ⟨ip, cp, xp, out⟩ hm ⟨rfl, rfl, rfl, ha⟩
    simp; omega
  · rintro ⟨ip, cp, xp, out⟩ ⟨rfl, rfl, rfl, ha⟩
    have := transformPtrs_ok .little hd hT ha (by omega)
    simp only
    rw [show n * 8 - (n * 8 - n * 8 % 128) = (n - n / 16 * 16) * 8 by omega]
    exact this

theorem untransformSse2Ptrs_ok {inp : Buf} {n : Nat} {T out tail : Buf}
    (hd : inp.length = n * 8) (hT : T = unsoa n (widths false) (unFields id false) inp ++ tail)
    (ho : Agree (DoneU n 8 0) T out) :
    Ok (untransformSse2Ptrs inp 0 (n * 4) out 0 (n * 8)) (Agree (DoneU n 8 n) T) := by
  have hg := unFields_length (col := id) (fun _ h => h) false
  have hl : n * ((widths false)).sum ≤ inp.length := by simp [widths]; omega
  have hTl : n * 8 ≤ T.length := by
    rw [hT, List.length_append, unsoa_length hl hg]; omega
  unfold untransformSse2Ptrs
  apply Ok.bind
  apply Ok.asm (fun j s => s.1 = j * 8 * 4 ∧ s.2.1 = n * 4 + j * 8 * 4 ∧ s.2.2.1 = j * 8 * 8 ∧ Agree (DoneU n 8 (j * 8)) T s.2.2.2) (n / 8) (by omega) (by omega)
  · exact ⟨by simp, by simp, by simp, by simpa using ho⟩
  · rintro i ⟨cp, xp, op, out⟩ hi ⟨rfl, rfl, rfl, ha⟩
    kblk h0 (i * 8) 8 tail hl hg hT
    simp only [widths, chunkFields, Nat.zero_add, ← Nat.mul_add, Nat.reduceAdd] at h0
    kldv (i * 8 * 4) 0
    kldv (i * 8 * 4) 16
    kldv (n * 4 + i * 8 * 4) 0
    kldv (n * 4 + i * 8 * 4) 16
    kstv ha h0 0 16
    kstv ha h0 16 16
    kstv ha h0 32 16
    kstv ha h0 48 16
    kend ha
  · rintro i ⟨cp, xp, op, out⟩ hi ⟨rfl, rfl, rfl, ha⟩ _
    simp; omega
  · rintro ⟨cp, xp, op, out⟩ hm ⟨rfl, rfl, rfl, ha⟩
    simp; omega
  · rintro ⟨cp, xp, op, out⟩ ⟨rfl, rfl, rfl, ha⟩
    have := untransformPtrs_ok .little hd hT ha (by omega)
    simp only
    rw [show n * 8 - (n * 8 - n * 8 % 64) = (n - n / 8 * 8) * 8 by omega]
    exact this

theorem untransformAvx2Ptrs_ok {inp : Buf} {n : Nat} {T out tail : Buf}
    (hd : inp.length = n * 8) (hT : T = unsoa n (widths false) (unFields id false) inp ++ tail)
    (ho : Agree (DoneU n 8 0) T out) :
    Ok (untransformAvx2Ptrs inp 0 (n * 4) out 0 (n * 8)) (Agree (DoneU n 8 n) T) := by
  have hg := unFields_length (col := id) (fun _ h => h) false
  have hl : n * ((widths false)).sum ≤ inp.length := by simp [widths]; omega
  have hTl : n * 8 ≤ T.length := by
    rw [hT, List.length_append, unsoa_length hl hg]; omega
  unfold untransformAvx2Ptrs
  apply Ok.bind
  apply Ok.asm (fun j s => s.1 = j * 16 * 4 ∧ s.2.1 = n * 4 + j * 16 * 4 ∧ s.2.2.1 = j * 16 * 8 ∧ Agree (DoneU n 8 (j * 16)) T s.2.2.2) (n / 16) (by omega) (by omega)
  · exact ⟨by simp, by simp, by simp, by simpa using ho⟩
  · rintro i ⟨cp, xp, op, out⟩ hi ⟨rfl, rfl, rfl, ha⟩
    kblk h0 (i * 16) 16 tail hl hg hT
    simp only [widths, chunkFields, Nat.zero_add, ← Nat.mul_add, Nat.reduceAdd] at h0
    kldv (i * 16 * 4) 0
    kldv (n * 4 + i * 16 * 4) 0
    kldv (i * 16 * 4) 32
    kldv (n * 4 + i * 16 * 4) 32
    kstv ha h0 0 32
    kstv ha h0 32 32
    kstv ha h0 64 32
    kstv ha h0 96 32
    kend ha
  · rintro i ⟨cp, xp, op, out⟩ hi ⟨rfl, rfl, rfl, ha⟩ _
    simp; omega
  · rintro ⟨cp, xp, op, out⟩ hm ⟨rfl, rfl, rfl, ha⟩
    simp; omega
  · rintro ⟨cp, xp, op, out⟩ ⟨rfl, rfl, rfl, ha⟩
    have := untransformPtrs_ok .little hd hT ha (by omega)
    simp only
    rw [show n * 8 - (n * 8 - n * 8 % 128) = (n - n / 16 * 16) * 8 by omega]
    exact this

theorem untransformAvx512Ptrs_ok {inp : Buf} {n : Nat} {T out tail : Buf}
    (hd : inp.length = n * 8) (hT : T = unsoa n (widths false) (unFields id false) inp ++ tail)
    (ho : Agree (DoneU n 8 0) T out) :
    Ok (untransformAvx512Ptrs inp 0 (n * 4) out 0 (n * 8)) (Agree (DoneU n 8 n) T) := by
  have hg := unFields_length (col := id) (fun _ h => h) false
  have hl : n * ((widths false)).sum ≤ inp.length := by simp [widths]; omega
  have hTl : n * 8 ≤ T.length := by
    rw [hT, List.length_append, unsoa_length hl hg]; omega
  unfold untransformAvx512Ptrs
  apply Ok.bind
  apply Ok.asm (fun j s => s.1 = j * 32 * 4 ∧ s.2.1 = n * 4 + j * 32 * 4 ∧ s.2.2.1 = j * 32 * 8 ∧ Agree (DoneU n 8 (j * 32)) T s.2.2.2) (n / 32) (by omega) (by omega)
  · exact ⟨by simp, by simp, by simp, by simpa using ho⟩
  · rintro i ⟨cp, xp, op, out⟩ hi ⟨rfl, rfl, rfl, ha⟩
    kblk h0 (i * 32) 32 tail hl hg hT
    simp only [widths, chunkFields, Nat.zero_add, ← Nat.mul_add, Nat.reduceAdd] at h0
    kldv (i * 32 * 4) 0
    kldv (i * 32 * 4) 64
    kldv (n * 4 + i * 32 * 4) 0
    kldv (n * 4 + i * 32 * 4) 64
    kstv ha h0 0 64
    kstv ha h0 64 64
    kstv ha h0 128 64
    kstv ha h0 192 64
    kend ha
  · rintro i ⟨cp, xp, op, out⟩ hi ⟨rfl, rfl, rfl, ha⟩ _
    simp; omega
  · rintro ⟨cp, xp, op, out⟩ hm ⟨rfl, rfl, rfl, ha⟩
    simp; omega
  · rintro ⟨cp, xp, op, out⟩ ⟨rfl, rfl, rfl, ha⟩
    have := untransformPtrs_ok .little hd hT ha (by omega)
    simp only
    rw [show n * 8 - (n * 8 - n * 8 % 256) = (n - n / 32 * 32) * 8 by omega]
    exact this

end Dlt.Bc1
