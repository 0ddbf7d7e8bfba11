import Verif.Model.Bc2Simd
import Verif.Lemmas.Bc2Generic
import Verif.Lemmas.Intrinsics
/-! The vector kernels of BC2 produce the specified layout. -/

set_option linter.unusedSimpArgs false

namespace Dlt.Bc2
open Spec Simd

theorem transformSse2V3Ptrs_ok {inp : Buf} {n : Nat} {T out tail : Buf}
    (hd : inp.length = n * 16) (hT : T = columns 16 (bc2Fields id false) inp ++ tail)
    (ho : Agree (DoneT n [8, 4, 4] 0) T out) :
    Ok (transformSse2V3Ptrs inp 0 out 0 (n * 8) (n * 12) (n * 16)) (Agree (DoneT n [8, 4, 4] n) T) := by
  have hf := fits_std (col := id) (fun _ h => h)
  have hTl : n * 16 ≤ T.length := by
    rw [hT, List.length_append, columns_length (by omega) hd hf]; simp
  unfold transformSse2V3Ptrs
  apply Ok.bind
  apply Ok.asm (fun j s => s.1 = j * 8 * 16 ∧ s.2.1 = j * 8 * 8 ∧ s.2.2.1 = n * 8 + j * 8 * 4 ∧ s.2.2.2.1 = n * 12 + j * 8 * 4 ∧ Agree (DoneT n [8, 4, 4] (j * 8)) T s.2.2.2.2) (n / 8) (by omega) (by omega)
  · exact ⟨by simp, by simp, by simp, by simp, by simpa using ho⟩
  · rintro i ⟨ip, ap, cp, xp, out⟩ hi ⟨rfl, rfl, rfl, rfl, ha⟩
    ksec h0 0 (i * 8) 8 hd tail hf hT
    ksec h1 1 (i * 8) 8 hd tail hf hT
    ksec h2 2 (i * 8) 8 hd tail hf hT
    kldv (i * 8 * 16) 0
    kldv (i * 8 * 16) 16
    kldv (i * 8 * 16) 32
    kldv (i * 8 * 16) 48
    kldv (i * 8 * 16) 64
    kldv (i * 8 * 16) 80
    kldv (i * 8 * 16) 96
    kldv (i * 8 * 16) 112
    kstv ha h0 0 16
    kstv ha h0 16 16
    kstv ha h0 32 16
    kstv ha h0 48 16
    kstv ha h1 0 16
    kstv ha h1 16 16
    kstv ha h2 0 16
    kstv ha h2 16 16
    kend ha
  · rintro i ⟨ip, ap, cp, xp, out⟩ hi ⟨rfl, rfl, rfl, rfl, ha⟩ _
    simp; omega
  · rintro ⟨ip, ap, cp, xp, out⟩ hm ⟨rfl, rfl, rfl, rfl, ha⟩
    simp; omega
  · rintro ⟨ip, ap, cp, xp, out⟩ ⟨rfl, rfl, rfl, rfl, ha⟩
    have := transformPtrs_ok .little hd hT ha (by omega)
    simp only
    rw [show n * 16 - (n * 16 - n * 16 % 128) = (n - n / 8 * 8) * 16 by omega]
    exact this

theorem transformSse2V2Ptrs_ok {inp : Buf} {n : Nat} {T out tail : Buf}
    (hd : inp.length = n * 16) (hT : T = columns 16 (bc2Fields id false) inp ++ tail)
    (ho : Agree (DoneT n [8, 4, 4] 0) T out) :
    Ok (transformSse2V2Ptrs inp 0 out 0 (n * 8) (n * 12) (n * 16)) (Agree (DoneT n [8, 4, 4] n) T) := by
  have hf := fits_std (col := id) (fun _ h => h)
  have hTl : n * 16 ≤ T.length := by
    rw [hT, List.length_append, columns_length (by omega) hd hf]; simp
  unfold transformSse2V2Ptrs
  apply Ok.bind
  apply Ok.asm (fun j s => s.1 = j * 4 * 16 ∧ s.2.1 = j * 4 * 8 ∧ s.2.2.1 = n * 8 + j * 4 * 4 ∧ s.2.2.2.1 = n * 12 + j * 4 * 4 ∧ Agree (DoneT n [8, 4, 4] (j * 4)) T s.2.2.2.2) (n / 4) (by omega) (by omega)
  · exact ⟨by simp, by simp, by simp, by simp, by simpa using ho⟩
  · rintro i ⟨ip, ap, cp, xp, out⟩ hi ⟨rfl, rfl, rfl, rfl, ha⟩
    ksec h0 0 (i * 4) 4 hd tail hf hT
    ksec h1 1 (i * 4) 4 hd tail hf hT
    ksec h2 2 (i * 4) 4 hd tail hf hT
    kldv (i * 4 * 16) 0
    kldv (i * 4 * 16) 16
    kldv (i * 4 * 16) 32
    kldv (i * 4 * 16) 48
    kstv ha h0 0 16
    kstv ha h0 16 16
    kstv ha h1 0 16
    kstv ha h2 0 16
    kend ha
  · rintro i ⟨ip, ap, cp, xp, out⟩ hi ⟨rfl, rfl, rfl, rfl, ha⟩ _
    simp; omega
  · rintro ⟨ip, ap, cp, xp, out⟩ hm ⟨rfl, rfl, rfl, rfl, ha⟩
    simp; omega
  · rintro ⟨ip, ap, cp, xp, out⟩ ⟨rfl, rfl, rfl, rfl, ha⟩
    have := transformPtrs_ok .little hd hT ha (by omega)
    simp only
    rw [show n * 16 - (n * 16 - n * 16 % 64) = (n - n / 4 * 4) * 16 by omega]
    exact this

theorem transformAvx2Ptrs_ok {inp : Buf} {n : Nat} {T out tail : Buf}
    (hd : inp.length = n * 16) (hT : T = columns 16 (bc2Fields id false) inp ++ tail)
    (ho : Agree (DoneT n [8, 4, 4] 0) T out) :
    Ok (transformAvx2Ptrs inp 0 out 0 (n * 8) (n * 12) (n * 16)) (Agree (DoneT n [8, 4, 4] n) T) := by
  have hf := fits_std (col := id) (fun _ h => h)
  have hTl : n * 16 ≤ T.length := by
    rw [hT, List.length_append, columns_length (by omega) hd hf]; simp
  unfold transformAvx2Ptrs
  apply Ok.bind
  apply Ok.asm (fun j s => s.1 = j * 8 * 16 ∧ s.2.1 = j * 8 * 8 ∧ s.2.2.1 = n * 8 + j * 8 * 4 ∧ s.2.2.2.1 = n * 12 + j * 8 * 4 ∧ Agree (DoneT n [8, 4, 4] (j * 8)) T s.2.2.2.2) (n / 8) (by omega) (by omega)
  · exact ⟨by simp, by simp, by simp, by simp, by simpa using ho⟩
  · rintro i ⟨ip, ap, cp, xp, out⟩ hi ⟨rfl, rfl, rfl, rfl, ha⟩
    ksec h0 0 (i * 8) 8 hd tail hf hT
    ksec h1 1 (i * 8) 8 hd tail hf hT
    ksec h2 2 (i * 8) 8 hd tail hf hT
    kldv (i * 8 * 16) 0
    kldv (i * 8 * 16) 32
    kldv (i * 8 * 16) 64
    kldv (i * 8 * 16) 96
    kstv ha h0 0 32
    kstv ha h0 32 32
    kstv ha h1 0 32
    kstv ha h2 0 32
    kend ha
  · rintro i ⟨ip, ap, cp, xp, out⟩ hi ⟨rfl, rfl, rfl, rfl, ha⟩ _
    simp; omega
  · rintro ⟨ip, ap, cp, xp, out⟩ hm ⟨rfl, rfl, rfl, rfl, ha⟩
    simp; omega
  · rintro ⟨ip, ap, cp, xp, out⟩ ⟨rfl, rfl, rfl, rfl, ha⟩
    have := transformPtrs_ok .little hd hT ha (by omega)
    simp only
    rw [show n * 16 - (n * 16 - n * 16 % 128) = (n - n / 8 * 8) * 16 by omega]
    exact this

theorem transformAvx512Ptrs_ok {inp : Buf} {n : Nat} {T out tail : Buf}
    (hd : inp.length = n * 16) (hT : T = columns 16 (bc2Fields id false) inp ++ tail)
    (ho : Agree (DoneT n [8, 4, 4] 0) T out) :
    Ok (transformAvx512Ptrs inp 0 out 0 (n * 8) (n * 12) (n * 16)) (Agree (DoneT n [8, 4, 4] n) T) := by
  have hf := fits_std (col := id) (fun _ h => h)
  have hTl : n * 16 ≤ T.length := by
    rw [hT, List.length_append, columns_length (by omega) hd hf]; simp
  unfold transformAvx512Ptrs
  apply Ok.bind
  apply Ok.asm (fun j s => s.1 = j * 16 * 16 ∧ s.2.1 = j * 16 * 8 ∧ s.2.2.1 = n * 8 + j * 16 * 4 ∧ s.2.2.2.1 = n * 12 + j * 16 * 4 ∧ Agree (DoneT n [8, 4, 4] (j * 16)) T s.2.2.2.2) (n / 16) (by omega) (by omega)
  · exact ⟨by simp, by simp, by simp, by simp, by simpa using ho⟩
  · rintro i ⟨ip, ap, cp, xp, out⟩ hi ⟨rfl, rfl, rfl, rfl, ha⟩
    ksec h0 0 (i * 16) 16 hd tail hf hT
    ksec h1 1 (i * 16) 16 hd tail hf hT
    ksec h2 2 (i * 16) 16 hd tail hf hT
    kldv (i * 16 * 16) 0
    kldv (i * 16 * 16) 64
    kldv (i * 16 * 16) 128
    kldv (i * 16 * 16) 192
    kstv ha h0 0 64
    kstv ha h0 64 64
    kstv ha h1 0 64
    kstv ha h2 0 64
    kend ha
  · rintro i ⟨ip, ap, cp, xp, out⟩ hi ⟨rfl, rfl, rfl, rfl, ha⟩ _
    simp; omega
  · rintro ⟨ip, ap, cp, xp, out⟩ hm ⟨rfl, rfl, rfl, rfl, ha⟩
    simp; omega
  · rintro ⟨ip, ap, cp, xp, out⟩ ⟨rfl, rfl, rfl, rfl, ha⟩
    have := transformPtrs_ok .little hd hT ha (by omega)
    simp only
    rw [show n * 16 - (n * 16 - n * 16 % 256) = (n - n / 16 * 16) * 16 by omega]
    exact this

theorem transformAvx512I_ok {inp : Buf} {n : Nat} {T out tail : Buf}
    (hd : inp.length = n * 16) (hT : T = columns 16 (bc2Fields id false) inp ++ tail)
    (ho : Agree (DoneT n [8, 4, 4] 0) T out) :
    Ok (transformAvx512I inp out (n * 16)) (Agree (DoneT n [8, 4, 4] n) T) := by
  have hf := fits_std (col := id) (fun _ h => h)
  have hTl : n * 16 ≤ T.length := by
    rw [hT, List.length_append, columns_length (by omega) hd hf]; simp
  unfold transformAvx512I
  apply Ok.bind
  apply Ok.whileM (fun j s => s.1 = j * 16 * 16 ∧ s.2.1 = j * 16 * 8 ∧ s.2.2.1 = n * 8 + j * 16 * 4 ∧
    s.2.2.2.1 = n * 12 + j * 16 * 4 ∧ Agree (DoneT n [8, 4, 4] (j * 16)) T s.2.2.2.2) (n / 16) (by omega)
  · exact ⟨by simp, by simp, by simp; omega, by simp; omega, by simpa using ho⟩
  · rintro i ⟨ip, ap, cp, xp, out⟩ hi ⟨rfl, rfl, rfl, rfl, ha⟩
    refine ⟨by simp; omega, ?_⟩
    ksec h0 0 (i * 16) 16 hd tail hf hT
    ksec h1 1 (i * 16) 16 hd tail hf hT
    ksec h2 2 (i * 16) 16 hd tail hf hT
    kldv (i * 16 * 16) 0
    kldv (i * 16 * 16) 64
    kldv (i * 16 * 16) 128
    kldv (i * 16 * 16) 192
    kstv ha h0 0 64
    kstv ha h0 64 64
    kstv ha h1 0 64
    kstv ha h2 0 64
    kend ha
  · rintro ⟨ip, ap, cp, xp, out⟩ ⟨rfl, rfl, rfl, rfl, ha⟩
    refine ⟨by simp; omega, ?_⟩
    have := transformPtrs_ok .little hd hT ha (by omega)
    simp only
    rw [show n * 16 - (n * 16 - n * 16 % 256) = (n - n / 16 * 16) * 16 by omega]
    exact this

theorem untransformSse2Ptrs_ok {inp : Buf} {n : Nat} {T out tail : Buf}
    (hd : inp.length = n * 16) (hT : T = unsoa n (widths false) (unFields id false) inp ++ tail)
    (ho : Agree (DoneU n 16 0) T out) :
    Ok (untransformSse2Ptrs inp 0 (n * 8) (n * 12) out 0 (n * 16)) (Agree (DoneU n 16 n) T) := by
  have hg := unFields_length (col := id) (fun _ h => h) false
  have hl : n * ((widths false)).sum ≤ inp.length := by simp [widths]; omega
  have hTl : n * 16 ≤ T.length := by
    rw [hT, List.length_append, unsoa_length hl hg]; omega
  unfold untransformSse2Ptrs
  apply Ok.bind
  apply Ok.asm (fun j s => s.1 = j * 4 * 8 ∧ s.2.1 = n * 8 + j * 4 * 4 ∧ s.2.2.1 = n * 12 + j * 4 * 4 ∧ s.2.2.2.1 = j * 4 * 16 ∧ Agree (DoneU n 16 (j * 4)) T s.2.2.2.2) (n / 4) (by omega) (by omega)
  · exact ⟨by simp, by simp, by simp, by simp, by simpa using ho⟩
  · rintro i ⟨ap, cp, xp, op, out⟩ hi ⟨rfl, rfl, rfl, rfl, ha⟩
    kblk h0 (i * 4) 4 tail hl hg hT
    simp only [widths, chunkFields, Nat.zero_add, ← Nat.mul_add, Nat.reduceAdd] at h0
    kldv (i * 4 * 8) 0
    kldv (i * 4 * 8) 16
    kldv (n * 8 + i * 4 * 4) 0
    kldv (n * 12 + i * 4 * 4) 0
    kstv ha h0 0 16
    kstv ha h0 16 16
    kstv ha h0 32 16
    kstv ha h0 48 16
    kend ha
  · rintro i ⟨ap, cp, xp, op, out⟩ hi ⟨rfl, rfl, rfl, rfl, ha⟩ _
    simp; omega
  · rintro ⟨ap, cp, xp, op, out⟩ hm ⟨rfl, rfl, rfl, rfl, ha⟩
    simp; omega
  · rintro ⟨ap, cp, xp, op, out⟩ ⟨rfl, rfl, rfl, rfl, ha⟩
    have := untransformPtrs_ok .little hd hT ha (by omega)
    simp only
    rw [show n * 16 - (n * 16 - n * 16 % 64) = (n - n / 4 * 4) * 16 by omega]
    exact this

theorem untransformAvx2Ptrs_ok {inp : Buf} {n : Nat} {T out tail : Buf}
    (hd : inp.length = n * 16) (hT : T = unsoa n (widths false) (unFields id false) inp ++ tail)
    (ho : Agree (DoneU n 16 0) T out) :
    Ok (untransformAvx2Ptrs inp 0 (n * 8) (n * 12) out 0 (n * 16)) (Agree (DoneU n 16 n) T) := by
  have hg := unFields_length (col := id) (fun _ h => h) false
  have hl : n * ((widths false)).sum ≤ inp.length := by simp [widths]; omega
  have hTl : n * 16 ≤ T.length := by
    rw [hT, List.length_append, unsoa_length hl hg]; omega
  unfold untransformAvx2Ptrs
  apply Ok.bind
  apply Ok.asm (fun j s => s.1 = j * 8 * 8 ∧ s.2.1 = n * 8 + j * 8 * 4 ∧ s.2.2.1 = n * 12 + j * 8 * 4 ∧ s.2.2.2.1 = j * 8 * 16 ∧ Agree (DoneU n 16 (j * 8)) T s.2.2.2.2) (n / 8) (by omega) (by omega)
  · exact ⟨by simp, by simp, by simp, by simp, by simpa using ho⟩
  · rintro i ⟨ap, cp, xp, op, out⟩ hi ⟨rfl, rfl, rfl, rfl, ha⟩
    kblk h0 (i * 8) 8 tail hl hg hT
    simp only [widths, chunkFields, Nat.zero_add, ← Nat.mul_add, Nat.reduceAdd] at h0
    kldv (i * 8 * 8) 0
    kldv (i * 8 * 8) 32
    kldv (n * 8 + i * 8 * 4) 0
    kldv (n * 12 + i * 8 * 4) 0
    kstv ha h0 0 32
    kstv ha h0 32 32
    kstv ha h0 64 32
    kstv ha h0 96 32
    kend ha
  · rintro i ⟨ap, cp, xp, op, out⟩ hi ⟨rfl, rfl, rfl, rfl, ha⟩ _
    simp; omega
  · rintro ⟨ap, cp, xp, op, out⟩ hm ⟨rfl, rfl, rfl, rfl, ha⟩
    simp; omega
  · rintro ⟨ap, cp, xp, op, out⟩ ⟨rfl, rfl, rfl, rfl, ha⟩
    have := untransformPtrs_ok .little hd hT ha (by omega)
    simp only
    rw [show n * 16 - (n * 16 - n * 16 % 128) = (n - n / 8 * 8) * 16 by omega]
    exact this

/-- Fewer than 16 blocks go straight to the scalar kernel. -/
theorem untransformAvx512IPtrs_short {inp out : Buf} {ap cp xp op len : Nat} (h : len < 256) :
    untransformAvx512IPtrs inp ap cp xp out op len =
      untransformPtrs .little inp ap cp xp out op len := by
  unfold untransformAvx512IPtrs
  have h0 : len - len % 256 = 0 := by omega
  simp [h0, whileM]

theorem untransformAvx512IPtrs_ok {inp : Buf} {n : Nat} {T out tail : Buf}
    (hd : inp.length = n * 16) (hT : T = unsoa n (widths false) (unFields id false) inp ++ tail)
    (ho : Agree (DoneU n 16 0) T out) :
    Ok (untransformAvx512IPtrs inp 0 (n * 8) (n * 12) out 0 (n * 16)) (Agree (DoneU n 16 n) T) := by
  have hg := unFields_length (col := id) (fun _ h => h) false
  have hl : n * ((widths false)).sum ≤ inp.length := by simp [widths]; omega
  have hTl : n * 16 ≤ T.length := by
    rw [hT, List.length_append, unsoa_length hl hg]; omega
  unfold untransformAvx512IPtrs
  apply Ok.bind
  apply Ok.whileM (fun j s => s.1 = j * 16 * 8 ∧ s.2.1 = n * 8 + j * 16 * 4 ∧ s.2.2.1 = n * 12 + j * 16 * 4 ∧ s.2.2.2.1 = j * 16 * 16 ∧ Agree (DoneU n 16 (j * 16)) T s.2.2.2.2) (n / 16) (by omega)
  · exact ⟨by simp, by simp, by simp, by simp, by simpa using ho⟩
  · rintro i ⟨ap, cp, xp, op, out⟩ hi ⟨rfl, rfl, rfl, rfl, ha⟩
    refine ⟨by first | (simp; done) | (simp; omega), ?_⟩
    kblk h0 (i * 16) 16 tail hl hg hT
    simp only [widths, chunkFields, Nat.zero_add, ← Nat.mul_add, Nat.reduceAdd] at h0
    kldv (i * 16 * 8) 0
    kldv (i * 16 * 8) 64
    kldv (n * 8 + i * 16 * 4) 0
    kldv (n * 12 + i * 16 * 4) 0
    kstv ha h0 0 64
    kstv ha h0 64 64
    kstv ha h0 128 64
    kstv ha h0 192 64
    kend ha
  · rintro ⟨ap, cp, xp, op, out⟩ ⟨rfl, rfl, rfl, rfl, ha⟩
    refine ⟨by first | (simp; done) | (simp; omega), ?_⟩
    have := untransformPtrs_ok .little hd hT ha (by omega)
    simp only
    rw [show n * 16 - (n * 16 - n * 16 % 256) = (n - n / 16 * 16) * 16 by omega]
    exact this

theorem untransformAvx512Ptrs_ok {inp : Buf} {n : Nat} {T out tail : Buf}
    (hd : inp.length = n * 16) (hT : T = unsoa n (widths false) (unFields id false) inp ++ tail)
    (ho : Agree (DoneU n 16 0) T out) :
    Ok (untransformAvx512Ptrs inp 0 (n * 8) (n * 12) out 0 (n * 16)) (Agree (DoneU n 16 n) T) := by
  have hg := unFields_length (col := id) (fun _ h => h) false
  have hl : n * ((widths false)).sum ≤ inp.length := by simp [widths]; omega
  have hTl : n * 16 ≤ T.length := by
    rw [hT, List.length_append, unsoa_length hl hg]; omega
  unfold untransformAvx512Ptrs
  apply Ok.bind
  apply Ok.asm (fun j s => s.1 = j * 16 * 8 ∧ s.2.1 = n * 8 + j * 16 * 4 ∧ s.2.2.1 = n * 12 + j * 16 * 4 ∧ s.2.2.2.1 = j * 16 * 16 ∧ Agree (DoneU n 16 (j * 16)) T s.2.2.2.2) (n / 16) (by omega) (by omega)
  · exact ⟨by simp, by simp, by simp, by simp, by simpa using ho⟩
  · rintro i ⟨ap, cp, xp, op, out⟩ hi ⟨rfl, rfl, rfl, rfl, ha⟩
    kblk h0 (i * 16) 16 tail hl hg hT
    simp only [widths, chunkFields, Nat.zero_add, ← Nat.mul_add, Nat.reduceAdd] at h0
    kldv (n * 8 + i * 16 * 4) 0
    kldv (n * 12 + i * 16 * 4) 0
    kldv (i * 16 * 8) 0
    kldv (i * 16 * 8) 64
    kstv ha h0 0 64
    kstv ha h0 64 64
    kstv ha h0 128 64
    kstv ha h0 192 64
    kend ha
  · rintro i ⟨ap, cp, xp, op, out⟩ hi ⟨rfl, rfl, rfl, rfl, ha⟩ _
    simp; omega
  · rintro ⟨ap, cp, xp, op, out⟩ hm ⟨rfl, rfl, rfl, rfl, ha⟩
    simp; omega
  · rintro ⟨ap, cp, xp, op, out⟩ ⟨rfl, rfl, rfl, rfl, ha⟩
    have := untransformPtrs_ok .little hd hT ha (by omega)
    simp only
    rw [untransformAvx512IPtrs_short (by omega), show n * 16 - (n * 16 - n * 16 % 256) = (n - n / 16 * 16) * 16 by omega]
    exact this

theorem transformRecorrSse2_ok (v : Variant) {inp : Buf} {n : Nat} {T out tail : Buf}
    (hv : v ≠ .none) (hd : inp.length = n * 16) (hT : T = columns 16 (bc2Fields (encCol .little v) false) inp ++ tail)
    (ho : Agree (DoneT n [8, 4, 4] 0) T out) :
    Ok (transformRecorrSse2 inp 0 out 0 (n * 8) (n * 12) n v) (Agree (DoneT n [8, 4, 4] n) T) := by
  have hf := fits_std (col := encCol .little v) (fun _ _ => encCol_length _ _ _)
  have hTl : n * 16 ≤ T.length := by
    rw [hT, List.length_append, columns_length (by omega) hd hf]; simp
  unfold transformRecorrSse2
  rw [if_neg hv]
  simp only [decorrSse2_eq]
  apply Ok.bind
  apply Ok.whileM (fun j s => s.1 = j * 4 * 16 ∧ s.2.1 = j * 4 * 8 ∧ s.2.2.1 = n * 8 + j * 4 * 4 ∧ s.2.2.2.1 = n * 12 + j * 4 * 4 ∧ Agree (DoneT n [8, 4, 4] (j * 4)) T s.2.2.2.2) (n / 4) (by omega)
  · exact ⟨by simp, by simp, by simp, by simp, by simpa using ho⟩
  · rintro i ⟨ip, ap, cp, xp, out⟩ hi ⟨rfl, rfl, rfl, rfl, ha⟩
    refine ⟨by first | (simp; done) | (simp; omega), ?_⟩
    ksec h0 0 (i * 4) 4 hd tail hf hT
    ksec h1 1 (i * 4) 4 hd tail hf hT
    ksec h2 2 (i * 4) 4 hd tail hf hT
    kldv (i * 4 * 16) 0
    kldv (i * 4 * 16) 16
    kldv (i * 4 * 16) 32
    kldv (i * 4 * 16) 48
    kstv ha h0 0 16
    kstv ha h0 16 16
    kstv ha h1 0 16
    kstv ha h2 0 16
    kend ha
  · rintro ⟨ip, ap, cp, xp, out⟩ ⟨rfl, rfl, rfl, rfl, ha⟩
    refine ⟨by first | (simp; done) | (simp; omega), ?_⟩
    have := transformRecorrGeneric_ok .little v hv hd hT ha (by omega)
    simp only
    rw [show n % 4 = n - n / 4 * 4 by omega]
    exact this

theorem untransformRecorrSse2_ok (v : Variant) {inp : Buf} {n : Nat} {T out tail : Buf}
    (hv : v ≠ .none) (hd : inp.length = n * 16) (hT : T = unsoa n (widths false) (unFields (decCol .little v) false) inp ++ tail)
    (ho : Agree (DoneU n 16 0) T out) :
    Ok (untransformRecorrSse2 inp 0 (n * 8) (n * 12) out 0 n v) (Agree (DoneU n 16 n) T) := by
  have hg := unFields_length (col := decCol .little v) (fun _ _ => decCol_length _ _ _) false
  have hl : n * ((widths false)).sum ≤ inp.length := by simp [widths]; omega
  have hTl : n * 16 ≤ T.length := by
    rw [hT, List.length_append, unsoa_length hl hg]; omega
  unfold untransformRecorrSse2
  rw [if_neg hv]
  simp only [recorrSse2_eq]
  apply Ok.bind
  apply Ok.whileM (fun j s => s.1 = j * 4 * 8 ∧ s.2.1 = n * 8 + j * 4 * 4 ∧ s.2.2.1 = n * 12 + j * 4 * 4 ∧ s.2.2.2.1 = j * 4 * 16 ∧ Agree (DoneU n 16 (j * 4)) T s.2.2.2.2) (n / 4) (by omega)
  · exact ⟨by simp, by simp, by simp, by simp, by simpa using ho⟩
  · rintro i ⟨ap, cp, xp, op, out⟩ hi ⟨rfl, rfl, rfl, rfl, ha⟩
    refine ⟨by first | (simp; done) | (simp; omega), ?_⟩
    kblk h0 (i * 4) 4 tail hl hg hT
    simp only [widths, chunkFields, Nat.zero_add, ← Nat.mul_add, Nat.reduceAdd] at h0
    kldv (i * 4 * 8) 0
    kldv (i * 4 * 8) 16
    kldv (n * 8 + i * 4 * 4) 0
    kldv (n * 12 + i * 4 * 4) 0
    kstv ha h0 0 16
    kstv ha h0 16 16
    kstv ha h0 32 16
    kstv ha h0 48 16
    kend ha
  · rintro ⟨ap, cp, xp, op, out⟩ ⟨rfl, rfl, rfl, rfl, ha⟩
    refine ⟨by first | (simp; done) | (simp; omega), ?_⟩
    have := untransformRecorrGeneric_ok .little v hv hd hT ha (by omega)
    simp only
    rw [show n - (n - n % 4) = n - n / 4 * 4 by omega]
    exact this

theorem transformSplitSse2_ok {inp : Buf} {n : Nat} {T out tail : Buf}
    (hd : inp.length = n * 16) (hT : T = columns 16 (bc2Fields id true) inp ++ tail)
    (ho : Agree (DoneT n [8, 2, 2, 4] 0) T out) :
    Ok (transformSplitSse2 inp 0 out 0 (n * 8) (n * 10) (n * 12) n) (Agree (DoneT n [8, 2, 2, 4] n) T) := by
  have hf := fits_split (col := id) (fun _ h => h)
  have hTl : n * 16 ≤ T.length := by
    rw [hT, List.length_append, columns_length (by omega) hd hf]; simp
  unfold transformSplitSse2
  apply Ok.bind
  apply Ok.whileM (fun j s => s.1 = j * 8 * 16 ∧ s.2.1 = j * 8 * 8 ∧ s.2.2.1 = n * 8 + j * 8 * 2 ∧ s.2.2.2.1 = n * 10 + j * 8 * 2 ∧ s.2.2.2.2.1 = n * 12 + j * 8 * 4 ∧ Agree (DoneT n [8, 2, 2, 4] (j * 8)) T s.2.2.2.2.2) (n / 8) (by omega)
  · exact ⟨by simp, by simp, by simp, by simp, by simp, by simpa using ho⟩
  · rintro i ⟨ip, ap, c0p, c1p, xp, out⟩ hi ⟨rfl, rfl, rfl, rfl, rfl, ha⟩
    refine ⟨by first | (simp; done) | (simp; omega), ?_⟩
    ksec h0 0 (i * 8) 8 hd tail hf hT
    ksec h1 1 (i * 8) 8 hd tail hf hT
    ksec h2 2 (i * 8) 8 hd tail hf hT
    ksec h3 3 (i * 8) 8 hd tail hf hT
    kldv (i * 8 * 16) 0
    kldv (i * 8 * 16) 16
    kldv (i * 8 * 16) 32
    kldv (i * 8 * 16) 48
    kldv (i * 8 * 16) 64
    kldv (i * 8 * 16) 80
    kldv (i * 8 * 16) 96
    kldv (i * 8 * 16) 112
    kstv ha h0 0 16
    kstv ha h0 16 16
    kstv ha h0 32 16
    kstv ha h0 48 16
    kstv ha h1 0 16
    kstv ha h2 0 16
    kstv ha h3 0 16
    kstv ha h3 16 16
    kend ha
  · rintro ⟨ip, ap, c0p, c1p, xp, out⟩ ⟨rfl, rfl, rfl, rfl, rfl, ha⟩
    refine ⟨by first | (simp; done) | (simp; omega), ?_⟩
    have := transformSplitGeneric_ok .little hd hT ha (by omega)
    simp only
    rw [show n % 8 = n - n / 8 * 8 by omega]
    exact this

theorem untransformSplitSse2_ok {inp : Buf} {n : Nat} {T out tail : Buf}
    (hd : inp.length = n * 16) (hT : T = unsoa n (widths true) (unFields id true) inp ++ tail)
    (ho : Agree (DoneU n 16 0) T out) :
    Ok (untransformSplitSse2 inp 0 (n * 8) (n * 10) (n * 12) out 0 n) (Agree (DoneU n 16 n) T) := by
  have hg := unFields_length (col := id) (fun _ h => h) true
  have hl : n * ((widths true)).sum ≤ inp.length := by simp [widths]; omega
  have hTl : n * 16 ≤ T.length := by
    rw [hT, List.length_append, unsoa_length hl hg]; omega
  unfold untransformSplitSse2
  apply Ok.bind
  apply Ok.whileM (fun j s => s.1 = j * 8 * 8 ∧ s.2.1 = n * 8 + j * 8 * 2 ∧ s.2.2.1 = n * 10 + j * 8 * 2 ∧ s.2.2.2.1 = n * 12 + j * 8 * 4 ∧ s.2.2.2.2.1 = j * 8 * 16 ∧ Agree (DoneU n 16 (j * 8)) T s.2.2.2.2.2) (n / 8) (by omega)
  · exact ⟨by simp, by simp, by simp, by simp, by simp, by simpa using ho⟩
  · rintro i ⟨ap, c0p, c1p, xp, op, out⟩ hi ⟨rfl, rfl, rfl, rfl, rfl, ha⟩
    refine ⟨by first | (simp; done) | (simp; omega), ?_⟩
    kblk h0 (i * 8) 8 tail hl hg hT
    simp only [widths, chunkFields, Nat.zero_add, ← Nat.mul_add, Nat.reduceAdd] at h0
    kldv (i * 8 * 8) 0
    kldv (i * 8 * 8) 16
    kldv (i * 8 * 8) 32
    kldv (i * 8 * 8) 48
    kldv (n * 8 + i * 8 * 2) 0
    kldv (n * 10 + i * 8 * 2) 0
    kldv (n * 12 + i * 8 * 4) 0
    kldv (n * 12 + i * 8 * 4) 16
    kstv ha h0 0 16
    kstv ha h0 16 16
    kstv ha h0 32 16
    kstv ha h0 48 16
    kstv ha h0 64 16
    kstv ha h0 80 16
    kstv ha h0 96 16
    kstv ha h0 112 16
    kend ha
  · rintro ⟨ap, c0p, c1p, xp, op, out⟩ ⟨rfl, rfl, rfl, rfl, rfl, ha⟩
    refine ⟨by first | (simp; done) | (simp; omega), ?_⟩
    have := untransformSplitGeneric_ok .little hd hT ha (by omega)
    simp only
    rw [show n % 8 = n - n / 8 * 8 by omega]
    exact this

theorem transformSplitRecorrSse2_ok (v : Variant) {inp : Buf} {n : Nat} {T out tail : Buf}
    (hv : v ≠ .none) (hd : inp.length = n * 16) (hT : T = columns 16 (bc2Fields (encCol .little v) true) inp ++ tail)
    (ho : Agree (DoneT n [8, 2, 2, 4] 0) T out) :
    Ok (transformSplitRecorrSse2 inp 0 out 0 (n * 8) (n * 10) (n * 12) n v) (Agree (DoneT n [8, 2, 2, 4] n) T) := by
  have hf := fits_split (col := (encCol .little v)) (fun _ _ => encCol_length _ _ _)
  have hTl : n * 16 ≤ T.length := by
    rw [hT, List.length_append, columns_length (by omega) hd hf]; simp
  unfold transformSplitRecorrSse2
  rw [if_neg hv]
  simp only [decorrSse2_eq]
  apply Ok.bind
  apply Ok.whileM (fun j s => s.1 = j * 8 * 16 ∧ s.2.1 = j * 8 * 8 ∧ s.2.2.1 = n * 8 + j * 8 * 2 ∧ s.2.2.2.1 = n * 10 + j * 8 * 2 ∧ s.2.2.2.2.1 = n * 12 + j * 8 * 4 ∧ Agree (DoneT n [8, 2, 2, 4] (j * 8)) T s.2.2.2.2.2) (n / 8) (by omega)
  · exact ⟨by simp, by simp, by simp, by simp, by simp, by simpa using ho⟩
  · rintro i ⟨ip, ap, c0p, c1p, xp, out⟩ hi ⟨rfl, rfl, rfl, rfl, rfl, ha⟩
    refine ⟨by first | (simp; done) | (simp; omega), ?_⟩
    ksec h0 0 (i * 8) 8 hd tail hf hT
    ksec h1 1 (i * 8) 8 hd tail hf hT
    ksec h2 2 (i * 8) 8 hd tail hf hT
    ksec h3 3 (i * 8) 8 hd tail hf hT
    kldv (i * 8 * 16) 0
    kldv (i * 8 * 16) 16
    kldv (i * 8 * 16) 32
    kldv (i * 8 * 16) 48
    kldv (i * 8 * 16) 64
    kldv (i * 8 * 16) 80
    kldv (i * 8 * 16) 96
    kldv (i * 8 * 16) 112
    kstv ha h0 0 16
    kstv ha h0 16 16
    kstv ha h0 32 16
    kstv ha h0 48 16
    kstv ha h1 0 16
    kstv ha h2 0 16
    kstv ha h3 0 16
    kstv ha h3 16 16
    kend ha
  · rintro ⟨ip, ap, c0p, c1p, xp, out⟩ ⟨rfl, rfl, rfl, rfl, rfl, ha⟩
    refine ⟨by first | (simp; done) | (simp; omega), ?_⟩
    have := transformSplitRecorrGeneric_ok .little v hv hd hT ha (by omega)
    simp only
    rw [show n % 8 = n - n / 8 * 8 by omega]
    exact this

theorem untransformSplitRecorrSse2_ok (v : Variant) {inp : Buf} {n : Nat} {T out tail : Buf}
    (hv : v ≠ .none) (hd : inp.length = n * 16) (hT : T = unsoa n (widths true) (unFields (decCol .little v) true) inp ++ tail)
    (ho : Agree (DoneU n 16 0) T out) :
    Ok (untransformSplitRecorrSse2 inp 0 (n * 8) (n * 10) (n * 12) out 0 n v) (Agree (DoneU n 16 n) T) := by
  have hg := unFields_length (col := (decCol .little v)) (fun _ _ => decCol_length _ _ _) true
  have hl : n * ((widths true)).sum ≤ inp.length := by simp [widths]; omega
  have hTl : n * 16 ≤ T.length := by
    rw [hT, List.length_append, unsoa_length hl hg]; omega
  unfold untransformSplitRecorrSse2
  rw [if_neg hv]
  simp only [recorrSse2_eq]
  apply Ok.bind
  apply Ok.whileM (fun j s => s.1 = j * 8 * 8 ∧ s.2.1 = n * 8 + j * 8 * 2 ∧ s.2.2.1 = n * 10 + j * 8 * 2 ∧ s.2.2.2.1 = n * 12 + j * 8 * 4 ∧ s.2.2.2.2.1 = j * 8 * 16 ∧ Agree (DoneU n 16 (j * 8)) T s.2.2.2.2.2) (n / 8) (by omega)
  · exact ⟨by simp, by simp, by simp, by simp, by simp, by simpa using ho⟩
  · rintro i ⟨ap, c0p, c1p, xp, op, out⟩ hi ⟨rfl, rfl, rfl, rfl, rfl, ha⟩
    refine ⟨by first | (simp; done) | (simp; omega), ?_⟩
    kblk h0 (i * 8) 8 tail hl hg hT
    simp only [widths, chunkFields, Nat.zero_add, ← Nat.mul_add, Nat.reduceAdd] at h0
    kldv (i * 8 * 8) 0
    kldv (i * 8 * 8) 16
    kldv (i * 8 * 8) 32
    kldv (i * 8 * 8) 48
    kldv (n * 8 + i * 8 * 2) 0
    kldv (n * 10 + i * 8 * 2) 0
    kldv (n * 12 + i * 8 * 4) 0
    kldv (n * 12 + i * 8 * 4) 16
    kstv ha h0 0 16
    kstv ha h0 16 16
    kstv ha h0 32 16
    kstv ha h0 48 16
    kstv ha h0 64 16
    kstv ha h0 80 16
    kstv ha h0 96 16
    kstv ha h0 112 16
    kend ha
  · rintro ⟨ap, c0p, c1p, xp, op, out⟩ ⟨rfl, rfl, rfl, rfl, rfl, ha⟩
    refine ⟨by first | (simp; done) | (simp; omega), ?_⟩
    have := untransformSplitRecorrGeneric_ok .little v hv hd hT ha (by omega)
    simp only
    rw [show n % 8 = n - n / 8 * 8 by omega]
    exact this

theorem transformRecorrAvx2_ok (v : Variant) {inp : Buf} {n : Nat} {T out tail : Buf}
    (hv : v ≠ .none) (hd : inp.length = n * 16) (hT : T = columns 16 (bc2Fields (encCol .little v) false) inp ++ tail)
    (ho : Agree (DoneT n [8, 4, 4] 0) T out) :
    Ok (transformRecorrAvx2 inp 0 out 0 (n * 8) (n * 12) n v) (Agree (DoneT n [8, 4, 4] n) T) := by
  have hf := fits_std (col := encCol .little v) (fun _ _ => encCol_length _ _ _)
  have hTl : n * 16 ≤ T.length := by
    rw [hT, List.length_append, columns_length (by omega) hd hf]; simp
  unfold transformRecorrAvx2
  rw [if_neg hv]
  simp only [decorrAvx2_eq]
  apply Ok.bind
  apply Ok.whileM (fun j s => s.1 = j * 8 * 16 ∧ s.2.1 = j * 8 * 8 ∧ s.2.2.1 = n * 8 + j * 8 * 4 ∧ s.2.2.2.1 = n * 12 + j * 8 * 4 ∧ Agree (DoneT n [8, 4, 4] (j * 8)) T s.2.2.2.2) (n / 8) (by omega)
  · exact ⟨by simp, by simp, by simp, by simp, by simpa using ho⟩
  · rintro i ⟨ip, ap, cp, xp, out⟩ hi ⟨rfl, rfl, rfl, rfl, ha⟩
    refine ⟨by first | (simp; done) | (simp; omega), ?_⟩
    ksec h0 0 (i * 8) 8 hd tail hf hT
    ksec h1 1 (i * 8) 8 hd tail hf hT
    ksec h2 2 (i * 8) 8 hd tail hf hT
    kldv (i * 8 * 16) 0
    kldv (i * 8 * 16) 32
    kldv (i * 8 * 16) 64
    kldv (i * 8 * 16) 96
    kstv ha h0 0 32
    kstv ha h0 32 32
    kstv ha h1 0 32
    kstv ha h2 0 32
    kend ha
  · rintro ⟨ip, ap, cp, xp, out⟩ ⟨rfl, rfl, rfl, rfl, ha⟩
    refine ⟨by first | (simp; done) | (simp; omega), ?_⟩
    have := transformRecorrGeneric_ok .little v hv hd hT ha (by omega)
    simp only
    rw [show n % 8 = n - n / 8 * 8 by omega]
    exact this

theorem untransformRecorrAvx2_ok (v : Variant) {inp : Buf} {n : Nat} {T out tail : Buf}
    (hv : v ≠ .none) (hd : inp.length = n * 16) (hT : T = unsoa n (widths false) (unFields (decCol .little v) false) inp ++ tail)
    (ho : Agree (DoneU n 16 0) T out) :
    Ok (untransformRecorrAvx2 inp 0 (n * 8) (n * 12) out 0 n v) (Agree (DoneU n 16 n) T) := by
  have hg := unFields_length (col := decCol .little v) (fun _ _ => decCol_length _ _ _) false
  have hl : n * ((widths false)).sum ≤ inp.length := by simp [widths]; omega
  have hTl : n * 16 ≤ T.length := by
    rw [hT, List.length_append, unsoa_length hl hg]; omega
  unfold untransformRecorrAvx2
  rw [if_neg hv]
  simp only [recorrAvx2_eq]
  apply Ok.bind
  apply Ok.whileM (fun j s => s.1 = j * 8 * 8 ∧ s.2.1 = n * 8 + j * 8 * 4 ∧ s.2.2.1 = n * 12 + j * 8 * 4 ∧ s.2.2.2.1 = j * 8 * 16 ∧ Agree (DoneU n 16 (j * 8)) T s.2.2.2.2) (n / 8) (by omega)
  · exact ⟨by simp, by simp, by simp, by simp, by simpa using ho⟩
  · rintro i ⟨ap, cp, xp, op, out⟩ hi ⟨rfl, rfl, rfl, rfl, ha⟩
    refine ⟨by first | (simp; done) | (simp; omega), ?_⟩
    kblk h0 (i * 8) 8 tail hl hg hT
    simp only [widths, chunkFields, Nat.zero_add, ← Nat.mul_add, Nat.reduceAdd] at h0
    kldv (i * 8 * 8) 0
    kldv (i * 8 * 8) 32
    kldv (n * 8 + i * 8 * 4) 0
    kldv (n * 12 + i * 8 * 4) 0
    kstv ha h0 0 32
    kstv ha h0 32 32
    kstv ha h0 64 32
    kstv ha h0 96 32
    kend ha
  · rintro ⟨ap, cp, xp, op, out⟩ ⟨rfl, rfl, rfl, rfl, ha⟩
    refine ⟨by first | (simp; done) | (simp; omega), ?_⟩
    have := untransformRecorrGeneric_ok .little v hv hd hT ha (by omega)
    simp only
    rw [show n - (n - n % 8) = n - n / 8 * 8 by omega]
    exact this

theorem transformSplitAvx2_ok {inp : Buf} {n : Nat} {T out tail : Buf}
    (hd : inp.length = n * 16) (hT : T = columns 16 (bc2Fields id true) inp ++ tail)
    (ho : Agree (DoneT n [8, 2, 2, 4] 0) T out) :
    Ok (transformSplitAvx2 inp 0 out 0 (n * 8) (n * 10) (n * 12) n) (Agree (DoneT n [8, 2, 2, 4] n) T) := by
  have hf := fits_split (col := id) (fun _ h => h)
  have hTl : n * 16 ≤ T.length := by
    rw [hT, List.length_append, columns_length (by omega) hd hf]; simp
  unfold transformSplitAvx2
  apply Ok.bind
  apply Ok.whileM (fun j s => s.1 = j * 16 * 16 ∧ s.2.1 = j * 16 * 8 ∧ s.2.2.1 = n * 8 + j * 16 * 2 ∧ s.2.2.2.1 = n * 10 + j * 16 * 2 ∧ s.2.2.2.2.1 = n * 12 + j * 16 * 4 ∧ Agree (DoneT n [8, 2, 2, 4] (j * 16)) T s.2.2.2.2.2) (n / 16) (by omega)
  · exact ⟨by simp, by simp, by simp, by simp, by simp, by simpa using ho⟩
  · rintro i ⟨ip, ap, c0p, c1p, xp, out⟩ hi ⟨rfl, rfl, rfl, rfl, rfl, ha⟩
    refine ⟨by first | (simp; done) | (simp; omega), ?_⟩
    ksec h0 0 (i * 16) 16 hd tail hf hT
    ksec h1 1 (i * 16) 16 hd tail hf hT
    ksec h2 2 (i * 16) 16 hd tail hf hT
    ksec h3 3 (i * 16) 16 hd tail hf hT
    kldv (i * 16 * 16) 0
    kldv (i * 16 * 16) 32
    kldv (i * 16 * 16) 64
    kldv (i * 16 * 16) 96
    kldv (i * 16 * 16) 128
    kldv (i * 16 * 16) 160
    kldv (i * 16 * 16) 192
    kldv (i * 16 * 16) 224
    kstv ha h0 0 32
    kstv ha h0 32 32
    kstv ha h0 64 32
    kstv ha h0 96 32
    kstv ha h1 0 32
    kstv ha h2 0 32
    kstv ha h3 0 32
    kstv ha h3 32 32
    kend ha
  · rintro ⟨ip, ap, c0p, c1p, xp, out⟩ ⟨rfl, rfl, rfl, rfl, rfl, ha⟩
    refine ⟨by first | (simp; done) | (simp; omega), ?_⟩
    have := transformSplitGeneric_ok .little hd hT ha (by omega)
    simp only
    rw [show n % 16 = n - n / 16 * 16 by omega]
    exact this

theorem untransformSplitAvx2_ok {inp : Buf} {n : Nat} {T out tail : Buf}
    (hd : inp.length = n * 16) (hT : T = unsoa n (widths true) (unFields id true) inp ++ tail)
    (ho : Agree (DoneU n 16 0) T out) :
    Ok (untransformSplitAvx2 inp 0 (n * 8) (n * 10) (n * 12) out 0 n) (Agree (DoneU n 16 n) T) := by
  have hg := unFields_length (col := id) (fun _ h => h) true
  have hl : n * ((widths true)).sum ≤ inp.length := by simp [widths]; omega
  have hTl : n * 16 ≤ T.length := by
    rw [hT, List.length_append, unsoa_length hl hg]; omega
  unfold untransformSplitAvx2
  apply Ok.bind
  apply Ok.whileM (fun j s => s.1 = j * 16 * 8 ∧ s.2.1 = n * 8 + j * 16 * 2 ∧ s.2.2.1 = n * 10 + j * 16 * 2 ∧ s.2.2.2.1 = n * 12 + j * 16 * 4 ∧ s.2.2.2.2.1 = j * 16 * 16 ∧ Agree (DoneU n 16 (j * 16)) T s.2.2.2.2.2) (n / 16) (by omega)
  · exact ⟨by simp, by simp, by simp, by simp, by simp, by simpa using ho⟩
  · rintro i ⟨ap, c0p, c1p, xp, op, out⟩ hi ⟨rfl, rfl, rfl, rfl, rfl, ha⟩
    refine ⟨by first | (simp; done) | (simp; omega), ?_⟩
    kblk h0 (i * 16) 16 tail hl hg hT
    simp only [widths, chunkFields, Nat.zero_add, ← Nat.mul_add, Nat.reduceAdd] at h0
    kldv (i * 16 * 8) 0
    kldv (i * 16 * 8) 32
    kldv (i * 16 * 8) 64
    kldv (i * 16 * 8) 96
    kldv (n * 8 + i * 16 * 2) 0
    kldv (n * 10 + i * 16 * 2) 0
    kldv (n * 12 + i * 16 * 4) 0
    kldv (n * 12 + i * 16 * 4) 32
    kstv ha h0 0 32
    kstv ha h0 32 32
    kstv ha h0 64 32
    kstv ha h0 96 32
    kstv ha h0 128 32
    kstv ha h0 160 32
    kstv ha h0 192 32
    kstv ha h0 224 32
    kend ha
  · rintro ⟨ap, c0p, c1p, xp, op, out⟩ ⟨rfl, rfl, rfl, rfl, rfl, ha⟩
    refine ⟨by first | (simp; done) | (simp; omega), ?_⟩
    have := untransformSplitGeneric_ok .little hd hT ha (by omega)
    simp only
    rw [show n % 16 = n - n / 16 * 16 by omega]
    exact this

theorem transformSplitRecorrAvx2_ok (v : Variant) {inp : Buf} {n : Nat} {T out tail : Buf}
    (hv : v ≠ .none) (hd : inp.length = n * 16) (hT : T = columns 16 (bc2Fields (encCol .little v) true) inp ++ tail)
    (ho : Agree (DoneT n [8, 2, 2, 4] 0) T out) :
    Ok (transformSplitRecorrAvx2 inp 0 out 0 (n * 8) (n * 10) (n * 12) n v) (Agree (DoneT n [8, 2, 2, 4] n) T) := by
  have hf := fits_split (col := (encCol .little v)) (fun _ _ => encCol_length _ _ _)
  have hTl : n * 16 ≤ T.length := by
    rw [hT, List.length_append, columns_length (by omega) hd hf]; simp
  unfold transformSplitRecorrAvx2
  rw [if_neg hv]
  simp only [decorrAvx2_eq]
  apply Ok.bind
  apply Ok.whileM (fun j s => s.1 = j * 16 * 16 ∧ s.2.1 = j * 16 * 8 ∧ s.2.2.1 = n * 8 + j * 16 * 2 ∧ s.2.2.2.1 = n * 10 + j * 16 * 2 ∧ s.2.2.2.2.1 = n * 12 + j * 16 * 4 ∧ Agree (DoneT n [8, 2, 2, 4] (j * 16)) T s.2.2.2.2.2) (n / 16) (by omega)
  · exact ⟨by simp, by simp, by simp, by simp, by simp, by simpa using ho⟩
  · rintro i ⟨ip, ap, c0p, c1p, xp, out⟩ hi ⟨rfl, rfl, rfl, rfl, rfl, ha⟩
    refine ⟨by first | (simp; done) | (simp; omega), ?_⟩
    ksec h0 0 (i * 16) 16 hd tail hf hT
    ksec h1 1 (i * 16) 16 hd tail hf hT
    ksec h2 2 (i * 16) 16 hd tail hf hT
    ksec h3 3 (i * 16) 16 hd tail hf hT
    kldv (i * 16 * 16) 0
    kldv (i * 16 * 16) 32
    kldv (i * 16 * 16) 64
    kldv (i * 16 * 16) 96
    kldv (i * 16 * 16) 128
    kldv (i * 16 * 16) 160
    kldv (i * 16 * 16) 192
    kldv (i * 16 * 16) 224
    kstv ha h0 0 32
    kstv ha h0 32 32
    kstv ha h0 64 32
    kstv ha h0 96 32
    kstv ha h1 0 32
    kstv ha h2 0 32
    kstv ha h3 0 32
    kstv ha h3 32 32
    kend ha
  · rintro ⟨ip, ap, c0p, c1p, xp, out⟩ ⟨rfl, rfl, rfl, rfl, rfl, ha⟩
    refine ⟨by first | (simp; done) | (simp; omega), ?_⟩
    have := transformSplitRecorrGeneric_ok .little v hv hd hT ha (by omega)
    simp only
    rw [show n % 16 = n - n / 16 * 16 by omega]
    exact this

theorem untransformSplitRecorrAvx2_ok (v : Variant) {inp : Buf} {n : Nat} {T out tail : Buf}
    (hv : v ≠ .none) (hd : inp.length = n * 16) (hT : T = unsoa n (widths true) (unFields (decCol .little v) true) inp ++ tail)
    (ho : Agree (DoneU n 16 0) T out) :
    Ok (untransformSplitRecorrAvx2 inp 0 (n * 8) (n * 10) (n * 12) out 0 n v) (Agree (DoneU n 16 n) T) := by
  have hg := unFields_length (col := (decCol .little v)) (fun _ _ => decCol_length _ _ _) true
  have hl : n * ((widths true)).sum ≤ inp.length := by simp [widths]; omega
  have hTl : n * 16 ≤ T.length := by
    rw [hT, List.length_append, unsoa_length hl hg]; omega
  unfold untransformSplitRecorrAvx2
  rw [if_neg hv]
  simp only [recorrAvx2_eq]
  apply Ok.bind
  apply Ok.whileM (fun j s => s.1 = j * 16 * 8 ∧ s.2.1 = n * 8 + j * 16 * 2 ∧ s.2.2.1 = n * 10 + j * 16 * 2 ∧ s.2.2.2.1 = n * 12 + j * 16 * 4 ∧ s.2.2.2.2.1 = j * 16 * 16 ∧ Agree (DoneU n 16 (j * 16)) T s.2.2.2.2.2) (n / 16) (by omega)
  · exact ⟨by simp, by simp, by simp, by simp, by simp, by simpa using ho⟩
  · rintro i ⟨ap, c0p, c1p, xp, op, out⟩ hi ⟨rfl, rfl, rfl, rfl, rfl, ha⟩
    refine ⟨by first | (simp; done) | (simp; omega), ?_⟩
    kblk h0 (i * 16) 16 tail hl hg hT
    simp only [widths, chunkFields, Nat.zero_add, ← Nat.mul_add, Nat.reduceAdd] at h0
    kldv (i * 16 * 8) 0
    kldv (i * 16 * 8) 32
    kldv (i * 16 * 8) 64
    kldv (i * 16 * 8) 96
    kldv (n * 8 + i * 16 * 2) 0
    kldv (n * 10 + i * 16 * 2) 0
    kldv (n * 12 + i * 16 * 4) 0
    kldv (n * 12 + i * 16 * 4) 32
    kstv ha h0 0 32
    kstv ha h0 32 32
    kstv ha h0 64 32
    kstv ha h0 96 32
    kstv ha h0 128 32
    kstv ha h0 160 32
    kstv ha h0 192 32
    kstv ha h0 224 32
    kend ha
  · rintro ⟨ap, c0p, c1p, xp, op, out⟩ ⟨rfl, rfl, rfl, rfl, rfl, ha⟩
    refine ⟨by first | (simp; done) | (simp; omega), ?_⟩
    have := untransformSplitRecorrGeneric_ok .little v hv hd hT ha (by omega)
    simp only
    rw [show n % 16 = n - n / 16 * 16 by omega]
    exact this

theorem transformRecorrAvx512_ok (v : Variant) {inp : Buf} {n : Nat} {T out tail : Buf}
    (hv : v ≠ .none) (hd : inp.length = n * 16) (hT : T = columns 16 (bc2Fields (encCol .little v) false) inp ++ tail)
    (ho : Agree (DoneT n [8, 4, 4] 0) T out) :
    Ok (transformRecorrAvx512 inp 0 out 0 (n * 8) (n * 12) n v) (Agree (DoneT n [8, 4, 4] n) T) := by
  have hf := fits_std (col := encCol .little v) (fun _ _ => encCol_length _ _ _)
  have hTl : n * 16 ≤ T.length := by
    rw [hT, List.length_append, columns_length (by omega) hd hf]; simp
  unfold transformRecorrAvx512
  rw [if_neg hv]
  simp only [decorrAvx512_eq]
  apply Ok.bind
  apply Ok.whileM (fun j s => s.1 = j * 16 * 16 ∧ s.2.1 = j * 16 * 8 ∧ s.2.2.1 = n * 8 + j * 16 * 4 ∧ s.2.2.2.1 = n * 12 + j * 16 * 4 ∧ Agree (DoneT n [8, 4, 4] (j * 16)) T s.2.2.2.2) (n / 16) (by omega)
  · exact ⟨by simp, by simp, by simp, by simp, by simpa using ho⟩
  · rintro i ⟨ip, ap, cp, xp, out⟩ hi ⟨rfl, rfl, rfl, rfl, ha⟩
    refine ⟨by first | (simp; done) | (simp; omega), ?_⟩
    ksec h0 0 (i * 16) 16 hd tail hf hT
    ksec h1 1 (i * 16) 16 hd tail hf hT
    ksec h2 2 (i * 16) 16 hd tail hf hT
    kldv (i * 16 * 16) 0
    kldv (i * 16 * 16) 64
    kldv (i * 16 * 16) 128
    kldv (i * 16 * 16) 192
    kstv ha h0 0 64
    kstv ha h0 64 64
    kstv ha h1 0 64
    kstv ha h2 0 64
    kend ha
  · rintro ⟨ip, ap, cp, xp, out⟩ ⟨rfl, rfl, rfl, rfl, ha⟩
    refine ⟨by first | (simp; done) | (simp; omega), ?_⟩
    have := transformRecorrGeneric_ok .little v hv hd hT ha (by omega)
    simp only
    rw [show n % 16 = n - n / 16 * 16 by omega]
    exact this

theorem untransformRecorrAvx512_ok (v : Variant) {inp : Buf} {n : Nat} {T out tail : Buf}
    (hv : v ≠ .none) (hd : inp.length = n * 16) (hT : T = unsoa n (widths false) (unFields (decCol .little v) false) inp ++ tail)
    (ho : Agree (DoneU n 16 0) T out) :
    Ok (untransformRecorrAvx512 inp 0 (n * 8) (n * 12) out 0 n v) (Agree (DoneU n 16 n) T) := by
  have hg := unFields_length (col := decCol .little v) (fun _ _ => decCol_length _ _ _) false
  have hl : n * ((widths false)).sum ≤ inp.length := by simp [widths]; omega
  have hTl : n * 16 ≤ T.length := by
    rw [hT, List.length_append, unsoa_length hl hg]; omega
  unfold untransformRecorrAvx512
  rw [if_neg hv]
  simp only [recorrAvx512_eq]
  apply Ok.bind
  apply Ok.whileM (fun j s => s.1 = j * 16 * 8 ∧ s.2.1 = n * 8 + j * 16 * 4 ∧ s.2.2.1 = n * 12 + j * 16 * 4 ∧ s.2.2.2.1 = j * 16 * 16 ∧ Agree (DoneU n 16 (j * 16)) T s.2.2.2.2) (n / 16) (by omega)
  · exact ⟨by simp, by simp, by simp, by simp, by simpa using ho⟩
  · rintro i ⟨ap, cp, xp, op, out⟩ hi ⟨rfl, rfl, rfl, rfl, ha⟩
    refine ⟨by first | (simp; done) | (simp; omega), ?_⟩
    kblk h0 (i * 16) 16 tail hl hg hT
    simp only [widths, chunkFields, Nat.zero_add, ← Nat.mul_add, Nat.reduceAdd] at h0
    kldv (i * 16 * 8) 0
    kldv (i * 16 * 8) 64
    kldv (n * 8 + i * 16 * 4) 0
    kldv (n * 12 + i * 16 * 4) 0
    kstv ha h0 0 64
    kstv ha h0 64 64
    kstv ha h0 128 64
    kstv ha h0 192 64
    kend ha
  · rintro ⟨ap, cp, xp, op, out⟩ ⟨rfl, rfl, rfl, rfl, ha⟩
    refine ⟨by first | (simp; done) | (simp; omega), ?_⟩
    have := untransformRecorrGeneric_ok .little v hv hd hT ha (by omega)
    simp only
    rw [show n - (n - n % 16) = n - n / 16 * 16 by omega]
    exact this

theorem transformSplitAvx512_ok {inp : Buf} {n : Nat} {T out tail : Buf}
    (hd : inp.length = n * 16) (hT : T = columns 16 (bc2Fields id true) inp ++ tail)
    (ho : Agree (DoneT n [8, 2, 2, 4] 0) T out) :
    Ok (transformSplitAvx512 inp 0 out 0 (n * 8) (n * 10) (n * 12) n) (Agree (DoneT n [8, 2, 2, 4] n) T) := by
  have hf := fits_split (col := id) (fun _ h => h)
  have hTl : n * 16 ≤ T.length := by
    rw [hT, List.length_append, columns_length (by omega) hd hf]; simp
  unfold transformSplitAvx512
  apply Ok.bind
  apply Ok.whileM (fun j s => s.1 = j * 32 * 16 ∧ s.2.1 = j * 32 * 8 ∧ s.2.2.1 = n * 8 + j * 32 * 2 ∧ s.2.2.2.1 = n * 10 + j * 32 * 2 ∧ s.2.2.2.2.1 = n * 12 + j * 32 * 4 ∧ Agree (DoneT n [8, 2, 2, 4] (j * 32)) T s.2.2.2.2.2) (n / 32) (by omega)
  · exact ⟨by simp, by simp, by simp, by simp, by simp, by simpa using ho⟩
  · rintro i ⟨ip, ap, c0p, c1p, xp, out⟩ hi ⟨rfl, rfl, rfl, rfl, rfl, ha⟩
    refine ⟨by first | (simp; done) | (simp; omega), ?_⟩
    ksec h0 0 (i * 32) 32 hd tail hf hT
    ksec h1 1 (i * 32) 32 hd tail hf hT
    ksec h2 2 (i * 32) 32 hd tail hf hT
    ksec h3 3 (i * 32) 32 hd tail hf hT
    kldv (i * 32 * 16) 0
    kldv (i * 32 * 16) 64
    kldv (i * 32 * 16) 128
    kldv (i * 32 * 16) 192
    kldv (i * 32 * 16) 256
    kldv (i * 32 * 16) 320
    kldv (i * 32 * 16) 384
    kldv (i * 32 * 16) 448
    kstv ha h0 0 64
    kstv ha h0 64 64
    kstv ha h0 128 64
    kstv ha h0 192 64
    kstv ha h1 0 64
    kstv ha h2 0 64
    kstv ha h3 0 64
    kstv ha h3 64 64
    kend ha
  · rintro ⟨ip, ap, c0p, c1p, xp, out⟩ ⟨rfl, rfl, rfl, rfl, rfl, ha⟩
    refine ⟨by first | (simp; done) | (simp; omega), ?_⟩
    have := transformSplitGeneric_ok .little hd hT ha (by omega)
    simp only
    rw [show n % 32 = n - n / 32 * 32 by omega]
    exact this

theorem untransformSplitAvx512_ok {inp : Buf} {n : Nat} {T out tail : Buf}
    (hd : inp.length = n * 16) (hT : T = unsoa n (widths true) (unFields id true) inp ++ tail)
    (ho : Agree (DoneU n 16 0) T out) :
    Ok (untransformSplitAvx512 inp 0 (n * 8) (n * 10) (n * 12) out 0 n) (Agree (DoneU n 16 n) T) := by
  have hg := unFields_length (col := id) (fun _ h => h) true
  have hl : n * ((widths true)).sum ≤ inp.length := by simp [widths]; omega
  have hTl : n * 16 ≤ T.length := by
    rw [hT, List.length_append, unsoa_length hl hg]; omega
  unfold untransformSplitAvx512
  apply Ok.bind
  apply Ok.whileM (fun j s => s.1 = j * 32 * 8 ∧ s.2.1 = n * 8 + j * 32 * 2 ∧ s.2.2.1 = n * 10 + j * 32 * 2 ∧ s.2.2.2.1 = n * 12 + j * 32 * 4 ∧ s.2.2.2.2.1 = j * 32 * 16 ∧ Agree (DoneU n 16 (j * 32)) T s.2.2.2.2.2) (n / 32) (by omega)
  · exact ⟨by simp, by simp, by simp, by simp, by simp, by simpa using ho⟩
  · rintro i ⟨ap, c0p, c1p, xp, op, out⟩ hi ⟨rfl, rfl, rfl, rfl, rfl, ha⟩
    refine ⟨by first | (simp; done) | (simp; omega), ?_⟩
    kblk h0 (i * 32) 32 tail hl hg hT
    simp only [widths, chunkFields, Nat.zero_add, ← Nat.mul_add, Nat.reduceAdd] at h0
    kldv (i * 32 * 8) 0
    kldv (i * 32 * 8) 64
    kldv (i * 32 * 8) 128
    kldv (i * 32 * 8) 192
    kldv (n * 8 + i * 32 * 2) 0
    kldv (n * 10 + i * 32 * 2) 0
    kldv (n * 12 + i * 32 * 4) 0
    kldv (n * 12 + i * 32 * 4) 64
    kstv ha h0 0 64
    kstv ha h0 64 64
    kstv ha h0 128 64
    kstv ha h0 192 64
    kstv ha h0 256 64
    kstv ha h0 320 64
    kstv ha h0 384 64
    kstv ha h0 448 64
    kend ha
  · rintro ⟨ap, c0p, c1p, xp, op, out⟩ ⟨rfl, rfl, rfl, rfl, rfl, ha⟩
    refine ⟨by first | (simp; done) | (simp; omega), ?_⟩
    have := untransformSplitGeneric_ok .little hd hT ha (by omega)
    simp only
    rw [show n - (n - n % 32) = n - n / 32 * 32 by omega]
    exact this

theorem transformSplitRecorrAvx512_ok (v : Variant) {inp : Buf} {n : Nat} {T out tail : Buf}
    (hv : v ≠ .none) (hd : inp.length = n * 16) (hT : T = columns 16 (bc2Fields (encCol .little v) true) inp ++ tail)
    (ho : Agree (DoneT n [8, 2, 2, 4] 0) T out) :
    Ok (transformSplitRecorrAvx512 inp 0 out 0 (n * 8) (n * 10) (n * 12) n v) (Agree (DoneT n [8, 2, 2, 4] n) T) := by
  have hf := fits_split (col := (encCol .little v)) (fun _ _ => encCol_length _ _ _)
  have hTl : n * 16 ≤ T.length := by
    rw [hT, List.length_append, columns_length (by omega) hd hf]; simp
  unfold transformSplitRecorrAvx512
  rw [if_neg hv]
  simp only [decorrAvx512_eq]
  apply Ok.bind
  apply Ok.whileM (fun j s => s.1 = j * 32 * 16 ∧ s.2.1 = j * 32 * 8 ∧ s.2.2.1 = n * 8 + j * 32 * 2 ∧ s.2.2.2.1 = n * 10 + j * 32 * 2 ∧ s.2.2.2.2.1 = n * 12 + j * 32 * 4 ∧ Agree (DoneT n [8, 2, 2, 4] (j * 32)) T s.2.2.2.2.2) (n / 32) (by omega)
  · exact ⟨by simp, by simp, by simp, by simp, by simp, by simpa using ho⟩
  · rintro i ⟨ip, ap, c0p, c1p, xp, out⟩ hi ⟨rfl, rfl, rfl, rfl, rfl, ha⟩
    refine ⟨by first | (simp; done) | (simp; omega), ?_⟩
    ksec h0 0 (i * 32) 32 hd tail hf hT
    ksec h1 1 (i * 32) 32 hd tail hf hT
    ksec h2 2 (i * 32) 32 hd tail hf hT
    ksec h3 3 (i * 32) 32 hd tail hf hT
    kldv (i * 32 * 16) 0
    kldv (i * 32 * 16) 64
    kldv (i * 32 * 16) 128
    kldv (i * 32 * 16) 192
    kldv (i * 32 * 16) 256
    kldv (i * 32 * 16) 320
    kldv (i * 32 * 16) 384
    kldv (i * 32 * 16) 448
    kstv ha h0 0 64
    kstv ha h0 64 64
    kstv ha h0 128 64
    kstv ha h0 192 64
    kstv ha h1 0 64
    kstv ha h2 0 64
    kstv ha h3 0 64
    kstv ha h3 64 64
    kend ha
  · rintro ⟨ip, ap, c0p, c1p, xp, out⟩ ⟨rfl, rfl, rfl, rfl, rfl, ha⟩
    refine ⟨by first | (simp; done) | (simp; omega), ?_⟩
    have := transformSplitRecorrGeneric_ok .little v hv hd hT ha (by omega)
    simp only
    rw [show n % 32 = n - n / 32 * 32 by omega]
    exact this

theorem untransformSplitRecorrAvx512_ok (v : Variant) {inp : Buf} {n : Nat} {T out tail : Buf}
    (hv : v ≠ .none) (hd : inp.length = n * 16) (hT : T = unsoa n (widths true) (unFields (decCol .little v) true) inp ++ tail)
    (ho : Agree (DoneU n 16 0) T out) :
    Ok (untransformSplitRecorrAvx512 inp 0 (n * 8) (n * 10) (n * 12) out 0 n v) (Agree (DoneU n 16 n) T) := by
  have hg := unFields_length (col := (decCol .little v)) (fun _ _ => decCol_length _ _ _) true
  have hl : n * ((widths true)).sum ≤ inp.length := by simp [widths]; omega
  have hTl : n * 16 ≤ T.length := by
    rw [hT, List.length_append, unsoa_length hl hg]; omega
  unfold untransformSplitRecorrAvx512
  rw [if_neg hv]
  simp only [recorrAvx512_eq]
  apply Ok.bind
  apply Ok.whileM (fun j s => s.1 = j * 32 * 8 ∧ s.2.1 = n * 8 + j * 32 * 2 ∧ s.2.2.1 = n * 10 + j * 32 * 2 ∧ s.2.2.2.1 = n * 12 + j * 32 * 4 ∧ s.2.2.2.2.1 = j * 32 * 16 ∧ Agree (DoneU n 16 (j * 32)) T s.2.2.2.2.2) (n / 32) (by omega)
  · exact ⟨by simp, by simp, by simp, by simp, by simp, by simpa using ho⟩
  · rintro i ⟨ap, c0p, c1p, xp, op, out⟩ hi ⟨rfl, rfl, rfl, rfl, rfl, ha⟩
    refine ⟨by first | (simp; done) | (simp; omega), ?_⟩
    kblk h0 (i * 32) 32 tail hl hg hT
    simp only [widths, chunkFields, Nat.zero_add, ← Nat.mul_add, Nat.reduceAdd] at h0
    kldv (i * 32 * 8) 0
    kldv (i * 32 * 8) 64
    kldv (i * 32 * 8) 128
    kldv (i * 32 * 8) 192
    kldv (n * 8 + i * 32 * 2) 0
    kldv (n * 10 + i * 32 * 2) 0
    kldv (n * 12 + i * 32 * 4) 0
    kldv (n * 12 + i * 32 * 4) 64
    kstv ha h0 0 64
    kstv ha h0 64 64
    kstv ha h0 128 64
    kstv ha h0 192 64
    kstv ha h0 256 64
    kstv ha h0 320 64
    kstv ha h0 384 64
    kstv ha h0 448 64
    kend ha
  · rintro ⟨ap, c0p, c1p, xp, op, out⟩ ⟨rfl, rfl, rfl, rfl, rfl, ha⟩
    refine ⟨by first | (simp; done) | (simp; omega), ?_⟩
    have := untransformSplitRecorrGeneric_ok .little v hv hd hT ha (by omega)
    simp only
    rw [show n - (n - n % 32) = n - n / 32 * 32 by omega]
    exact this

end Dlt.Bc2
