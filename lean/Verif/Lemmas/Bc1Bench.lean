import Verif.Model.Bc1Bench
import Verif.Lemmas.Bc1Std
import Verif.Lemmas.Words
/-! The benchmark kernels of BC1 produce the layout of the production kernels. -/

set_option linter.unusedSimpArgs false

namespace Dlt.Bc1
open Spec

theorem to32_getColor (e : Endian) (a b c d f g h i : Byte) :
    to32 e (getColor e (of64 e [a, b, c, d, f, g, h, i])) = [a, b, c, d] := by
  cases e
  · exact to32_half64 a b c d f g h i
  · rw [of64_big_rev, to32_big_rev, getColor, to32_half64']; rfl

theorem to32_getIndex (e : Endian) (a b c d f g h i : Byte) :
    to32 e (getIndex e (of64 e [a, b, c, d, f, g, h, i])) = [f, g, h, i] := by
  cases e
  · exact to32_half64' a b c d f g h i
  · rw [of64_big_rev, to32_big_rev, getIndex, to32_half64]; rfl

/-- Step over one scalar store whose bytes are a word loaded before. -/
macro "ksts " ha:ident hD:ident o:term:max : tactic => `(tactic|
  (kst $ha $hD $o
   · simp only [to16_of16, to32_of32, to64_of64, to32_getColor, to32_getIndex]
     krfl))

theorem benchPunpckhqdq4_ok {inp : Buf} {n : Nat} {T out tail : Buf}
    (hd : inp.length = n * 8) (hT : T = columns 8 (bc1Fields id false) inp ++ tail)
    (ho : Agree (DoneT n [4, 4] 0) T out) :
    Ok (benchPunpckhqdq4 inp out (n * 8)) (Agree (DoneT n [4, 4] n) T) := by
  have hf := fits_std (col := id) (fun _ h => h)
  have hTl : n * 8 ≤ T.length := by
    rw [hT, List.length_append, columns_length (by omega) hd hf]; simp
  unfold benchPunpckhqdq4
  apply Ok.bind
  apply Ok.asm (fun j s => s.1 = j * 8 * 8 ∧ s.2.1 = j * 8 * 4 ∧ s.2.2.1 = n * 4 + j * 8 * 4 ∧
    Agree (DoneT n [4, 4] (j * 8)) T s.2.2.2) (n / 8) (by omega) (by omega)
  · exact ⟨by simp, by simp, by simp; omega, by simpa using ho⟩
  · rintro i ⟨ip, cp, xp, out⟩ hi ⟨rfl, rfl, rfl, ha⟩
    ksec h0 0 (i * 8) 8 hd tail hf hT
    ksec h1 1 (i * 8) 8 hd tail hf hT
    kldv (i * 8 * 8) 0
    kldv (i * 8 * 8) 16
    kldv (i * 8 * 8) 32
    kldv (i * 8 * 8) 48
    kstv ha h0 0 16
    kstv ha h0 16 16
    kstv ha h1 0 16
    kstv ha h1 16 16
    kend ha
  · rintro i ⟨ip, cp, xp, out⟩ hi ⟨rfl, rfl, rfl, ha⟩ _
    simp; omega
  · rintro ⟨ip, cp, xp, out⟩ hm ⟨rfl, rfl, rfl, ha⟩
    simp; omega
  · rintro ⟨ip, cp, xp, out⟩ ⟨rfl, rfl, rfl, ha⟩
    have := transformPtrs_ok .little hd hT ha (by omega)
    simp only
    rw [show n * 8 - (n * 8 - n * 8 % 64) = (n - n / 8 * 8) * 8 by omega]
    exact this

theorem benchPunpckhqdq2_ok {inp : Buf} {n : Nat} {T out tail : Buf}
    (hd : inp.length = n * 8) (hT : T = columns 8 (bc1Fields id false) inp ++ tail)
    (ho : Agree (DoneT n [4, 4] 0) T out) :
    Ok (benchPunpckhqdq2 inp out (n * 8)) (Agree (DoneT n [4, 4] n) T) := by
  have hf := fits_std (col := id) (fun _ h => h)
  have hTl : n * 8 ≤ T.length := by
    rw [hT, List.length_append, columns_length (by omega) hd hf]; simp
  unfold benchPunpckhqdq2
  apply Ok.bind
  apply Ok.asm (fun j s => s.1 = j * 4 * 8 ∧ s.2.1 = j * 4 * 4 ∧ s.2.2.1 = n * 4 + j * 4 * 4 ∧
    Agree (DoneT n [4, 4] (j * 4)) T s.2.2.2) (n / 4) (by omega) (by omega)
  · exact ⟨by simp, by simp, by simp; omega, by simpa using ho⟩
  · rintro i ⟨ip, cp, xp, out⟩ hi ⟨rfl, rfl, rfl, ha⟩
    ksec h0 0 (i * 4) 4 hd tail hf hT
    ksec h1 1 (i * 4) 4 hd tail hf hT
    kldv (i * 4 * 8) 0
    kldv (i * 4 * 8) 16
    kstv ha h0 0 16
    kstv ha h1 0 16
    kend ha
  · rintro i ⟨ip, cp, xp, out⟩ hi ⟨rfl, rfl, rfl, ha⟩ _
    simp; omega
  · rintro ⟨ip, cp, xp, out⟩ hm ⟨rfl, rfl, rfl, ha⟩
    simp; omega
  · rintro ⟨ip, cp, xp, out⟩ ⟨rfl, rfl, rfl, ha⟩
    have := transformPtrs_ok .little hd hT ha (by omega)
    simp only
    rw [show n * 8 - (n * 8 - n * 8 % 32) = (n - n / 4 * 4) * 8 by omega]
    exact this

theorem benchShufps2_ok {inp : Buf} {n : Nat} {T out tail : Buf}
    (hd : inp.length = n * 8) (hT : T = columns 8 (bc1Fields id false) inp ++ tail)
    (ho : Agree (DoneT n [4, 4] 0) T out) :
    Ok (benchShufps2 inp out (n * 8)) (Agree (DoneT n [4, 4] n) T) := by
  have hf := fits_std (col := id) (fun _ h => h)
  have hTl : n * 8 ≤ T.length := by
    rw [hT, List.length_append, columns_length (by omega) hd hf]; simp
  unfold benchShufps2
  apply Ok.bind
  apply Ok.asm (fun j s => s.1 = j * 4 * 8 ∧ s.2.1 = j * 4 * 4 ∧ s.2.2.1 = n * 4 + j * 4 * 4 ∧
    Agree (DoneT n [4, 4] (j * 4)) T s.2.2.2) (n / 4) (by omega) (by omega)
  · exact ⟨by simp, by simp, by simp; omega, by simpa using ho⟩
  · rintro i ⟨ip, cp, xp, out⟩ hi ⟨rfl, rfl, rfl, ha⟩
    ksec h0 0 (i * 4) 4 hd tail hf hT
    ksec h1 1 (i * 4) 4 hd tail hf hT
    kldv (i * 4 * 8) 0
    kldv (i * 4 * 8) 16
    kstv ha h0 0 16
    kstv ha h1 0 16
    kend ha
  · rintro i ⟨ip, cp, xp, out⟩ hi ⟨rfl, rfl, rfl, ha⟩ _
    simp; omega
  · rintro ⟨ip, cp, xp, out⟩ hm ⟨rfl, rfl, rfl, ha⟩
    simp; omega
  · rintro ⟨ip, cp, xp, out⟩ ⟨rfl, rfl, rfl, ha⟩
    have := transformPtrs_ok .little hd hT ha (by omega)
    simp only
    rw [show n * 8 - (n * 8 - n * 8 % 32) = (n - n / 4 * 4) * 8 by omega]
    exact this

theorem benchPermute_ok {inp : Buf} {n : Nat} {T out tail : Buf}
    (hd : inp.length = n * 8) (hT : T = columns 8 (bc1Fields id false) inp ++ tail)
    (ho : Agree (DoneT n [4, 4] 0) T out) :
    Ok (benchPermute inp out (n * 8)) (Agree (DoneT n [4, 4] n) T) := by
  have hf := fits_std (col := id) (fun _ h => h)
  have hTl : n * 8 ≤ T.length := by
    rw [hT, List.length_append, columns_length (by omega) hd hf]; simp
  unfold benchPermute
  apply Ok.bind
  apply Ok.asm (fun j s => s.1 = j * 8 * 8 ∧ s.2.1 = j * 8 * 4 ∧ s.2.2.1 = n * 4 + j * 8 * 4 ∧
    Agree (DoneT n [4, 4] (j * 8)) T s.2.2.2) (n / 8) (by omega) (by omega)
  · exact ⟨by simp, by simp, by simp; omega, by simpa using ho⟩
  · rintro i ⟨ip, cp, xp, out⟩ hi ⟨rfl, rfl, rfl, ha⟩
    ksec h0 0 (i * 8) 8 hd tail hf hT
    ksec h1 1 (i * 8) 8 hd tail hf hT
    kldv (i * 8 * 8) 0
    kldv (i * 8 * 8) 32
    kstv ha h0 0 32
    kstv ha h1 0 32
    kend ha
  · rintro i ⟨ip, cp, xp, out⟩ hi ⟨rfl, rfl, rfl, ha⟩ _
    simp; omega
  · rintro ⟨ip, cp, xp, out⟩ hm ⟨rfl, rfl, rfl, ha⟩
    simp; omega
  · rintro ⟨ip, cp, xp, out⟩ ⟨rfl, rfl, rfl, ha⟩
    have := transformPtrs_ok .little hd hT ha (by omega)
    simp only
    rw [show n * 8 - (n * 8 - n * 8 % 64) = (n - n / 8 * 8) * 8 by omega]
    exact this

theorem benchPermute2_ok {inp : Buf} {n : Nat} {T out tail : Buf}
    (hd : inp.length = n * 8) (hT : T = columns 8 (bc1Fields id false) inp ++ tail)
    (ho : Agree (DoneT n [4, 4] 0) T out) :
    Ok (benchPermute2 inp out (n * 8)) (Agree (DoneT n [4, 4] n) T) := by
  have hf := fits_std (col := id) (fun _ h => h)
  have hTl : n * 8 ≤ T.length := by
    rw [hT, List.length_append, columns_length (by omega) hd hf]; simp
  unfold benchPermute2
  apply Ok.bind
  apply Ok.asm (fun j s => s.1 = j * 16 * 8 ∧ s.2.1 = j * 16 * 4 ∧ s.2.2.1 = n * 4 + j * 16 * 4 ∧
    Agree (DoneT n [4, 4] (j * 16)) T s.2.2.2) (n / 16) (by omega) (by omega)
  · exact ⟨by simp, by simp, by simp; omega, by simpa using ho⟩
  · rintro i ⟨ip, cp, xp, out⟩ hi ⟨rfl, rfl, rfl, ha⟩
    ksec h0 0 (i * 16) 16 hd tail hf hT
    ksec h1 1 (i * 16) 16 hd tail hf hT
    kldv (i * 16 * 8) 0
    kldv (i * 16 * 8) 32
    kldv (i * 16 * 8) 64
    kldv (i * 16 * 8) 96
    kstv ha h0 0 32
    kstv ha h0 32 32
    kstv ha h1 0 32
    kstv ha h1 32 32
    kend ha
  · rintro i ⟨ip, cp, xp, out⟩ hi ⟨rfl, rfl, rfl, ha⟩ _
    simp; omega
  · rintro ⟨ip, cp, xp, out⟩ hm ⟨rfl, rfl, rfl, ha⟩
    simp; omega
  · rintro ⟨ip, cp, xp, out⟩ ⟨rfl, rfl, rfl, ha⟩
    have := transformPtrs_ok .little hd hT ha (by omega)
    simp only
    rw [show n * 8 - (n * 8 - n * 8 % 128) = (n - n / 16 * 16) * 8 by omega]
    exact this

theorem benchGather_ok {inp : Buf} {n : Nat} {T out tail : Buf}
    (hd : inp.length = n * 8) (hT : T = columns 8 (bc1Fields id false) inp ++ tail)
    (ho : Agree (DoneT n [4, 4] 0) T out) :
    Ok (benchGather inp out (n * 8)) (Agree (DoneT n [4, 4] n) T) := by
  have hf := fits_std (col := id) (fun _ h => h)
  have hTl : n * 8 ≤ T.length := by
    rw [hT, List.length_append, columns_length (by omega) hd hf]; simp
  unfold benchGather
  apply Ok.bind
  apply Ok.asm (fun j s => s.1 = j * 8 * 8 ∧ s.2.1 = j * 8 * 4 ∧ s.2.2.1 = n * 4 + j * 8 * 4 ∧
    Agree (DoneT n [4, 4] (j * 8)) T s.2.2.2) (n / 16 * 2) (by omega) (by omega)
  · exact ⟨by simp, by simp, by simp; omega, by simpa using ho⟩
  · rintro i ⟨ip, cp, xp, out⟩ hi ⟨rfl, rfl, rfl, ha⟩
    ksec h0 0 (i * 8) 8 hd tail hf hT
    ksec h1 1 (i * 8) 8 hd tail hf hT
    kgather
    kgather
    kstv ha h0 0 32
    kstv ha h1 0 32
    kend ha
  · rintro i ⟨ip, cp, xp, out⟩ hi ⟨rfl, rfl, rfl, ha⟩ _
    simp; omega
  · rintro ⟨ip, cp, xp, out⟩ hm ⟨rfl, rfl, rfl, ha⟩
    simp; omega
  · rintro ⟨ip, cp, xp, out⟩ ⟨rfl, rfl, rfl, ha⟩
    have := transformPtrs_ok .little hd hT ha (by omega)
    simp only
    rw [show n * 8 - (n * 8 - n * 8 % 128) = (n - n / 16 * 2 * 8) * 8 by omega]
    exact this

theorem benchShufflePermute_ok {inp : Buf} {n : Nat} {T out tail : Buf}
    (hd : inp.length = n * 8) (hT : T = columns 8 (bc1Fields id false) inp ++ tail)
    (ho : Agree (DoneT n [4, 4] 0) T out) :
    Ok (benchShufflePermute inp out (n * 8)) (Agree (DoneT n [4, 4] n) T) := by
  have hf := fits_std (col := id) (fun _ h => h)
  have hTl : n * 8 ≤ T.length := by
    rw [hT, List.length_append, columns_length (by omega) hd hf]; simp
  unfold benchShufflePermute
  apply Ok.bind
  apply Ok.asm (fun j s => s.1 = j * 8 * 8 ∧ s.2.1 = j * 8 * 4 ∧ s.2.2.1 = n * 4 + j * 8 * 4 ∧
    Agree (DoneT n [4, 4] (j * 8)) T s.2.2.2) (n / 8) (by omega) (by omega)
  · exact ⟨by simp, by simp, by simp; omega, by simpa using ho⟩
  · rintro i ⟨ip, cp, xp, out⟩ hi ⟨rfl, rfl, rfl, ha⟩
    ksec h0 0 (i * 8) 8 hd tail hf hT
    ksec h1 1 (i * 8) 8 hd tail hf hT
    kldv (i * 8 * 8) 0
    kldv (i * 8 * 8) 32
    kstv ha h0 0 32
    kstv ha h1 0 32
    kend ha
  · rintro i ⟨ip, cp, xp, out⟩ hi ⟨rfl, rfl, rfl, ha⟩ _
    simp; omega
  · rintro ⟨ip, cp, xp, out⟩ hm ⟨rfl, rfl, rfl, ha⟩
    simp; omega
  · rintro ⟨ip, cp, xp, out⟩ ⟨rfl, rfl, rfl, ha⟩
    have := transformPtrs_ok .little hd hT ha (by omega)
    simp only
    rw [show n * 8 - (n * 8 - n * 8 % 64) = (n - n / 8 * 8) * 8 by omega]
    exact this

theorem benchPermute512x2_ok {inp : Buf} {n : Nat} {T out tail : Buf}
    (hd : inp.length = n * 8) (hT : T = columns 8 (bc1Fields id false) inp ++ tail)
    (ho : Agree (DoneT n [4, 4] 0) T out) :
    Ok (benchPermute512x2 inp out (n * 8)) (Agree (DoneT n [4, 4] n) T) := by
  have hf := fits_std (col := id) (fun _ h => h)
  have hTl : n * 8 ≤ T.length := by
    rw [hT, List.length_append, columns_length (by omega) hd hf]; simp
  unfold benchPermute512x2
  apply Ok.bind
  apply Ok.asm (fun j s => s.1 = j * 32 * 8 ∧ s.2.1 = j * 32 * 4 ∧ s.2.2.1 = n * 4 + j * 32 * 4 ∧
    Agree (DoneT n [4, 4] (j * 32)) T s.2.2.2) (n / 32) (by omega) (by omega)
  · exact ⟨by simp, by simp, by simp; omega, by simpa using ho⟩
  · rintro i ⟨ip, cp, xp, out⟩ hi ⟨rfl, rfl, rfl, ha⟩
    ksec h0 0 (i * 32) 32 hd tail hf hT
    ksec h1 1 (i * 32) 32 hd tail hf hT
    kldv (i * 32 * 8) 0
    kldv (i * 32 * 8) 64
    kldv (i * 32 * 8) 128
    kldv (i * 32 * 8) 192
    kstv ha h0 0 64
    kstv ha h0 64 64
    kstv ha h1 0 64
    kstv ha h1 64 64
    kend ha
  · rintro i ⟨ip, cp, xp, out⟩ hi ⟨rfl, rfl, rfl, ha⟩ _
    simp; omega
  · rintro ⟨ip, cp, xp, out⟩ hm ⟨rfl, rfl, rfl, ha⟩
    simp; omega
  · rintro ⟨ip, cp, xp, out⟩ ⟨rfl, rfl, rfl, ha⟩
    have := transformPtrs_ok .little hd hT ha (by omega)
    simp only
    rw [show n * 8 - (n * 8 - n * 8 % 256) = (n - n / 32 * 32) * 8 by omega]
    exact this

theorem benchU32x2_ok (e : Endian) {inp : Buf} {n : Nat} {T out tail : Buf}
    (hd : inp.length = n * 8) (hT : T = columns 8 (bc1Fields id false) inp ++ tail)
    (ho : Agree (DoneT n [4, 4] 0) T out) :
    Ok (benchU32x2 e inp out (n * 8)) (Agree (DoneT n [4, 4] n) T) := by
  have hf := fits_std (col := id) (fun _ h => h)
  have hTl : n * 8 ≤ T.length := by
    rw [hT, List.length_append, columns_length (by omega) hd hf]; simp
  unfold benchU32x2
  skip
  apply Ok.bind
  apply Ok.whileM (fun j s => s.1 = j * 2 * 8 ∧ s.2.1 = j * 2 * 4 ∧ s.2.2.1 = n * 4 + j * 2 * 4 ∧
    Agree (DoneT n [4, 4] (j * 2)) T s.2.2.2) (n / 2) (by omega)
  · exact ⟨by simp, by simp, by simp; omega, by simpa using ho⟩
  · rintro i ⟨ip, cp, xp, out⟩ hi ⟨rfl, rfl, rfl, ha⟩
    refine ⟨by simp; omega, ?_⟩
    ksec h0 0 (i * 2) 2 hd tail hf hT
    ksec h1 1 (i * 2) 2 hd tail hf hT
    klds (i * 2 * 8) 0
    klds (i * 2 * 8) 4
    klds (i * 2 * 8) 8
    klds (i * 2 * 8) 12
    ksts ha h0 0
    ksts ha h1 0
    ksts ha h0 4
    ksts ha h1 4
    kend ha
  · rintro ⟨ip, cp, xp, out⟩ ⟨rfl, rfl, rfl, ha⟩
    refine ⟨by simp; omega, ?_⟩
    simp only
    apply Ok.bind
    apply Ok.whileM (fun i s => s.1 = (n / 2 * 2 + i) * 8 ∧ s.2.1 = (n / 2 * 2 + i) * 4 ∧
      s.2.2.1 = n * 4 + (n / 2 * 2 + i) * 4 ∧ Agree (DoneT n [4, 4] (n / 2 * 2 + i)) T s.2.2.2) (n - n / 2 * 2) (by omega)
    · exact ⟨rfl, rfl, rfl, ha⟩
    · rintro i ⟨ip, cp, xp, out⟩ hi ⟨rfl, rfl, rfl, ha⟩
      refine ⟨by simp; omega, ?_⟩
      ksec h0 0 (n / 2 * 2 + i) 1 hd tail hf hT
      ksec h1 1 (n / 2 * 2 + i) 1 hd tail hf hT
      klds ((n / 2 * 2 + i) * 8) 0
      klds ((n / 2 * 2 + i) * 8) 4
      ksts ha h0 0
      ksts ha h1 0
      kend ha
    · rintro ⟨ip, cp, xp, out⟩ ⟨rfl, rfl, rfl, ha⟩
      refine ⟨by simp; omega, Ok.pure ?_⟩
      rw [show n / 2 * 2 + (n - n / 2 * 2) = n by omega] at ha
      exact ha

theorem benchU32x4_ok (e : Endian) {inp : Buf} {n : Nat} {T out tail : Buf}
    (hd : inp.length = n * 8) (hT : T = columns 8 (bc1Fields id false) inp ++ tail)
    (ho : Agree (DoneT n [4, 4] 0) T out) :
    Ok (benchU32x4 e inp out (n * 8)) (Agree (DoneT n [4, 4] n) T) := by
  have hf := fits_std (col := id) (fun _ h => h)
  have hTl : n * 8 ≤ T.length := by
    rw [hT, List.length_append, columns_length (by omega) hd hf]; simp
  unfold benchU32x4
  skip
  apply Ok.bind
  apply Ok.whileM (fun j s => s.1 = j * 4 * 8 ∧ s.2.1 = j * 4 * 4 ∧ s.2.2.1 = n * 4 + j * 4 * 4 ∧
    Agree (DoneT n [4, 4] (j * 4)) T s.2.2.2) (n / 4) (by omega)
  · exact ⟨by simp, by simp, by simp; omega, by simpa using ho⟩
  · rintro i ⟨ip, cp, xp, out⟩ hi ⟨rfl, rfl, rfl, ha⟩
    refine ⟨by simp; omega, ?_⟩
    ksec h0 0 (i * 4) 4 hd tail hf hT
    ksec h1 1 (i * 4) 4 hd tail hf hT
    klds (i * 4 * 8) 0
    klds (i * 4 * 8) 4
    klds (i * 4 * 8) 8
    klds (i * 4 * 8) 12
    klds (i * 4 * 8) 16
    klds (i * 4 * 8) 20
    klds (i * 4 * 8) 24
    klds (i * 4 * 8) 28
    ksts ha h0 0
    ksts ha h1 0
    ksts ha h0 4
    ksts ha h1 4
    ksts ha h0 8
    ksts ha h1 8
    ksts ha h0 12
    ksts ha h1 12
    kend ha
  · rintro ⟨ip, cp, xp, out⟩ ⟨rfl, rfl, rfl, ha⟩
    refine ⟨by simp; omega, ?_⟩
    simp only
    apply Ok.bind
    apply Ok.whileM (fun i s => s.1 = (n / 4 * 4 + i) * 8 ∧ s.2.1 = (n / 4 * 4 + i) * 4 ∧
      s.2.2.1 = n * 4 + (n / 4 * 4 + i) * 4 ∧ Agree (DoneT n [4, 4] (n / 4 * 4 + i)) T s.2.2.2) (n - n / 4 * 4) (by omega)
    · exact ⟨rfl, rfl, rfl, ha⟩
    · rintro i ⟨ip, cp, xp, out⟩ hi ⟨rfl, rfl, rfl, ha⟩
      refine ⟨by simp; omega, ?_⟩
      ksec h0 0 (n / 4 * 4 + i) 1 hd tail hf hT
      ksec h1 1 (n / 4 * 4 + i) 1 hd tail hf hT
      klds ((n / 4 * 4 + i) * 8) 0
      klds ((n / 4 * 4 + i) * 8) 4
      ksts ha h0 0
      ksts ha h1 0
      kend ha
    · rintro ⟨ip, cp, xp, out⟩ ⟨rfl, rfl, rfl, ha⟩
      refine ⟨by simp; omega, Ok.pure ?_⟩
      rw [show n / 4 * 4 + (n - n / 4 * 4) = n by omega] at ha
      exact ha

theorem benchU32x8_ok (e : Endian) {inp : Buf} {n : Nat} {T out tail : Buf}
    (hd : inp.length = n * 8) (hT : T = columns 8 (bc1Fields id false) inp ++ tail)
    (ho : Agree (DoneT n [4, 4] 0) T out) :
    Ok (benchU32x8 e inp out (n * 8)) (Agree (DoneT n [4, 4] n) T) := by
  have hf := fits_std (col := id) (fun _ h => h)
  have hTl : n * 8 ≤ T.length := by
    rw [hT, List.length_append, columns_length (by omega) hd hf]; simp
  unfold benchU32x8
  skip
  apply Ok.bind
  apply Ok.whileM (fun j s => s.1 = j * 8 * 8 ∧ s.2.1 = j * 8 * 4 ∧ s.2.2.1 = n * 4 + j * 8 * 4 ∧
    Agree (DoneT n [4, 4] (j * 8)) T s.2.2.2) (n / 8) (by omega)
  · exact ⟨by simp, by simp, by simp; omega, by simpa using ho⟩
  · rintro i ⟨ip, cp, xp, out⟩ hi ⟨rfl, rfl, rfl, ha⟩
    refine ⟨by simp; omega, ?_⟩
    ksec h0 0 (i * 8) 8 hd tail hf hT
    ksec h1 1 (i * 8) 8 hd tail hf hT
    klds (i * 8 * 8) 0
    klds (i * 8 * 8) 4
    klds (i * 8 * 8) 8
    klds (i * 8 * 8) 12
    klds (i * 8 * 8) 16
    klds (i * 8 * 8) 20
    klds (i * 8 * 8) 24
    klds (i * 8 * 8) 28
    klds (i * 8 * 8) 32
    klds (i * 8 * 8) 36
    klds (i * 8 * 8) 40
    klds (i * 8 * 8) 44
    klds (i * 8 * 8) 48
    klds (i * 8 * 8) 52
    klds (i * 8 * 8) 56
    klds (i * 8 * 8) 60
    ksts ha h0 0
    ksts ha h1 0
    ksts ha h0 4
    ksts ha h1 4
    ksts ha h0 8
    ksts ha h1 8
    ksts ha h0 12
    ksts ha h1 12
    ksts ha h0 16
    ksts ha h1 16
    ksts ha h0 20
    ksts ha h1 20
    ksts ha h0 24
    ksts ha h1 24
    ksts ha h0 28
    ksts ha h1 28
    kend ha
  · rintro ⟨ip, cp, xp, out⟩ ⟨rfl, rfl, rfl, ha⟩
    refine ⟨by simp; omega, ?_⟩
    simp only
    apply Ok.bind
    apply Ok.whileM (fun i s => s.1 = (n / 8 * 8 + i) * 8 ∧ s.2.1 = (n / 8 * 8 + i) * 4 ∧
      s.2.2.1 = n * 4 + (n / 8 * 8 + i) * 4 ∧ Agree (DoneT n [4, 4] (n / 8 * 8 + i)) T s.2.2.2) (n - n / 8 * 8) (by omega)
    · exact ⟨rfl, rfl, rfl, ha⟩
    · rintro i ⟨ip, cp, xp, out⟩ hi ⟨rfl, rfl, rfl, ha⟩
      refine ⟨by simp; omega, ?_⟩
      ksec h0 0 (n / 8 * 8 + i) 1 hd tail hf hT
      ksec h1 1 (n / 8 * 8 + i) 1 hd tail hf hT
      klds ((n / 8 * 8 + i) * 8) 0
      klds ((n / 8 * 8 + i) * 8) 4
      ksts ha h0 0
      ksts ha h1 0
      kend ha
    · rintro ⟨ip, cp, xp, out⟩ ⟨rfl, rfl, rfl, ha⟩
      refine ⟨by simp; omega, Ok.pure ?_⟩
      rw [show n / 8 * 8 + (n - n / 8 * 8) = n by omega] at ha
      exact ha

theorem benchShift_ok (e : Endian) {inp : Buf} {n : Nat} {T out tail : Buf}
    (hd : inp.length = n * 8) (hT : T = columns 8 (bc1Fields id false) inp ++ tail)
    (ho : Agree (DoneT n [4, 4] 0) T out) :
    Ok (benchShift e inp out (n * 8)) (Agree (DoneT n [4, 4] n) T) := by
  have hf := fits_std (col := id) (fun _ h => h)
  have hTl : n * 8 ≤ T.length := by
    rw [hT, List.length_append, columns_length (by omega) hd hf]; simp
  unfold benchShift
  skip
  apply Ok.bind
  apply Ok.whileM (fun j s => s.1 = j * 1 * 8 ∧ s.2.1 = j * 1 * 4 ∧ s.2.2.1 = n * 4 + j * 1 * 4 ∧
    Agree (DoneT n [4, 4] (j * 1)) T s.2.2.2) (n) (by omega)
  · exact ⟨by simp, by simp, by simp; omega, by simpa using ho⟩
  · rintro i ⟨ip, cp, xp, out⟩ hi ⟨rfl, rfl, rfl, ha⟩
    refine ⟨by simp; omega, ?_⟩
    ksec h0 0 (i * 1) 1 hd tail hf hT
    ksec h1 1 (i * 1) 1 hd tail hf hT
    klds (i * 1 * 8) 0
    ksts ha h0 0
    ksts ha h1 0
    kend ha
  · rintro ⟨ip, cp, xp, out⟩ ⟨rfl, rfl, rfl, ha⟩
    refine ⟨by simp <;> omega, ?_⟩
    rw [Nat.mul_one] at ha
    exact Ok.pure ha

theorem benchShift2_ok (e : Endian) {inp : Buf} {n : Nat} {T out tail : Buf}
    (hd : inp.length = n * 8) (hT : T = columns 8 (bc1Fields id false) inp ++ tail)
    (ho : Agree (DoneT n [4, 4] 0) T out) :
    Ok (benchShift2 e inp out (n * 8)) (Agree (DoneT n [4, 4] n) T) := by
  have hf := fits_std (col := id) (fun _ h => h)
  have hTl : n * 8 ≤ T.length := by
    rw [hT, List.length_append, columns_length (by omega) hd hf]; simp
  unfold benchShift2
  skip
  apply Ok.bind
  apply Ok.whileM (fun j s => s.1 = j * 2 * 8 ∧ s.2.1 = j * 2 * 4 ∧ s.2.2.1 = n * 4 + j * 2 * 4 ∧
    Agree (DoneT n [4, 4] (j * 2)) T s.2.2.2) (n / 2) (by omega)
  · exact ⟨by simp, by simp, by simp; omega, by simpa using ho⟩
  · rintro i ⟨ip, cp, xp, out⟩ hi ⟨rfl, rfl, rfl, ha⟩
    refine ⟨by simp; omega, ?_⟩
    ksec h0 0 (i * 2) 2 hd tail hf hT
    ksec h1 1 (i * 2) 2 hd tail hf hT
    klds (i * 2 * 8) 0
    klds (i * 2 * 8) 8
    ksts ha h0 0
    ksts ha h0 4
    ksts ha h1 0
    ksts ha h1 4
    kend ha
  · rintro ⟨ip, cp, xp, out⟩ ⟨rfl, rfl, rfl, ha⟩
    refine ⟨by simp; omega, ?_⟩
    simp only
    apply Ok.bind
    apply Ok.whileM (fun i s => s.1 = (n / 2 * 2 + i) * 8 ∧ s.2.1 = (n / 2 * 2 + i) * 4 ∧
      s.2.2.1 = n * 4 + (n / 2 * 2 + i) * 4 ∧ Agree (DoneT n [4, 4] (n / 2 * 2 + i)) T s.2.2.2) (n - n / 2 * 2) (by omega)
    · exact ⟨rfl, rfl, rfl, ha⟩
    · rintro i ⟨ip, cp, xp, out⟩ hi ⟨rfl, rfl, rfl, ha⟩
      refine ⟨by simp; omega, ?_⟩
      ksec h0 0 (n / 2 * 2 + i) 1 hd tail hf hT
      ksec h1 1 (n / 2 * 2 + i) 1 hd tail hf hT
      klds ((n / 2 * 2 + i) * 8) 0
      ksts ha h0 0
      ksts ha h1 0
      kend ha
    · rintro ⟨ip, cp, xp, out⟩ ⟨rfl, rfl, rfl, ha⟩
      refine ⟨by simp; omega, Ok.pure ?_⟩
      rw [show n / 2 * 2 + (n - n / 2 * 2) = n by omega] at ha
      exact ha

theorem benchShift4_ok (e : Endian) {inp : Buf} {n : Nat} {T out tail : Buf}
    (hd : inp.length = n * 8) (hT : T = columns 8 (bc1Fields id false) inp ++ tail)
    (ho : Agree (DoneT n [4, 4] 0) T out) :
    Ok (benchShift4 e inp out (n * 8)) (Agree (DoneT n [4, 4] n) T) := by
  have hf := fits_std (col := id) (fun _ h => h)
  have hTl : n * 8 ≤ T.length := by
    rw [hT, List.length_append, columns_length (by omega) hd hf]; simp
  unfold benchShift4
  skip
  apply Ok.bind
  apply Ok.whileM (fun j s => s.1 = j * 4 * 8 ∧ s.2.1 = j * 4 * 4 ∧ s.2.2.1 = n * 4 + j * 4 * 4 ∧
    Agree (DoneT n [4, 4] (j * 4)) T s.2.2.2) (n / 4) (by omega)
  · exact ⟨by simp, by simp, by simp; omega, by simpa using ho⟩
  · rintro i ⟨ip, cp, xp, out⟩ hi ⟨rfl, rfl, rfl, ha⟩
    refine ⟨by simp; omega, ?_⟩
    ksec h0 0 (i * 4) 4 hd tail hf hT
    ksec h1 1 (i * 4) 4 hd tail hf hT
    klds (i * 4 * 8) 0
    klds (i * 4 * 8) 8
    klds (i * 4 * 8) 16
    klds (i * 4 * 8) 24
    ksts ha h0 0
    ksts ha h0 4
    ksts ha h0 8
    ksts ha h0 12
    ksts ha h1 0
    ksts ha h1 4
    ksts ha h1 8
    ksts ha h1 12
    kend ha
  · rintro ⟨ip, cp, xp, out⟩ ⟨rfl, rfl, rfl, ha⟩
    refine ⟨by simp; omega, ?_⟩
    simp only
    apply Ok.bind
    apply Ok.whileM (fun i s => s.1 = (n / 4 * 4 + i) * 8 ∧ s.2.1 = (n / 4 * 4 + i) * 4 ∧
      s.2.2.1 = n * 4 + (n / 4 * 4 + i) * 4 ∧ Agree (DoneT n [4, 4] (n / 4 * 4 + i)) T s.2.2.2) (n - n / 4 * 4) (by omega)
    · exact ⟨rfl, rfl, rfl, ha⟩
    · rintro i ⟨ip, cp, xp, out⟩ hi ⟨rfl, rfl, rfl, ha⟩
      refine ⟨by simp; omega, ?_⟩
      ksec h0 0 (n / 4 * 4 + i) 1 hd tail hf hT
      ksec h1 1 (n / 4 * 4 + i) 1 hd tail hf hT
      klds ((n / 4 * 4 + i) * 8) 0
      ksts ha h0 0
      ksts ha h1 0
      kend ha
    · rintro ⟨ip, cp, xp, out⟩ ⟨rfl, rfl, rfl, ha⟩
      refine ⟨by simp; omega, Ok.pure ?_⟩
      rw [show n / 4 * 4 + (n - n / 4 * 4) = n by omega] at ha
      exact ha

theorem benchShift8_ok (e : Endian) {inp : Buf} {n : Nat} {T out tail : Buf}
    (hd : inp.length = n * 8) (hT : T = columns 8 (bc1Fields id false) inp ++ tail)
    (ho : Agree (DoneT n [4, 4] 0) T out) :
    Ok (benchShift8 e inp out (n * 8)) (Agree (DoneT n [4, 4] n) T) := by
  have hf := fits_std (col := id) (fun _ h => h)
  have hTl : n * 8 ≤ T.length := by
    rw [hT, List.length_append, columns_length (by omega) hd hf]; simp
  unfold benchShift8
  skip
  apply Ok.bind
  apply Ok.whileM (fun j s => s.1 = j * 8 * 8 ∧ s.2.1 = j * 8 * 4 ∧ s.2.2.1 = n * 4 + j * 8 * 4 ∧
    Agree (DoneT n [4, 4] (j * 8)) T s.2.2.2) (n / 8) (by omega)
  · exact ⟨by simp, by simp, by simp; omega, by simpa using ho⟩
  · rintro i ⟨ip, cp, xp, out⟩ hi ⟨rfl, rfl, rfl, ha⟩
    refine ⟨by simp; omega, ?_⟩
    ksec h0 0 (i * 8) 8 hd tail hf hT
    ksec h1 1 (i * 8) 8 hd tail hf hT
    klds (i * 8 * 8) 0
    klds (i * 8 * 8) 8
    klds (i * 8 * 8) 16
    klds (i * 8 * 8) 24
    klds (i * 8 * 8) 32
    klds (i * 8 * 8) 40
    klds (i * 8 * 8) 48
    klds (i * 8 * 8) 56
    ksts ha h0 0
    ksts ha h0 4
    ksts ha h0 8
    ksts ha h0 12
    ksts ha h0 16
    ksts ha h0 20
    ksts ha h0 24
    ksts ha h0 28
    ksts ha h1 0
    ksts ha h1 4
    ksts ha h1 8
    ksts ha h1 12
    ksts ha h1 16
    ksts ha h1 20
    ksts ha h1 24
    ksts ha h1 28
    kend ha
  · rintro ⟨ip, cp, xp, out⟩ ⟨rfl, rfl, rfl, ha⟩
    refine ⟨by simp; omega, ?_⟩
    simp only
    apply Ok.bind
    apply Ok.whileM (fun i s => s.1 = (n / 8 * 8 + i) * 8 ∧ s.2.1 = (n / 8 * 8 + i) * 4 ∧
      s.2.2.1 = n * 4 + (n / 8 * 8 + i) * 4 ∧ Agree (DoneT n [4, 4] (n / 8 * 8 + i)) T s.2.2.2) (n - n / 8 * 8) (by omega)
    · exact ⟨rfl, rfl, rfl, ha⟩
    · rintro i ⟨ip, cp, xp, out⟩ hi ⟨rfl, rfl, rfl, ha⟩
      refine ⟨by simp; omega, ?_⟩
      ksec h0 0 (n / 8 * 8 + i) 1 hd tail hf hT
      ksec h1 1 (n / 8 * 8 + i) 1 hd tail hf hT
      klds ((n / 8 * 8 + i) * 8) 0
      ksts ha h0 0
      ksts ha h1 0
      kend ha
    · rintro ⟨ip, cp, xp, out⟩ ⟨rfl, rfl, rfl, ha⟩
      refine ⟨by simp; omega, Ok.pure ?_⟩
      rw [show n / 8 * 8 + (n - n / 8 * 8) = n by omega] at ha
      exact ha

theorem benchShiftCount_ok (e : Endian) {inp : Buf} {n : Nat} {T out tail : Buf}
    (hd : inp.length = n * 8) (hT : T = columns 8 (bc1Fields id false) inp ++ tail)
    (ho : Agree (DoneT n [4, 4] 0) T out) :
    Ok (benchShiftCount e inp out (n * 8)) (Agree (DoneT n [4, 4] n) T) := by
  have hf := fits_std (col := id) (fun _ h => h)
  have hTl : n * 8 ≤ T.length := by
    rw [hT, List.length_append, columns_length (by omega) hd hf]; simp
  unfold benchShiftCount
  skip
  apply Ok.bind
  apply Ok.whileM (fun j s => s.1 = n - j ∧ s.2.1 = j * 1 * 8 ∧ s.2.2.1 = j * 1 * 4 ∧
    s.2.2.2.1 = n * 4 + j * 1 * 4 ∧ Agree (DoneT n [4, 4] (j * 1)) T s.2.2.2.2) (n) (by omega)
  · exact ⟨by simp <;> omega, by simp, by simp, by simp; omega, by simpa using ho⟩
  · rintro i ⟨cnt, ip, cp, xp, out⟩ hi ⟨rfl, rfl, rfl, rfl, ha⟩
    refine ⟨by simp; omega, ?_⟩
    ksec h0 0 (i * 1) 1 hd tail hf hT
    ksec h1 1 (i * 1) 1 hd tail hf hT
    klds (i * 1 * 8) 0
    ksts ha h0 0
    ksts ha h1 0
    kend ha
  · rintro ⟨cnt, ip, cp, xp, out⟩ ⟨rfl, rfl, rfl, rfl, ha⟩
    refine ⟨by simp <;> omega, ?_⟩
    rw [Nat.mul_one] at ha
    exact Ok.pure ha

theorem benchShiftCount2_ok (e : Endian) {inp : Buf} {n : Nat} {T out tail : Buf}
    (hd : inp.length = n * 8) (hT : T = columns 8 (bc1Fields id false) inp ++ tail)
    (ho : Agree (DoneT n [4, 4] 0) T out) :
    Ok (benchShiftCount2 e inp out (n * 8)) (Agree (DoneT n [4, 4] n) T) := by
  have hf := fits_std (col := id) (fun _ h => h)
  have hTl : n * 8 ≤ T.length := by
    rw [hT, List.length_append, columns_length (by omega) hd hf]; simp
  unfold benchShiftCount2
  simp only
  apply Ok.bind
  apply Ok.whileM (fun j s => s.1 = n / 2 - j ∧ s.2.1 = j * 2 * 8 ∧ s.2.2.1 = j * 2 * 4 ∧
    s.2.2.2.1 = n * 4 + j * 2 * 4 ∧ Agree (DoneT n [4, 4] (j * 2)) T s.2.2.2.2) (n / 2) (by omega)
  · exact ⟨by simp <;> omega, by simp, by simp, by simp; omega, by simpa using ho⟩
  · rintro i ⟨cnt, ip, cp, xp, out⟩ hi ⟨rfl, rfl, rfl, rfl, ha⟩
    refine ⟨by simp; omega, ?_⟩
    ksec h0 0 (i * 2) 2 hd tail hf hT
    ksec h1 1 (i * 2) 2 hd tail hf hT
    klds (i * 2 * 8) 0
    klds (i * 2 * 8) 8
    ksts ha h0 0
    ksts ha h0 4
    ksts ha h1 0
    ksts ha h1 4
    kend ha
  · rintro ⟨cnt, ip, cp, xp, out⟩ ⟨rfl, rfl, rfl, rfl, ha⟩
    refine ⟨by simp <;> omega, ?_⟩
    simp only
    split
    · ksec h0 0 (n / 2 * 2) 1 hd tail hf hT
      ksec h1 1 (n / 2 * 2) 1 hd tail hf hT
      klds (n / 2 * 2 * 8) 0
      ksts ha h0 0
      apply Ok.last
      ksts ha h1 0
      apply Ok.pure
      refine Agree.mono ha ?_
      intro x hx hq
      simp only [DoneT, doneCols, List.sum_cons, List.sum_nil, or_false, Nat.reduceAdd,
        Nat.zero_add, Nat.add_zero] at hq ⊢
      omega
    · rw [show n / 2 * 2 = n by omega] at ha
      exact Ok.pure ha

theorem benchShiftCount4_ok (e : Endian) {inp : Buf} {n : Nat} {T out tail : Buf}
    (hd : inp.length = n * 8) (hT : T = columns 8 (bc1Fields id false) inp ++ tail)
    (ho : Agree (DoneT n [4, 4] 0) T out) :
    Ok (benchShiftCount4 e inp out (n * 8)) (Agree (DoneT n [4, 4] n) T) := by
  have hf := fits_std (col := id) (fun _ h => h)
  have hTl : n * 8 ≤ T.length := by
    rw [hT, List.length_append, columns_length (by omega) hd hf]; simp
  unfold benchShiftCount4
  simp only
  apply Ok.bind
  apply Ok.whileM (fun j s => s.1 = n / 4 - j ∧ s.2.1 = j * 4 * 8 ∧ s.2.2.1 = j * 4 * 4 ∧
    s.2.2.2.1 = n * 4 + j * 4 * 4 ∧ Agree (DoneT n [4, 4] (j * 4)) T s.2.2.2.2) (n / 4) (by omega)
  · exact ⟨by simp <;> omega, by simp, by simp, by simp; omega, by simpa using ho⟩
  · rintro i ⟨cnt, ip, cp, xp, out⟩ hi ⟨rfl, rfl, rfl, rfl, ha⟩
    refine ⟨by simp; omega, ?_⟩
    ksec h0 0 (i * 4) 4 hd tail hf hT
    ksec h1 1 (i * 4) 4 hd tail hf hT
    klds (i * 4 * 8) 0
    klds (i * 4 * 8) 8
    klds (i * 4 * 8) 16
    klds (i * 4 * 8) 24
    ksts ha h0 0
    ksts ha h0 4
    ksts ha h0 8
    ksts ha h0 12
    ksts ha h1 0
    ksts ha h1 4
    ksts ha h1 8
    ksts ha h1 12
    kend ha
  · rintro ⟨cnt, ip, cp, xp, out⟩ ⟨rfl, rfl, rfl, rfl, ha⟩
    refine ⟨by simp <;> omega, ?_⟩
    simp only
    apply Ok.bind
    apply Ok.whileM (fun i s => s.1 = i ∧ s.2.1 = (n / 4 * 4 + i) * 8 ∧ s.2.2.1 = (n / 4 * 4 + i) * 4 ∧
      s.2.2.2.1 = n * 4 + (n / 4 * 4 + i) * 4 ∧ Agree (DoneT n [4, 4] (n / 4 * 4 + i)) T s.2.2.2.2) (n - n / 4 * 4) (by omega)
    · exact ⟨rfl, rfl, rfl, rfl, ha⟩
    · rintro i ⟨k, ip, cp, xp, out⟩ hi ⟨hk, rfl, rfl, rfl, ha⟩
      change k = i at hk
      subst k
      refine ⟨by simp; omega, ?_⟩
      ksec h0 0 (n / 4 * 4 + i) 1 hd tail hf hT
      ksec h1 1 (n / 4 * 4 + i) 1 hd tail hf hT
      klds ((n / 4 * 4 + i) * 8) 0
      ksts ha h0 0
      ksts ha h1 0
      kend ha
    · rintro ⟨k, ip, cp, xp, out⟩ ⟨rfl, rfl, rfl, rfl, ha⟩
      refine ⟨by simp; omega, Ok.pure ?_⟩
      rw [show n / 4 * 4 + (n - n / 4 * 4) = n by omega] at ha
      exact ha

theorem benchShiftCount8_ok (e : Endian) {inp : Buf} {n : Nat} {T out tail : Buf}
    (hd : inp.length = n * 8) (hT : T = columns 8 (bc1Fields id false) inp ++ tail)
    (ho : Agree (DoneT n [4, 4] 0) T out) :
    Ok (benchShiftCount8 e inp out (n * 8)) (Agree (DoneT n [4, 4] n) T) := by
  have hf := fits_std (col := id) (fun _ h => h)
  have hTl : n * 8 ≤ T.length := by
    rw [hT, List.length_append, columns_length (by omega) hd hf]; simp
  unfold benchShiftCount8
  simp only
  apply Ok.bind
  apply Ok.whileM (fun j s => s.1 = n / 8 - j ∧ s.2.1 = j * 8 * 8 ∧ s.2.2.1 = j * 8 * 4 ∧
    s.2.2.2.1 = n * 4 + j * 8 * 4 ∧ Agree (DoneT n [4, 4] (j * 8)) T s.2.2.2.2) (n / 8) (by omega)
  · exact ⟨by simp <;> omega, by simp, by simp, by simp; omega, by simpa using ho⟩
  · rintro i ⟨cnt, ip, cp, xp, out⟩ hi ⟨rfl, rfl, rfl, rfl, ha⟩
    refine ⟨by simp; omega, ?_⟩
    ksec h0 0 (i * 8) 8 hd tail hf hT
    ksec h1 1 (i * 8) 8 hd tail hf hT
    klds (i * 8 * 8) 0
    klds (i * 8 * 8) 8
    klds (i * 8 * 8) 16
    klds (i * 8 * 8) 24
    klds (i * 8 * 8) 32
    klds (i * 8 * 8) 40
    klds (i * 8 * 8) 48
    klds (i * 8 * 8) 56
    ksts ha h0 0
    ksts ha h0 4
    ksts ha h0 8
    ksts ha h0 12
    ksts ha h0 16
    ksts ha h0 20
    ksts ha h0 24
    ksts ha h0 28
    ksts ha h1 0
    ksts ha h1 4
    ksts ha h1 8
    ksts ha h1 12
    ksts ha h1 16
    ksts ha h1 20
    ksts ha h1 24
    ksts ha h1 28
    kend ha
  · rintro ⟨cnt, ip, cp, xp, out⟩ ⟨rfl, rfl, rfl, rfl, ha⟩
    refine ⟨by simp <;> omega, ?_⟩
    simp only
    apply Ok.bind
    apply Ok.whileM (fun i s => s.1 = i ∧ s.2.1 = (n / 8 * 8 + i) * 8 ∧ s.2.2.1 = (n / 8 * 8 + i) * 4 ∧
      s.2.2.2.1 = n * 4 + (n / 8 * 8 + i) * 4 ∧ Agree (DoneT n [4, 4] (n / 8 * 8 + i)) T s.2.2.2.2) (n - n / 8 * 8) (by omega)
    · exact ⟨rfl, rfl, rfl, rfl, ha⟩
    · rintro i ⟨k, ip, cp, xp, out⟩ hi ⟨hk, rfl, rfl, rfl, ha⟩
      change k = i at hk
      subst k
      refine ⟨by simp; omega, ?_⟩
      ksec h0 0 (n / 8 * 8 + i) 1 hd tail hf hT
      ksec h1 1 (n / 8 * 8 + i) 1 hd tail hf hT
      klds ((n / 8 * 8 + i) * 8) 0
      ksts ha h0 0
      ksts ha h1 0
      kend ha
    · rintro ⟨k, ip, cp, xp, out⟩ ⟨rfl, rfl, rfl, rfl, ha⟩
      refine ⟨by simp; omega, Ok.pure ?_⟩
      rw [show n / 8 * 8 + (n - n / 8 * 8) = n by omega] at ha
      exact ha

theorem benchUnPermd_ok {inp : Buf} {n : Nat} {T out tail : Buf}
    (hd : inp.length = n * 8) (hT : T = unsoa n (widths false) (unFields id false) inp ++ tail)
    (ho : Agree (DoneU n 8 0) T out) :
    Ok (benchUnPermd inp out (n * 8)) (Agree (DoneU n 8 n) T) := by
  have hg := unFields_length (col := id) (fun _ h => h) false
  have hl : n * ((widths false)).sum ≤ inp.length := by simp [widths]; omega
  have hTl : n * 8 ≤ T.length := by
    rw [hT, List.length_append, unsoa_length hl hg]; omega
  unfold benchUnPermd
  apply Ok.bind
  apply Ok.asm (fun j s => s.1 = j * 8 * 4 ∧ s.2.1 = n * 4 + j * 8 * 4 ∧ s.2.2.1 = j * 8 * 8 ∧
    Agree (DoneU n 8 (j * 8)) T s.2.2.2) (n / 8) (by omega) (by omega)
  · exact ⟨by simp, by simp; omega, by simp, by simpa using ho⟩
  · rintro i ⟨cp, xp, op, out⟩ hi ⟨rfl, rfl, rfl, ha⟩
    kblk h0 (i * 8) 8 tail hl hg hT
    simp only [widths, chunkFields, Nat.zero_add, ← Nat.mul_add, Nat.reduceAdd] at h0
    kldv (i * 8 * 4) 0
    kldv (n * 4 + i * 8 * 4) 0
    kstv ha h0 0 32
    kstv ha h0 32 32
    kend ha
  · rintro i ⟨cp, xp, op, out⟩ hi ⟨rfl, rfl, rfl, ha⟩ _
    simp; omega
  · rintro ⟨cp, xp, op, out⟩ hm ⟨rfl, rfl, rfl, ha⟩
    simp; omega
  · rintro ⟨cp, xp, op, out⟩ ⟨rfl, rfl, rfl, ha⟩
    have := untransformPtrs_ok .little hd hT ha (by omega)
    simp only
    rw [show n * 8 - (n * 8 - n * 8 % 64) = (n - n / 8 * 8) * 8 by omega]
    exact this

theorem benchUnUnpckAvx2_ok {inp : Buf} {n : Nat} {T out tail : Buf}
    (hd : inp.length = n * 8) (hT : T = unsoa n (widths false) (unFields id false) inp ++ tail)
    (ho : Agree (DoneU n 8 0) T out) :
    Ok (benchUnUnpckAvx2 inp out (n * 8)) (Agree (DoneU n 8 n) T) := by
  have hg := unFields_length (col := id) (fun _ h => h) false
  have hl : n * ((widths false)).sum ≤ inp.length := by simp [widths]; omega
  have hTl : n * 8 ≤ T.length := by
    rw [hT, List.length_append, unsoa_length hl hg]; omega
  unfold benchUnUnpckAvx2
  apply Ok.bind
  apply Ok.asm (fun j s => s.1 = j * 8 * 4 ∧ s.2.1 = n * 4 + j * 8 * 4 ∧ s.2.2.1 = j * 8 * 8 ∧
    Agree (DoneU n 8 (j * 8)) T s.2.2.2) (n / 8) (by omega) (by omega)
  · exact ⟨by simp, by simp; omega, by simp, by simpa using ho⟩
  · rintro i ⟨cp, xp, op, out⟩ hi ⟨rfl, rfl, rfl, ha⟩
    kblk h0 (i * 8) 8 tail hl hg hT
    simp only [widths, chunkFields, Nat.zero_add, ← Nat.mul_add, Nat.reduceAdd] at h0
    kldv (i * 8 * 4) 0
    kldv (n * 4 + i * 8 * 4) 0
    kstv ha h0 0 32
    kstv ha h0 32 32
    kend ha
  · rintro i ⟨cp, xp, op, out⟩ hi ⟨rfl, rfl, rfl, ha⟩ _
    simp; omega
  · rintro ⟨cp, xp, op, out⟩ hm ⟨rfl, rfl, rfl, ha⟩
    simp; omega
  · rintro ⟨cp, xp, op, out⟩ ⟨rfl, rfl, rfl, ha⟩
    have := untransformPtrs_ok .little hd hT ha (by omega)
    simp only
    rw [show n * 8 - (n * 8 - n * 8 % 64) = (n - n / 8 * 8) * 8 by omega]
    exact this

theorem benchUnUnpckAvx2x2_ok {inp : Buf} {n : Nat} {T out tail : Buf}
    (hd : inp.length = n * 8) (hT : T = unsoa n (widths false) (unFields id false) inp ++ tail)
    (ho : Agree (DoneU n 8 0) T out) :
    Ok (benchUnUnpckAvx2x2 inp out (n * 8)) (Agree (DoneU n 8 n) T) := by
  have hg := unFields_length (col := id) (fun _ h => h) false
  have hl : n * ((widths false)).sum ≤ inp.length := by simp [widths]; omega
  have hTl : n * 8 ≤ T.length := by
    rw [hT, List.length_append, unsoa_length hl hg]; omega
  unfold benchUnUnpckAvx2x2
  apply Ok.bind
  apply Ok.asm (fun j s => s.1 = j * 16 * 4 ∧ s.2.1 = n * 4 + j * 16 * 4 ∧ s.2.2.1 = j * 16 * 8 ∧
    Agree (DoneU n 8 (j * 16)) T s.2.2.2) (n / 16) (by omega) (by omega)
  · exact ⟨by simp, by simp; omega, by simp, by simpa using ho⟩
  · rintro i ⟨cp, xp, op, out⟩ hi ⟨rfl, rfl, rfl, ha⟩
    kblk h0 (i * 16) 16 tail hl hg hT
    simp only [widths, chunkFields, Nat.zero_add, ← Nat.mul_add, Nat.reduceAdd] at h0
    kldv (i * 16 * 4) 0
    kldv (i * 16 * 4) 32
    kldv (n * 4 + i * 16 * 4) 0
    kldv (n * 4 + i * 16 * 4) 32
    kstv ha h0 0 32
    kstv ha h0 32 32
    kstv ha h0 64 32
    kstv ha h0 96 32
    kend ha
  · rintro i ⟨cp, xp, op, out⟩ hi ⟨rfl, rfl, rfl, ha⟩ _
    simp; omega
  · rintro ⟨cp, xp, op, out⟩ hm ⟨rfl, rfl, rfl, ha⟩
    simp; omega
  · rintro ⟨cp, xp, op, out⟩ ⟨rfl, rfl, rfl, ha⟩
    have := untransformPtrs_ok .little hd hT ha (by omega)
    simp only
    rw [show n * 8 - (n * 8 - n * 8 % 128) = (n - n / 16 * 16) * 8 by omega]
    exact this

theorem benchUnUnpck_ok {inp : Buf} {n : Nat} {T out tail : Buf}
    (hd : inp.length = n * 8) (hT : T = unsoa n (widths false) (unFields id false) inp ++ tail)
    (ho : Agree (DoneU n 8 0) T out) :
    Ok (benchUnUnpck inp out (n * 8)) (Agree (DoneU n 8 n) T) := by
  have hg := unFields_length (col := id) (fun _ h => h) false
  have hl : n * ((widths false)).sum ≤ inp.length := by simp [widths]; omega
  have hTl : n * 8 ≤ T.length := by
    rw [hT, List.length_append, unsoa_length hl hg]; omega
  unfold benchUnUnpck
  apply Ok.bind
  apply Ok.asm (fun j s => s.1 = j * 4 * 4 ∧ s.2.1 = n * 4 + j * 4 * 4 ∧ s.2.2.1 = j * 4 * 8 ∧
    Agree (DoneU n 8 (j * 4)) T s.2.2.2) (n / 4) (by omega) (by omega)
  · exact ⟨by simp, by simp; omega, by simp, by simpa using ho⟩
  · rintro i ⟨cp, xp, op, out⟩ hi ⟨rfl, rfl, rfl, ha⟩
    kblk h0 (i * 4) 4 tail hl hg hT
    simp only [widths, chunkFields, Nat.zero_add, ← Nat.mul_add, Nat.reduceAdd] at h0
    kldv (i * 4 * 4) 0
    kldv (n * 4 + i * 4 * 4) 0
    kstv ha h0 0 16
    kstv ha h0 16 16
    kend ha
  · rintro i ⟨cp, xp, op, out⟩ hi ⟨rfl, rfl, rfl, ha⟩ _
    simp; omega
  · rintro ⟨cp, xp, op, out⟩ hm ⟨rfl, rfl, rfl, ha⟩
    simp; omega
  · rintro ⟨cp, xp, op, out⟩ ⟨rfl, rfl, rfl, ha⟩
    have := untransformPtrs_ok .little hd hT ha (by omega)
    simp only
    rw [show n * 8 - (n * 8 - n * 8 % 32) = (n - n / 4 * 4) * 8 by omega]
    exact this

theorem benchUnUnpck4_ok {inp : Buf} {n : Nat} {T out tail : Buf}
    (hd : inp.length = n * 8) (hT : T = unsoa n (widths false) (unFields id false) inp ++ tail)
    (ho : Agree (DoneU n 8 0) T out) :
    Ok (benchUnUnpck4 inp out (n * 8)) (Agree (DoneU n 8 n) T) := by
  have hg := unFields_length (col := id) (fun _ h => h) false
  have hl : n * ((widths false)).sum ≤ inp.length := by simp [widths]; omega
  have hTl : n * 8 ≤ T.length := by
    rw [hT, List.length_append, unsoa_length hl hg]; omega
  unfold benchUnUnpck4
  apply Ok.bind
  apply Ok.asm (fun j s => s.1 = j * 16 * 4 ∧ s.2.1 = n * 4 + j * 16 * 4 ∧ s.2.2.1 = j * 16 * 8 ∧
    Agree (DoneU n 8 (j * 16)) T s.2.2.2) (n / 16) (by omega) (by omega)
  · exact ⟨by simp, by simp; omega, by simp, by simpa using ho⟩
  · rintro i ⟨cp, xp, op, out⟩ hi ⟨rfl, rfl, rfl, ha⟩
    kblk h0 (i * 16) 16 tail hl hg hT
    simp only [widths, chunkFields, Nat.zero_add, ← Nat.mul_add, Nat.reduceAdd] at h0
    kldv (i * 16 * 4) 0
    kldv (i * 16 * 4) 16
    kldv (i * 16 * 4) 32
    kldv (i * 16 * 4) 48
    kldv (n * 4 + i * 16 * 4) 0
    kldv (n * 4 + i * 16 * 4) 16
    kldv (n * 4 + i * 16 * 4) 32
    kldv (n * 4 + i * 16 * 4) 48
    kstv ha h0 0 16
    kstv ha h0 16 16
    kstv ha h0 32 16
    kstv ha h0 48 16
    kstv ha h0 64 16
    kstv ha h0 80 16
    kstv ha h0 96 16
    kstv ha h0 112 16
    kend ha
  · rintro i ⟨cp, xp, op, out⟩ hi ⟨rfl, rfl, rfl, ha⟩ _
    simp; omega
  · rintro ⟨cp, xp, op, out⟩ hm ⟨rfl, rfl, rfl, ha⟩
    simp; omega
  · rintro ⟨cp, xp, op, out⟩ ⟨rfl, rfl, rfl, ha⟩
    have := untransformPtrs_ok .little hd hT ha (by omega)
    simp only
    rw [show n * 8 - (n * 8 - n * 8 % 128) = (n - n / 16 * 16) * 8 by omega]
    exact this

theorem benchUnPermute512_ok {inp : Buf} {n : Nat} {T out tail : Buf}
    (hd : inp.length = n * 8) (hT : T = unsoa n (widths false) (unFields id false) inp ++ tail)
    (ho : Agree (DoneU n 8 0) T out) :
    Ok (benchUnPermute512 inp out (n * 8)) (Agree (DoneU n 8 n) T) := by
  have hg := unFields_length (col := id) (fun _ h => h) false
  have hl : n * ((widths false)).sum ≤ inp.length := by simp [widths]; omega
  have hTl : n * 8 ≤ T.length := by
    rw [hT, List.length_append, unsoa_length hl hg]; omega
  unfold benchUnPermute512
  apply Ok.bind
  apply Ok.whileM (fun j s => s.1 = j * 32 * 4 ∧ s.2.1 = n * 4 + j * 32 * 4 ∧ s.2.2.1 = j * 32 * 8 ∧
    Agree (DoneU n 8 (j * 32)) T s.2.2.2) (n / 32) (by omega)
  · exact ⟨by simp, by simp; omega, by simp, by simpa using ho⟩
  · rintro i ⟨cp, xp, op, out⟩ hi ⟨rfl, rfl, rfl, ha⟩
    refine ⟨by simp; omega, ?_⟩
    kblk h0 (i * 32) 32 tail hl hg hT
    simp only [widths, chunkFields, Nat.zero_add, ← Nat.mul_add, Nat.reduceAdd] at h0
    kldv (i * 32 * 4) 0
    kldv (i * 32 * 4) 64
    kldv (n * 4 + i * 32 * 4) 0
    kldv (n * 4 + i * 32 * 4) 64
    kstv ha h0 0 64
    kstv ha h0 64 64
    kstv ha h0 128 64
    kstv ha h0 192 64
    kend ha
  · rintro ⟨cp, xp, op, out⟩ ⟨rfl, rfl, rfl, ha⟩
    refine ⟨by simp; omega, ?_⟩
    have := untransformPtrs_ok .little hd hT ha (by omega)
    simp only
    rw [show n * 8 - (n * 8 - n * 8 % 256) = (n - n / 32 * 32) * 8 by omega]
    exact this

theorem benchUnU32x2_ok (e : Endian) {inp : Buf} {n : Nat} {T out tail : Buf}
    (hd : inp.length = n * 8) (hT : T = unsoa n (widths false) (unFields id false) inp ++ tail)
    (ho : Agree (DoneU n 8 0) T out) :
    Ok (benchUnU32x2 e inp out (n * 8)) (Agree (DoneU n 8 n) T) := by
  have hg := unFields_length (col := id) (fun _ h => h) false
  have hl : n * ((widths false)).sum ≤ inp.length := by simp [widths]; omega
  have hTl : n * 8 ≤ T.length := by
    rw [hT, List.length_append, unsoa_length hl hg]; omega
  unfold benchUnU32x2
  apply Ok.bind
  obtain ⟨m, hm⟩ : ∃ m, m = (4 * n + 7 - 8) / 8 := ⟨_, rfl⟩
  apply Ok.whileM (fun j s => s.1 = j * 2 * 4 ∧ s.2.1 = n * 4 + j * 2 * 4 ∧ s.2.2.1 = j * 2 * 8 ∧
    Agree (DoneU n 8 (j * 2)) T s.2.2.2) m (by omega)
  · exact ⟨by simp, by simp; omega, by simp, by simpa using ho⟩
  · rintro i ⟨cp, xp, op, out⟩ hi ⟨rfl, rfl, rfl, ha⟩
    refine ⟨by simp; omega, ?_⟩
    kblk h0 (i * 2) 2 tail hl hg hT
    simp only [widths, chunkFields, Nat.zero_add, ← Nat.mul_add, Nat.reduceAdd] at h0
    klds (n * 4 + i * 2 * 4) 0
    klds (n * 4 + i * 2 * 4) 4
    klds (i * 2 * 4) 0
    klds (i * 2 * 4) 4
    ksts ha h0 0
    ksts ha h0 4
    ksts ha h0 8
    ksts ha h0 12
    kend ha
  · rintro ⟨cp, xp, op, out⟩ ⟨rfl, rfl, rfl, ha⟩
    refine ⟨by simp; omega, ?_⟩
    simp only
    obtain ⟨K, hK⟩ : ∃ K, K = m * 2 := ⟨_, rfl⟩
    rw [← hK] at ha ⊢
    apply Ok.bind
    apply Ok.whileM (fun i s => s.1 = (K + i) * 4 ∧ s.2.1 = n * 4 + (K + i) * 4 ∧
      s.2.2.1 = (K + i) * 8 ∧ Agree (DoneU n 8 (K + i)) T s.2.2.2) (n - K) (by omega)
    · exact ⟨rfl, rfl, rfl, ha⟩
    · rintro i ⟨cp, xp, op, out⟩ hi ⟨rfl, rfl, rfl, ha⟩
      refine ⟨by simp; omega, ?_⟩
      kblk h0 (K + i) 1 tail hl hg hT
      simp only [widths, chunkFields, Nat.zero_add, ← Nat.mul_add, Nat.reduceAdd] at h0
      klds (n * 4 + (K + i) * 4) 0
      klds ((K + i) * 4) 0
      ksts ha h0 0
      ksts ha h0 4
      kend ha
    · rintro ⟨cp, xp, op, out⟩ ⟨rfl, rfl, rfl, ha⟩
      refine ⟨by simp; omega, Ok.pure ?_⟩
      rw [show K + (n - K) = n by omega] at ha
      exact ha

theorem benchUnU32x4_ok (e : Endian) {inp : Buf} {n : Nat} {T out tail : Buf}
    (hd : inp.length = n * 8) (hT : T = unsoa n (widths false) (unFields id false) inp ++ tail)
    (ho : Agree (DoneU n 8 0) T out) :
    Ok (benchUnU32x4 e inp out (n * 8)) (Agree (DoneU n 8 n) T) := by
  have hg := unFields_length (col := id) (fun _ h => h) false
  have hl : n * ((widths false)).sum ≤ inp.length := by simp [widths]; omega
  have hTl : n * 8 ≤ T.length := by
    rw [hT, List.length_append, unsoa_length hl hg]; omega
  unfold benchUnU32x4
  apply Ok.bind
  obtain ⟨m, hm⟩ : ∃ m, m = (4 * n + 7 - 16) / 16 := ⟨_, rfl⟩
  apply Ok.whileM (fun j s => s.1 = j * 4 * 4 ∧ s.2.1 = n * 4 + j * 4 * 4 ∧ s.2.2.1 = j * 4 * 8 ∧
    Agree (DoneU n 8 (j * 4)) T s.2.2.2) m (by omega)
  · exact ⟨by simp, by simp; omega, by simp, by simpa using ho⟩
  · rintro i ⟨cp, xp, op, out⟩ hi ⟨rfl, rfl, rfl, ha⟩
    refine ⟨by simp; omega, ?_⟩
    kblk h0 (i * 4) 4 tail hl hg hT
    simp only [widths, chunkFields, Nat.zero_add, ← Nat.mul_add, Nat.reduceAdd] at h0
    klds (n * 4 + i * 4 * 4) 0
    klds (n * 4 + i * 4 * 4) 4
    klds (n * 4 + i * 4 * 4) 8
    klds (n * 4 + i * 4 * 4) 12
    klds (i * 4 * 4) 0
    klds (i * 4 * 4) 4
    klds (i * 4 * 4) 8
    klds (i * 4 * 4) 12
    ksts ha h0 0
    ksts ha h0 4
    ksts ha h0 8
    ksts ha h0 12
    ksts ha h0 16
    ksts ha h0 20
    ksts ha h0 24
    ksts ha h0 28
    kend ha
  · rintro ⟨cp, xp, op, out⟩ ⟨rfl, rfl, rfl, ha⟩
    refine ⟨by simp; omega, ?_⟩
    simp only
    obtain ⟨K, hK⟩ : ∃ K, K = m * 4 := ⟨_, rfl⟩
    rw [← hK] at ha ⊢
    apply Ok.bind
    apply Ok.whileM (fun i s => s.1 = (K + i) * 4 ∧ s.2.1 = n * 4 + (K + i) * 4 ∧
      s.2.2.1 = (K + i) * 8 ∧ Agree (DoneU n 8 (K + i)) T s.2.2.2) (n - K) (by omega)
    · exact ⟨rfl, rfl, rfl, ha⟩
    · rintro i ⟨cp, xp, op, out⟩ hi ⟨rfl, rfl, rfl, ha⟩
      refine ⟨by simp; omega, ?_⟩
      kblk h0 (K + i) 1 tail hl hg hT
      simp only [widths, chunkFields, Nat.zero_add, ← Nat.mul_add, Nat.reduceAdd] at h0
      klds (n * 4 + (K + i) * 4) 0
      klds ((K + i) * 4) 0
      ksts ha h0 0
      ksts ha h0 4
      kend ha
    · rintro ⟨cp, xp, op, out⟩ ⟨rfl, rfl, rfl, ha⟩
      refine ⟨by simp; omega, Ok.pure ?_⟩
      rw [show K + (n - K) = n by omega] at ha
      exact ha

theorem benchUnU32x8_ok (e : Endian) {inp : Buf} {n : Nat} {T out tail : Buf}
    (hd : inp.length = n * 8) (hT : T = unsoa n (widths false) (unFields id false) inp ++ tail)
    (ho : Agree (DoneU n 8 0) T out) :
    Ok (benchUnU32x8 e inp out (n * 8)) (Agree (DoneU n 8 n) T) := by
  have hg := unFields_length (col := id) (fun _ h => h) false
  have hl : n * ((widths false)).sum ≤ inp.length := by simp [widths]; omega
  have hTl : n * 8 ≤ T.length := by
    rw [hT, List.length_append, unsoa_length hl hg]; omega
  unfold benchUnU32x8
  apply Ok.bind
  obtain ⟨m, hm⟩ : ∃ m, m = (4 * n + 7 - 32) / 32 := ⟨_, rfl⟩
  apply Ok.whileM (fun j s => s.1 = j * 8 * 4 ∧ s.2.1 = n * 4 + j * 8 * 4 ∧ s.2.2.1 = j * 8 * 8 ∧
    Agree (DoneU n 8 (j * 8)) T s.2.2.2) m (by omega)
  · exact ⟨by simp, by simp; omega, by simp, by simpa using ho⟩
  · rintro i ⟨cp, xp, op, out⟩ hi ⟨rfl, rfl, rfl, ha⟩
    refine ⟨by simp; omega, ?_⟩
    kblk h0 (i * 8) 8 tail hl hg hT
    simp only [widths, chunkFields, Nat.zero_add, ← Nat.mul_add, Nat.reduceAdd] at h0
    klds (n * 4 + i * 8 * 4) 0
    klds (n * 4 + i * 8 * 4) 4
    klds (n * 4 + i * 8 * 4) 8
    klds (n * 4 + i * 8 * 4) 12
    klds (n * 4 + i * 8 * 4) 16
    klds (n * 4 + i * 8 * 4) 20
    klds (n * 4 + i * 8 * 4) 24
    klds (n * 4 + i * 8 * 4) 28
    klds (i * 8 * 4) 0
    klds (i * 8 * 4) 4
    klds (i * 8 * 4) 8
    klds (i * 8 * 4) 12
    klds (i * 8 * 4) 16
    klds (i * 8 * 4) 20
    klds (i * 8 * 4) 24
    klds (i * 8 * 4) 28
    ksts ha h0 0
    ksts ha h0 4
    ksts ha h0 8
    ksts ha h0 12
    ksts ha h0 16
    ksts ha h0 20
    ksts ha h0 24
    ksts ha h0 28
    ksts ha h0 32
    ksts ha h0 36
    ksts ha h0 40
    ksts ha h0 44
    ksts ha h0 48
    ksts ha h0 52
    ksts ha h0 56
    ksts ha h0 60
    kend ha
  · rintro ⟨cp, xp, op, out⟩ ⟨rfl, rfl, rfl, ha⟩
    refine ⟨by simp; omega, ?_⟩
    simp only
    obtain ⟨K, hK⟩ : ∃ K, K = m * 8 := ⟨_, rfl⟩
    rw [← hK] at ha ⊢
    apply Ok.bind
    apply Ok.whileM (fun i s => s.1 = (K + i) * 4 ∧ s.2.1 = n * 4 + (K + i) * 4 ∧
      s.2.2.1 = (K + i) * 8 ∧ Agree (DoneU n 8 (K + i)) T s.2.2.2) (n - K) (by omega)
    · exact ⟨rfl, rfl, rfl, ha⟩
    · rintro i ⟨cp, xp, op, out⟩ hi ⟨rfl, rfl, rfl, ha⟩
      refine ⟨by simp; omega, ?_⟩
      kblk h0 (K + i) 1 tail hl hg hT
      simp only [widths, chunkFields, Nat.zero_add, ← Nat.mul_add, Nat.reduceAdd] at h0
      klds (n * 4 + (K + i) * 4) 0
      klds ((K + i) * 4) 0
      ksts ha h0 0
      ksts ha h0 4
      kend ha
    · rintro ⟨cp, xp, op, out⟩ ⟨rfl, rfl, rfl, ha⟩
      refine ⟨by simp; omega, Ok.pure ?_⟩
      rw [show K + (n - K) = n by omega] at ha
      exact ha

end Dlt.Bc1
