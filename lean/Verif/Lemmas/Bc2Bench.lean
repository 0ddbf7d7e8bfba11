import Verif.Model.Bc2Bench
import Verif.Lemmas.Bc2Simd
import Verif.Lemmas.Bc3Bytes
import Verif.Lemmas.Words
/-! The benchmark kernels of BC2 produce the layout of the production kernels. -/

set_option linter.unusedSimpArgs false

namespace Dlt.Bc2
open Spec

/-- Step over one scalar store whose bytes are a word loaded before. -/
local macro "ksts " ha:ident hD:ident o:term:max : tactic => `(tactic|
  (kst $ha $hD $o
   · simp only [to16_of16, to32_of32, to64_of64]
     krfl))

/-- Step over a 64-byte store of which only the lower half stays. -/
local macro "kstG " ha:ident hD:ident : tactic => `(tactic|
  (apply Ok.bind
   refine Agree.stG $ha $hD (o := 0) (g := 32) (L := 64) (by omega) rfl (by krfl) (by omega)
     (by omega) ?_ (by krfl) ?_
   · intro x hx
     simp only [DoneT, doneCols, List.sum_cons, List.sum_nil, or_false, Nat.reduceAdd,
       Nat.zero_add, Nat.add_zero] at hx
     omega
   clear $ha
   intro out $ha))

theorem benchShuffleV1_ok {inp : Buf} {n : Nat} {T out tail : Buf}
    (hd : inp.length = n * 16) (hT : T = columns 16 (bc2Fields id false) inp ++ tail)
    (ho : Agree (DoneT n [8, 4, 4] 0) T out) :
    Ok (benchShuffleV1 inp out (n * 16)) (Agree (DoneT n [8, 4, 4] n) T) := by
  have hf := fits_std (col := id) (fun _ h => h)
  have hTl : n * 16 ≤ T.length := by
    rw [hT, List.length_append, columns_length (by omega) hd hf]; simp
  unfold benchShuffleV1
  apply Ok.bind
  apply Ok.asm (fun j s => s.1 = j * 2 * 16 ∧ s.2.1 = j * 2 * 8 ∧ s.2.2.1 = n * 8 + j * 2 * 4 ∧
    s.2.2.2.1 = n * 12 + j * 2 * 4 ∧ Agree (DoneT n [8, 4, 4] (j * 2)) T s.2.2.2.2) (n / 2) (by omega) (by omega)
  · exact ⟨by simp, by simp, by simp; omega, by simp; omega, by simpa using ho⟩
  · rintro i ⟨ip, ap, cp, xp, out⟩ hi ⟨rfl, rfl, rfl, rfl, ha⟩
    ksec h0 0 (i * 2) 2 hd tail hf hT
    ksec h1 1 (i * 2) 2 hd tail hf hT
    ksec h2 2 (i * 2) 2 hd tail hf hT
    kldv (i * 2 * 16) 0
    kldv (i * 2 * 16) 16
    kstv ha h0 0 16
    kstv ha h1 0 8
    kstv ha h2 0 8
    kend ha
  · rintro i ⟨ip, ap, cp, xp, out⟩ hi ⟨rfl, rfl, rfl, rfl, ha⟩ _
    simp; omega
  · rintro ⟨ip, ap, cp, xp, out⟩ hm ⟨rfl, rfl, rfl, rfl, ha⟩
    simp; omega
  · rintro ⟨ip, ap, cp, xp, out⟩ ⟨rfl, rfl, rfl, rfl, ha⟩
    have := transformPtrs_ok .little hd hT ha (by omega)
    simp only
    rw [show n * 16 - (n * 16 - n * 16 % 32) = (n - n / 2 * 2) * 16 by omega]
    exact this

theorem benchShuffleV1x2_ok {inp : Buf} {n : Nat} {T out tail : Buf}
    (hd : inp.length = n * 16) (hT : T = columns 16 (bc2Fields id false) inp ++ tail)
    (ho : Agree (DoneT n [8, 4, 4] 0) T out) :
    Ok (benchShuffleV1x2 inp out (n * 16)) (Agree (DoneT n [8, 4, 4] n) T) := by
  have hf := fits_std (col := id) (fun _ h => h)
  have hTl : n * 16 ≤ T.length := by
    rw [hT, List.length_append, columns_length (by omega) hd hf]; simp
  unfold benchShuffleV1x2
  apply Ok.bind
  apply Ok.asm (fun j s => s.1 = j * 4 * 16 ∧ s.2.1 = j * 4 * 8 ∧ s.2.2.1 = n * 8 + j * 4 * 4 ∧
    s.2.2.2.1 = n * 12 + j * 4 * 4 ∧ Agree (DoneT n [8, 4, 4] (j * 4)) T s.2.2.2.2) (n / 4) (by omega) (by omega)
  · exact ⟨by simp, by simp, by simp; omega, by simp; omega, by simpa using ho⟩
  · rintro i ⟨ip, ap, cp, xp, out⟩ hi ⟨rfl, rfl, rfl, rfl, ha⟩
    ksec h0 0 (i * 4) 4 hd tail hf hT
    ksec h1 1 (i * 4) 4 hd tail hf hT
    ksec h2 2 (i * 4) 4 hd tail hf hT
    kldv (i * 4 * 16) 0
    kldv (i * 4 * 16) 16
    kldv (i * 4 * 16) 32
    kldv (i * 4 * 16) 48
    kstv ha h0 0 16
    kstv ha h0 16 16
    kstv ha h1 0 8
    kstv ha h1 8 8
    kstv ha h2 0 8
    kstv ha h2 8 8
    kend ha
  · rintro i ⟨ip, ap, cp, xp, out⟩ hi ⟨rfl, rfl, rfl, rfl, ha⟩ _
    simp; omega
  · rintro ⟨ip, ap, cp, xp, out⟩ hm ⟨rfl, rfl, rfl, rfl, ha⟩
    simp; omega
  · rintro ⟨ip, ap, cp, xp, out⟩ ⟨rfl, rfl, rfl, rfl, ha⟩
    have := transformPtrs_ok .little hd hT ha (by omega)
    simp only
    rw [show n * 16 - (n * 16 - n * 16 % 64) = (n - n / 4 * 4) * 16 by omega]
    exact this

theorem benchU32x2_ok (e : Endian) {inp : Buf} {n : Nat} {T out tail : Buf}
    (hd : inp.length = n * 16) (hT : T = columns 16 (bc2Fields id false) inp ++ tail)
    (ho : Agree (DoneT n [8, 4, 4] 0) T out) :
    Ok (benchU32x2 e inp out (n * 16)) (Agree (DoneT n [8, 4, 4] n) T) := by
  have hf := fits_std (col := id) (fun _ h => h)
  have hTl : n * 16 ≤ T.length := by
    rw [hT, List.length_append, columns_length (by omega) hd hf]; simp
  unfold benchU32x2
  obtain ⟨m, hm⟩ : ∃ m, m = (n - 1) / 2 := ⟨_, rfl⟩
  apply Ok.bind
  apply Ok.whileM (fun j s => s.1 = j * 2 * 16 ∧ s.2.1 = j * 2 * 8 ∧ s.2.2.1 = n * 8 + j * 2 * 4 ∧
    s.2.2.2.1 = n * 12 + j * 2 * 4 ∧ Agree (DoneT n [8, 4, 4] (j * 2)) T s.2.2.2.2) m (by omega)
  · exact ⟨by simp, by simp, by simp; omega, by simp; omega, by simpa using ho⟩
  · rintro i ⟨ip, ap, cp, xp, out⟩ hi ⟨rfl, rfl, rfl, rfl, ha⟩
    refine ⟨by simp; omega, ?_⟩
    ksec h0 0 (i * 2) 2 hd tail hf hT
    ksec h1 1 (i * 2) 2 hd tail hf hT
    ksec h2 2 (i * 2) 2 hd tail hf hT
    klds (i * 2 * 16) 0
    klds (i * 2 * 16) 8
    klds (i * 2 * 16) 12
    klds (i * 2 * 16) 16
    klds (i * 2 * 16) 24
    klds (i * 2 * 16) 28
    ksts ha h0 0
    ksts ha h1 0
    ksts ha h2 0
    ksts ha h0 8
    ksts ha h1 4
    ksts ha h2 4
    kend ha
  · rintro ⟨ip, ap, cp, xp, out⟩ ⟨rfl, rfl, rfl, rfl, ha⟩
    refine ⟨by simp; omega, ?_⟩
    simp only
    obtain ⟨K, hK⟩ : ∃ K, K = m * 2 := ⟨_, rfl⟩
    rw [← hK] at ha ⊢
    apply Ok.bind
    apply Ok.whileM (fun j s => s.1 = (K + j) * 16 ∧ s.2.1 = (K + j) * 8 ∧ s.2.2.1 = n * 8 + (K + j) * 4 ∧
    s.2.2.2.1 = n * 12 + (K + j) * 4 ∧ Agree (DoneT n [8, 4, 4] ((K + j))) T s.2.2.2.2) (n - K) (by omega)
    · exact ⟨rfl, rfl, rfl, rfl, ha⟩
    · rintro i ⟨ip, ap, cp, xp, out⟩ hi ⟨rfl, rfl, rfl, rfl, ha⟩
      refine ⟨by simp; omega, ?_⟩
      ksec h0 0 (K + i) 1 hd tail hf hT
      ksec h1 1 (K + i) 1 hd tail hf hT
      ksec h2 2 (K + i) 1 hd tail hf hT
      klds ((K + i) * 16) 0
      klds ((K + i) * 16) 8
      klds ((K + i) * 16) 12
      ksts ha h0 0
      ksts ha h1 0
      ksts ha h2 0
      kend ha
    · rintro ⟨ip, ap, cp, xp, out⟩ ⟨rfl, rfl, rfl, rfl, ha⟩
      refine ⟨by simp; omega, Ok.pure ?_⟩
      rw [show K + (n - K) = n by omega] at ha
      exact ha

theorem benchU32x4_ok (e : Endian) {inp : Buf} {n : Nat} {T out tail : Buf}
    (hd : inp.length = n * 16) (hT : T = columns 16 (bc2Fields id false) inp ++ tail)
    (ho : Agree (DoneT n [8, 4, 4] 0) T out) :
    Ok (benchU32x4 e inp out (n * 16)) (Agree (DoneT n [8, 4, 4] n) T) := by
  have hf := fits_std (col := id) (fun _ h => h)
  have hTl : n * 16 ≤ T.length := by
    rw [hT, List.length_append, columns_length (by omega) hd hf]; simp
  unfold benchU32x4
  obtain ⟨m, hm⟩ : ∃ m, m = (n - 1) / 4 := ⟨_, rfl⟩
  apply Ok.bind
  apply Ok.whileM (fun j s => s.1 = j * 4 * 16 ∧ s.2.1 = j * 4 * 8 ∧ s.2.2.1 = n * 8 + j * 4 * 4 ∧
    s.2.2.2.1 = n * 12 + j * 4 * 4 ∧ Agree (DoneT n [8, 4, 4] (j * 4)) T s.2.2.2.2) m (by omega)
  · exact ⟨by simp, by simp, by simp; omega, by simp; omega, by simpa using ho⟩
  · rintro i ⟨ip, ap, cp, xp, out⟩ hi ⟨rfl, rfl, rfl, rfl, ha⟩
    refine ⟨by simp; omega, ?_⟩
    ksec h0 0 (i * 4) 4 hd tail hf hT
    ksec h1 1 (i * 4) 4 hd tail hf hT
    ksec h2 2 (i * 4) 4 hd tail hf hT
    klds (i * 4 * 16) 0
    klds (i * 4 * 16) 8
    klds (i * 4 * 16) 12
    klds (i * 4 * 16) 16
    klds (i * 4 * 16) 24
    klds (i * 4 * 16) 28
    klds (i * 4 * 16) 32
    klds (i * 4 * 16) 40
    klds (i * 4 * 16) 44
    klds (i * 4 * 16) 48
    klds (i * 4 * 16) 56
    klds (i * 4 * 16) 60
    ksts ha h0 0
    ksts ha h1 0
    ksts ha h2 0
    ksts ha h0 8
    ksts ha h1 4
    ksts ha h2 4
    ksts ha h0 16
    ksts ha h1 8
    ksts ha h2 8
    ksts ha h0 24
    ksts ha h1 12
    ksts ha h2 12
    kend ha
  · rintro ⟨ip, ap, cp, xp, out⟩ ⟨rfl, rfl, rfl, rfl, ha⟩
    refine ⟨by simp; omega, ?_⟩
    simp only
    obtain ⟨K, hK⟩ : ∃ K, K = m * 4 := ⟨_, rfl⟩
    rw [← hK] at ha ⊢
    apply Ok.bind
    apply Ok.whileM (fun j s => s.1 = (K + j) * 16 ∧ s.2.1 = (K + j) * 8 ∧ s.2.2.1 = n * 8 + (K + j) * 4 ∧
    s.2.2.2.1 = n * 12 + (K + j) * 4 ∧ Agree (DoneT n [8, 4, 4] ((K + j))) T s.2.2.2.2) (n - K) (by omega)
    · exact ⟨rfl, rfl, rfl, rfl, ha⟩
    · rintro i ⟨ip, ap, cp, xp, out⟩ hi ⟨rfl, rfl, rfl, rfl, ha⟩
      refine ⟨by simp; omega, ?_⟩
      ksec h0 0 (K + i) 1 hd tail hf hT
      ksec h1 1 (K + i) 1 hd tail hf hT
      ksec h2 2 (K + i) 1 hd tail hf hT
      klds ((K + i) * 16) 0
      klds ((K + i) * 16) 8
      klds ((K + i) * 16) 12
      ksts ha h0 0
      ksts ha h1 0
      ksts ha h2 0
      kend ha
    · rintro ⟨ip, ap, cp, xp, out⟩ ⟨rfl, rfl, rfl, rfl, ha⟩
      refine ⟨by simp; omega, Ok.pure ?_⟩
      rw [show K + (n - K) = n by omega] at ha
      exact ha

theorem benchPermute512_ok {inp : Buf} {n : Nat} {T out tail : Buf}
    (hd : inp.length = n * 16) (hT : T = columns 16 (bc2Fields id false) inp ++ tail)
    (ho : Agree (DoneT n [8, 4, 4] 0) T out) :
    Ok (benchPermute512 inp out (n * 16)) (Agree (DoneT n [8, 4, 4] n) T) := by
  have hf := fits_std (col := id) (fun _ h => h)
  have hTl : n * 16 ≤ T.length := by
    rw [hT, List.length_append, columns_length (by omega) hd hf]; simp
  unfold benchPermute512
  obtain ⟨m, hm⟩ : ∃ m, m = n / 8 - 1 := ⟨_, rfl⟩
  apply Ok.bind
  apply Ok.asm (fun j s => s.1 = j * 8 * 16 ∧ s.2.1 = j * 8 * 8 ∧ s.2.2.1 = n * 8 + j * 8 * 4 ∧
    s.2.2.2.1 = n * 12 + j * 8 * 4 ∧ Agree (DoneT n [8, 4, 4] (j * 8)) T s.2.2.2.2) m (by omega) (by omega)
  · exact ⟨by simp, by simp, by simp; omega, by simp; omega, by simpa using ho⟩
  · rintro i ⟨ip, ap, cp, xp, out⟩ hi ⟨rfl, rfl, rfl, rfl, ha⟩
    ksec h0 0 (i * 8) 8 hd tail hf hT
    ksec h1 1 (i * 8) 8 hd tail hf hT
    ksec h2 2 (i * 8) 8 hd tail hf hT
    kldv (i * 8 * 16) 0
    kldv (i * 8 * 16) 64
    kstv ha h0 0 64
    kstG ha h1
    kstG ha h2
    kend ha
  · rintro i ⟨ip, ap, cp, xp, out⟩ hi ⟨rfl, rfl, rfl, rfl, ha⟩ _
    simp; omega
  · rintro ⟨ip, ap, cp, xp, out⟩ hm ⟨rfl, rfl, rfl, rfl, ha⟩
    simp; omega
  · rintro ⟨ip, ap, cp, xp, out⟩ ⟨rfl, rfl, rfl, rfl, ha⟩
    have := transformPtrs_ok .little hd hT ha (by omega)
    simp only
    rw [show n * 16 - (n * 16 - n * 16 % 128 - 32 * 4) = (n - m * 8) * 16 by omega]
    exact this

theorem benchPermute512Intrinsics_ok {inp : Buf} {n : Nat} {T out tail : Buf}
    (hd : inp.length = n * 16) (hT : T = columns 16 (bc2Fields id false) inp ++ tail)
    (ho : Agree (DoneT n [8, 4, 4] 0) T out) :
    Ok (benchPermute512Intrinsics inp out (n * 16)) (Agree (DoneT n [8, 4, 4] n) T) := by
  have hf := fits_std (col := id) (fun _ h => h)
  have hTl : n * 16 ≤ T.length := by
    rw [hT, List.length_append, columns_length (by omega) hd hf]; simp
  unfold benchPermute512Intrinsics
  obtain ⟨m, hm⟩ : ∃ m, m = n / 8 - 1 := ⟨_, rfl⟩
  apply Ok.bind
  apply Ok.whileM (fun j s => s.1 = j * 8 * 16 ∧ s.2.1 = j * 8 * 8 ∧ s.2.2.1 = n * 8 + j * 8 * 4 ∧
    s.2.2.2.1 = n * 12 + j * 8 * 4 ∧ Agree (DoneT n [8, 4, 4] (j * 8)) T s.2.2.2.2) m (by omega)
  · exact ⟨by simp, by simp, by simp; omega, by simp; omega, by simpa using ho⟩
  · rintro i ⟨ip, ap, cp, xp, out⟩ hi ⟨rfl, rfl, rfl, rfl, ha⟩
    refine ⟨by simp; omega, ?_⟩
    ksec h0 0 (i * 8) 8 hd tail hf hT
    ksec h1 1 (i * 8) 8 hd tail hf hT
    ksec h2 2 (i * 8) 8 hd tail hf hT
    kldv (i * 8 * 16) 0
    kldv (i * 8 * 16) 64
    kstv ha h0 0 64
    kstG ha h1
    kstG ha h2
    kend ha
  · rintro ⟨ip, ap, cp, xp, out⟩ ⟨rfl, rfl, rfl, rfl, ha⟩
    refine ⟨by simp; omega, ?_⟩
    have := transformPtrs_ok .little hd hT ha (by omega)
    simp only
    rw [show n * 16 - (n * 16 - n * 16 % 128 - 32 * 4) = (n - m * 8) * 16 by omega]
    exact this

end Dlt.Bc2
