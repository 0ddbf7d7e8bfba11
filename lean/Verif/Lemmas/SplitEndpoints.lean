import Verif.Model.SplitEndpoints
import Verif.Lemmas.Tactic
import Verif.Lemmas.Layout
/-! The implementations of `split_color_endpoints` all produce the two columns. -/

set_option linter.unusedSimpArgs false

namespace Dlt.Split
open Spec

/-- The two fields of a four-byte pair of colours. -/
def pairFields : List (Buf → Buf) := [fun b => slice b 0 2, fun b => slice b 2 2]

theorem fits : Fits 4 pairFields [2, 2] :=
  ⟨fun b hb => slice_length_of_le (by omega), fun b hb => slice_length_of_le (by omega), trivial⟩

theorem getFirst_of32 (e : Endian) (a b c d : Byte) :
    getFirst e (of32 e [a, b, c, d]) = of16 e [a, b] := by
  cases e
  · exact of32_little_lo a b c d
  · exact of32_big_hi a b c d

theorem getSecond_of32 (e : Endian) (a b c d : Byte) :
    getSecond e (of32 e [a, b, c, d]) = of16 e [c, d] := by
  cases e
  · exact of32_little_hi a b c d
  · exact of32_big_lo a b c d

theorem portablePtrs_ok (e : Endian) {inp : Buf} {n k : Nat} {T out tail : Buf}
    (hd : inp.length = n * 4) (hT : T = columns 4 pairFields inp ++ tail)
    (ho : Agree (DoneT n [2, 2] k) T out) (hk : k ≤ n) :
    Ok (portablePtrs e inp (n * 4) (k * 4) out (k * 2) (n * 2 + k * 2)) (Agree (DoneT n [2, 2] n) T) := by
  have hf := fits
  have hTl : n * 4 ≤ T.length := by
    rw [hT, List.length_append, columns_length (by omega) hd hf]; simp
  unfold portablePtrs
  apply Ok.bind
  apply Ok.whileM (fun i s => s.1 = (k + i) * 4 ∧ s.2.1 = (k + i) * 2 ∧
    s.2.2.1 = n * 2 + (k + i) * 2 ∧ Agree (DoneT n [2, 2] (k + i)) T s.2.2.2) (n - k) (by omega)
  · exact ⟨rfl, rfl, rfl, ho⟩
  · rintro i ⟨ip, p0, p1, out⟩ hi ⟨rfl, rfl, rfl, ha⟩
    refine ⟨by simp; omega, ?_⟩
    ksec h0 0 (k + i) 1 hd tail hf hT
    ksec h1 1 (k + i) 1 hd tail hf hT
    kld
    kst ha h0 0
    · rw [getFirst_of32]; kbytes e
    kst ha h1 0
    · rw [getSecond_of32]; kbytes e
    kend ha
  · rintro ⟨ip, p0, p1, out⟩ ⟨rfl, rfl, rfl, ha⟩
    refine ⟨by simp; omega, Ok.pure ?_⟩
    rw [show k + (n - k) = n by omega] at ha
    exact ha

theorem sse2_ok {inp : Buf} {n : Nat} {T out tail : Buf}
    (hd : inp.length = n * 4) (hT : T = columns 4 pairFields inp ++ tail)
    (ho : Agree (DoneT n [2, 2] 0) T out) :
    Ok (sse2 inp out (n * 4)) (Agree (DoneT n [2, 2] n) T) := by
  have hf := fits
  have hTl : n * 4 ≤ T.length := by
    rw [hT, List.length_append, columns_length (by omega) hd hf]; simp
  unfold sse2
  apply Ok.bind
  apply Ok.asm (fun j s => s.1 = j * 16 * 4 ∧ s.2.1 = j * 16 * 2 ∧ s.2.2.1 = n * 2 + j * 16 * 2 ∧ Agree (DoneT n [2, 2] (j * 16)) T s.2.2.2) ((n - 1) / 16) (by omega) (by omega)
  · exact ⟨by simp, by simp, by simp; omega, by simpa using ho⟩
  · rintro i ⟨ip, lo, hi, out⟩ hi ⟨rfl, rfl, rfl, ha⟩
    ksec h0 0 (i * 16) 16 hd tail hf hT
    ksec h1 1 (i * 16) 16 hd tail hf hT
    kldv (i * 16 * 4) 0
    kldv (i * 16 * 4) 16
    kldv (i * 16 * 4) 48
    kldv (i * 16 * 4) 32
    kstv ha h0 0 16
    kstv ha h0 16 16
    kstv ha h1 0 16
    kstv ha h1 16 16
    kend ha
  · rintro i ⟨ip, lo, hi, out⟩ hi ⟨rfl, rfl, rfl, ha⟩ _
    simp; omega
  · rintro ⟨ip, lo, hi, out⟩ hm ⟨rfl, rfl, rfl, ha⟩
    simp; omega
  · rintro ⟨ip, lo, hi, out⟩ ⟨rfl, rfl, rfl, ha⟩
    exact portablePtrs_ok .little hd hT ha (by omega)

theorem avx2_ok {inp : Buf} {n : Nat} {T out tail : Buf}
    (hd : inp.length = n * 4) (hT : T = columns 4 pairFields inp ++ tail)
    (ho : Agree (DoneT n [2, 2] 0) T out) :
    Ok (avx2 inp out (n * 4)) (Agree (DoneT n [2, 2] n) T) := by
  have hf := fits
  have hTl : n * 4 ≤ T.length := by
    rw [hT, List.length_append, columns_length (by omega) hd hf]; simp
  unfold avx2
  apply Ok.bind
  apply Ok.asm (fun j s => s.1 = j * 16 * 4 ∧ s.2.1 = j * 16 * 2 ∧ s.2.2.1 = n * 2 + j * 16 * 2 ∧ Agree (DoneT n [2, 2] (j * 16)) T s.2.2.2) ((n - 1) / 16) (by omega) (by omega)
  · exact ⟨by simp, by simp, by simp; omega, by simpa using ho⟩
  · rintro i ⟨ip, lo, hi, out⟩ hi ⟨rfl, rfl, rfl, ha⟩
    ksec h0 0 (i * 16) 16 hd tail hf hT
    ksec h1 1 (i * 16) 16 hd tail hf hT
    kldv (i * 16 * 4) 0
    kldv (i * 16 * 4) 32
    kstv ha h0 0 32
    kstv ha h1 0 32
    kend ha
  · rintro i ⟨ip, lo, hi, out⟩ hi ⟨rfl, rfl, rfl, ha⟩ _
    simp; omega
  · rintro ⟨ip, lo, hi, out⟩ hm ⟨rfl, rfl, rfl, ha⟩
    simp; omega
  · rintro ⟨ip, lo, hi, out⟩ ⟨rfl, rfl, rfl, ha⟩
    exact portablePtrs_ok .little hd hT ha (by omega)

theorem avx512_ok {inp : Buf} {n : Nat} {T out tail : Buf}
    (hd : inp.length = n * 4) (hT : T = columns 4 pairFields inp ++ tail)
    (ho : Agree (DoneT n [2, 2] 0) T out) :
    Ok (avx512 inp out (n * 4)) (Agree (DoneT n [2, 2] n) T) := by
  have hf := fits
  have hTl : n * 4 ≤ T.length := by
    rw [hT, List.length_append, columns_length (by omega) hd hf]; simp
  unfold avx512
  apply Ok.bind
  apply Ok.whileM (fun j s => s.1 = j * 32 * 4 ∧ s.2.1 = j * 32 * 2 ∧ s.2.2.1 = n * 2 + j * 32 * 2 ∧ Agree (DoneT n [2, 2] (j * 32)) T s.2.2.2) (n / 32) (by omega)
  · exact ⟨by simp, by simp, by simp; omega, by simpa using ho⟩
  · rintro i ⟨ip, lo, hi, out⟩ hi ⟨rfl, rfl, rfl, ha⟩
    refine ⟨by simp; omega, ?_⟩
    ksec h0 0 (i * 32) 32 hd tail hf hT
    ksec h1 1 (i * 32) 32 hd tail hf hT
    kldv (i * 32 * 4) 0
    kldv (i * 32 * 4) 64
    kstv ha h0 0 64
    kstv ha h1 0 64
    kend ha
  · rintro ⟨ip, lo, hi, out⟩ ⟨rfl, rfl, rfl, ha⟩
    refine ⟨by simp; omega, ?_⟩
    exact portablePtrs_ok .little hd hT ha (by omega)

theorem split_eq (m : Machine) {inp out : Buf} {n : Nat} (hd : inp.length = n * 4)
    (ho : n * 4 ≤ out.length) :
    splitColorEndpoints m inp out (n * 4) = some (columns 4 pairFields inp ++ out.drop (n * 4)) := by
  have h0 := agree_startT (n := n) (ws := [2, 2]) (C := columns 4 pairFields inp) (out := out)
    (columns_length (by omega) hd fits) (by simpa using ho)
  have hp : ∀ e, Ok (portable e inp out (n * 4))
      (Agree (DoneT n [2, 2] n) (columns 4 pairFields inp ++ out.drop (n * 4))) := fun e => by
    have := portablePtrs_ok e hd rfl h0 (Nat.zero_le _)
    unfold portable
    rw [show n * 4 / 2 = n * 2 by omega]
    simpa using this
  cases m with
  | x86 f =>
    unfold splitColorEndpoints
    dsimp only
    split
    · exact ok_endT (avx512_ok hd rfl h0)
    split
    · exact ok_endT (avx2_ok hd rfl h0)
    split
    · exact ok_endT (sse2_ok hd rfl h0)
    · exact ok_endT (hp _)
  | other e fr => exact ok_endT (hp e)

end Dlt.Split
