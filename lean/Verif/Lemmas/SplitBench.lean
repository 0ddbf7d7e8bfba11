import Verif.Model.SplitBench
import Verif.Lemmas.SplitEndpoints
import Verif.Lemmas.Words
import Verif.Lemmas.Embed
/-! The benchmark kernels of `split_color_endpoints` produce the two columns. -/

set_option linter.unusedSimpArgs false

namespace Dlt
theorem to64_big_rev (w : U64) : to64 .big w = (to64 .little w).reverse := rfl
end Dlt

namespace Dlt.Split
open Spec

theorem quarter (e : Endian) (a b c d f g h i : Byte) :
    getFirst64 e (of64 e [a, b, c, d, f, g, h, i]) = of16 e [a, b] ∧
    getSecond64 e (of64 e [a, b, c, d, f, g, h, i]) = of16 e [c, d] ∧
    getThird64 e (of64 e [a, b, c, d, f, g, h, i]) = of16 e [f, g] ∧
    getFourth64 e (of64 e [a, b, c, d, f, g, h, i]) = of16 e [h, i] := by
  have key : ∀ (w : U16) (l : Buf), to16 e w = l → w = of16 e l := by
    rintro w l rfl; rw [of16_to16]
  have s0 : ∀ a b c d f g h i : Byte,
      to16 .little ((of64 .little [a, b, c, d, f, g, h, i]).setWidth 16) = [a, b] := by
    intro a b c d f g h i; simpa using to16_shift64 a b c d f g h i 0 (by omega)
  have s1 : ∀ a b c d f g h i : Byte,
      to16 .little ((of64 .little [a, b, c, d, f, g, h, i] >>> 16).setWidth 16) = [c, d] := by
    intro a b c d f g h i; simpa using to16_shift64 a b c d f g h i 2 (by omega)
  have s2 : ∀ a b c d f g h i : Byte,
      to16 .little ((of64 .little [a, b, c, d, f, g, h, i] >>> 32).setWidth 16) = [f, g] := by
    intro a b c d f g h i; simpa using to16_shift64 a b c d f g h i 4 (by omega)
  have s3 : ∀ a b c d f g h i : Byte,
      to16 .little ((of64 .little [a, b, c, d, f, g, h, i] >>> 48).setWidth 16) = [h, i] := by
    intro a b c d f g h i; simpa using to16_shift64 a b c d f g h i 6 (by omega)
  cases e
  · exact ⟨key _ _ (s0 ..), key _ _ (s1 ..), key _ _ (s2 ..), key _ _ (s3 ..)⟩
  · refine ⟨key _ _ ?_, key _ _ ?_, key _ _ ?_, key _ _ ?_⟩
    · rw [of64_big_rev, to16_big_rev, getFirst64, s3]; rfl
    · rw [of64_big_rev, to16_big_rev, getSecond64, s2]; rfl
    · rw [of64_big_rev, to16_big_rev, getThird64, s1]; rfl
    · rw [of64_big_rev, to16_big_rev, getFourth64, s0]; rfl

theorem getFirst64_of64 (e : Endian) (a b c d f g h i : Byte) :
    getFirst64 e (of64 e [a, b, c, d, f, g, h, i]) = of16 e [a, b] := (quarter e a b c d f g h i).1
theorem getSecond64_of64 (e : Endian) (a b c d f g h i : Byte) :
    getSecond64 e (of64 e [a, b, c, d, f, g, h, i]) = of16 e [c, d] := (quarter e a b c d f g h i).2.1
theorem getThird64_of64 (e : Endian) (a b c d f g h i : Byte) :
    getThird64 e (of64 e [a, b, c, d, f, g, h, i]) = of16 e [f, g] := (quarter e a b c d f g h i).2.2.1
theorem getFourth64_of64 (e : Endian) (a b c d f g h i : Byte) :
    getFourth64 e (of64 e [a, b, c, d, f, g, h, i]) = of16 e [h, i] := (quarter e a b c d f g h i).2.2.2

theorem to64_combineQuad (e : Endian) (a b c d f g h i : Byte) :
    to64 e (combineQuad e (of16 e [a, b]) (of16 e [c, d]) (of16 e [f, g]) (of16 e [h, i])) =
      [a, b, c, d, f, g, h, i] := by
  cases e
  · exact to64_pack16 a b c d f g h i
  · have hp := to64_pack16 i h g f d c b a
    have hc : ∀ w x y z : U16, combineQuad .big w x y z =
        z.zeroExtend 64 ||| (y.zeroExtend 64 <<< 16) ||| (x.zeroExtend 64 <<< 32) ||| (w.zeroExtend 64 <<< 48) := by
      intro w x y z
      show ((w.zeroExtend 64 <<< 48) ||| (x.zeroExtend 64 <<< 32)) ||| (y.zeroExtend 64 <<< 16) ||| z.zeroExtend 64 = _
      rw [BitVec.or_comm _ (z.zeroExtend 64), BitVec.or_comm _ (y.zeroExtend 64 <<< 16),
        BitVec.or_comm (w.zeroExtend 64 <<< 48), ← BitVec.or_assoc, ← BitVec.or_assoc]
    rw [hc, to64_big_rev]
    exact congrArg List.reverse hp

theorem to32_combinePair (e : Endian) (a b c d : Byte) :
    to32 e (combinePair e (of16 e [a, b]) (of16 e [c, d])) = [a, b, c, d] := by
  have h := to32_onColourPair e id a b c d
  simp only [id, to16_of16, List.cons_append, List.nil_append] at h
  cases e
  · simpa only [combinePair, Bc1.onColourPair, of32_little_lo, of32_little_hi, id] using h
  · rw [show combinePair .big (of16 .big [a, b]) (of16 .big [c, d]) =
      (of16 .big [c, d]).zeroExtend 32 ||| ((of16 .big [a, b]).zeroExtend 32 <<< 16) from BitVec.or_comm _ _]
    simpa only [Bc1.onColourPair, of32_big_lo, of32_big_hi, id] using h

/-- Saturation does not change a sign-extended word. -/
theorem satI16_sshift (w : U32) : satI16 (w.sshiftRight 16) = (w >>> 16).setWidth 16 := by
  have h := BitVec.toInt_sshiftRight (x := w) (n := 16)
  have h1 := BitVec.toInt_lt (x := w)
  have h2 := BitVec.le_toInt (x := w)
  rw [Int.shiftRight_eq_div_pow] at h
  have g1 : ¬ (w.sshiftRight 16).toInt < -32768 := by rw [h]; simp at h1 h2 ⊢; omega
  have g2 : ¬ 32767 < (w.sshiftRight 16).toInt := by rw [h]; simp at h1 h2 ⊢; omega
  rw [satI16, if_neg g1, if_neg g2]
  apply BitVec.eq_of_getElem_eq
  intro i hi
  simp [BitVec.getLsbD_sshiftRight, show 16 + i < 32 by omega]
  omega

theorem to16_sat (a b c d : Byte) :
    to16 .little (satI16 ((of32 .little [a, b, c, d]).sshiftRight 16)) = [c, d] := by
  rw [satI16_sshift, of32_little_hi, to16_of16]

theorem of32_shl (a b c d : Byte) : of32 .little [a, b, c, d] <<< 16 = of32 .little [0, 0, a, b] := by
  apply BitVec.eq_of_toNat_eq
  rw [BitVec.toNat_shiftLeft, of32_little_toNat, of32_little_toNat, Nat.shiftLeft_eq]
  have := a.isLt; have := b.isLt
  simp
  omega

/-- Step over one scalar store of words put together from quarters of loaded words. -/
macro "ksts " ha:ident hD:ident o:term:max : tactic => `(tactic|
  (kst $ha $hD $o
   · simp only [getFirst64_of64, getSecond64_of64, getThird64_of64, getFourth64_of64, to64_combineQuad,
       to32_combinePair, to16_of16]
     krfl))

theorem dwords_eq (f : U32 → U32) (g : Nat → Byte) : dwords f (mk 16 g) =
    to32 .little (f (of32 .little [g 0, g 1, g 2, g 3])) ++ (to32 .little (f (of32 .little [g 4, g 5, g 6, g 7])) ++
    (to32 .little (f (of32 .little [g 8, g 9, g 10, g 11])) ++
    (to32 .little (f (of32 .little [g 12, g 13, g 14, g 15])) ++ []))) := rfl

theorem pack_dwords (x y z w : U32) :
    Simd.elem 8 (packssdw (to32 .little x ++ (to32 .little y ++ (to32 .little z ++ (to32 .little w ++ []))))
      (to32 .little x ++ (to32 .little y ++ (to32 .little z ++ (to32 .little w ++ []))))) 0 =
    to16 .little (satI16 x) ++ (to16 .little (satI16 y) ++ (to16 .little (satI16 z) ++ to16 .little (satI16 w))) := by
  have h : ∀ w : U32, of32 .little (to32 .little w) = w := Embed.of32_to32 .little
  show to16 .little (satI16 (of32 .little (to32 .little x))) ++ (to16 .little (satI16 (of32 .little (to32 .little y))) ++
    (to16 .little (satI16 (of32 .little (to32 .little z))) ++ to16 .little (satI16 (of32 .little (to32 .little w))))) = _
  rw [h, h, h, h]

theorem pack_high (g : Nat → Byte) :
    Simd.elem 8 (packssdw (psrad 16 (mk 16 g)) (psrad 16 (mk 16 g))) 0 =
      [g 2, g 3, g 6, g 7, g 10, g 11, g 14, g 15] := by
  rw [psrad, dwords_eq, pack_dwords, to16_sat, to16_sat, to16_sat, to16_sat]; rfl

theorem pslld_mk (g : Nat → Byte) : pslld 16 (mk 16 g) =
    mk 16 (fun i => if i % 4 < 2 then 0 else g (i - 2)) := by
  rw [pslld, dwords_eq, of32_shl, of32_shl, of32_shl, of32_shl, to32_of32, to32_of32, to32_of32, to32_of32]; rfl

theorem pack_low (g : Nat → Byte) :
    Simd.elem 8 (packssdw (psrad 16 (pslld 16 (mk 16 g))) (psrad 16 (pslld 16 (mk 16 g)))) 0 =
      [g 0, g 1, g 4, g 5, g 8, g 9, g 12, g 13] := by
  rw [pslld_mk, pack_high]; rfl

/-- Step over one store of packed words. -/
macro "kstp " ha:ident hD:ident o:term:max : tactic => `(tactic|
  (try simp only [pack_low, pack_high]
   kstv $ha $hD $o 8))

theorem benchU64_ok (e : Endian) {inp : Buf} {n : Nat} {T out tail : Buf}
    (hd : inp.length = n * 4) (hT : T = columns 4 pairFields inp ++ tail)
    (ho : Agree (DoneT n [2, 2] 0) T out) :
    Ok (benchU64 e inp out (n * 4)) (Agree (DoneT n [2, 2] n) T) := by
  have hf := fits
  have hTl : n * 4 ≤ T.length := by
    rw [hT, List.length_append, columns_length (by omega) hd hf]; simp
  unfold benchU64
  apply Ok.bind
  apply Ok.whileM (fun j s => s.1 = j * 2 * 4 ∧ s.2.1 = j * 2 * 2 ∧ s.2.2.1 = n * 2 + j * 2 * 2 ∧
    Agree (DoneT n [2, 2] (j * 2)) T s.2.2.2) ((n - 1) / 2) (by omega)
  · exact ⟨by simp, by simp, by simp; omega, by simpa using ho⟩
  · rintro i ⟨ip, lo, hi, out⟩ hi ⟨rfl, rfl, rfl, ha⟩
    refine ⟨by simp; omega, ?_⟩
    ksec h0 0 (i * 2) 2 hd tail hf hT
    ksec h1 1 (i * 2) 2 hd tail hf hT
    klds (i * 2 * 4) 0
    ksts ha h0 0
    ksts ha h1 0
    ksts ha h0 2
    ksts ha h1 2
    kend ha
  · rintro ⟨ip, lo, hi, out⟩ ⟨rfl, rfl, rfl, ha⟩
    refine ⟨by simp; omega, ?_⟩
    simp only
    split
    · exact portablePtrs_ok e hd hT ha (by omega)
    · rename_i hlt
      rw [show (n - 1) / 2 * 2 = n by omega] at ha
      exact Ok.pure ha

theorem benchU64x2_ok (e : Endian) {inp : Buf} {n : Nat} {T out tail : Buf}
    (hd : inp.length = n * 4) (hT : T = columns 4 pairFields inp ++ tail)
    (ho : Agree (DoneT n [2, 2] 0) T out) :
    Ok (benchU64x2 e inp out (n * 4)) (Agree (DoneT n [2, 2] n) T) := by
  have hf := fits
  have hTl : n * 4 ≤ T.length := by
    rw [hT, List.length_append, columns_length (by omega) hd hf]; simp
  unfold benchU64x2
  apply Ok.bind
  apply Ok.whileM (fun j s => s.1 = j * 4 * 4 ∧ s.2.1 = j * 4 * 2 ∧ s.2.2.1 = n * 2 + j * 4 * 2 ∧
    Agree (DoneT n [2, 2] (j * 4)) T s.2.2.2) ((n - 1) / 4) (by omega)
  · exact ⟨by simp, by simp, by simp; omega, by simpa using ho⟩
  · rintro i ⟨ip, lo, hi, out⟩ hi ⟨rfl, rfl, rfl, ha⟩
    refine ⟨by simp; omega, ?_⟩
    ksec h0 0 (i * 4) 4 hd tail hf hT
    ksec h1 1 (i * 4) 4 hd tail hf hT
    klds (i * 4 * 4) 0
    klds (i * 4 * 4) 8
    ksts ha h0 0
    ksts ha h0 4
    ksts ha h1 0
    ksts ha h1 4
    ksts ha h0 2
    ksts ha h0 6
    ksts ha h1 2
    ksts ha h1 6
    kend ha
  · rintro ⟨ip, lo, hi, out⟩ ⟨rfl, rfl, rfl, ha⟩
    refine ⟨by simp; omega, ?_⟩
    simp only
    split
    · exact portablePtrs_ok e hd hT ha (by omega)
    · rename_i hlt
      rw [show (n - 1) / 4 * 4 = n by omega] at ha
      exact Ok.pure ha

theorem benchU64x4_ok (e : Endian) {inp : Buf} {n : Nat} {T out tail : Buf}
    (hd : inp.length = n * 4) (hT : T = columns 4 pairFields inp ++ tail)
    (ho : Agree (DoneT n [2, 2] 0) T out) :
    Ok (benchU64x4 e inp out (n * 4)) (Agree (DoneT n [2, 2] n) T) := by
  have hf := fits
  have hTl : n * 4 ≤ T.length := by
    rw [hT, List.length_append, columns_length (by omega) hd hf]; simp
  unfold benchU64x4
  apply Ok.bind
  apply Ok.whileM (fun j s => s.1 = j * 8 * 4 ∧ s.2.1 = j * 8 * 2 ∧ s.2.2.1 = n * 2 + j * 8 * 2 ∧
    Agree (DoneT n [2, 2] (j * 8)) T s.2.2.2) ((n - 1) / 8) (by omega)
  · exact ⟨by simp, by simp, by simp; omega, by simpa using ho⟩
  · rintro i ⟨ip, lo, hi, out⟩ hi ⟨rfl, rfl, rfl, ha⟩
    refine ⟨by simp; omega, ?_⟩
    ksec h0 0 (i * 8) 8 hd tail hf hT
    ksec h1 1 (i * 8) 8 hd tail hf hT
    klds (i * 8 * 4) 0
    klds (i * 8 * 4) 8
    klds (i * 8 * 4) 16
    klds (i * 8 * 4) 24
    ksts ha h0 0
    ksts ha h0 4
    ksts ha h0 8
    ksts ha h0 12
    ksts ha h1 0
    ksts ha h1 4
    ksts ha h1 8
    ksts ha h1 12
    ksts ha h0 2
    ksts ha h0 6
    ksts ha h0 10
    ksts ha h0 14
    ksts ha h1 2
    ksts ha h1 6
    ksts ha h1 10
    ksts ha h1 14
    kend ha
  · rintro ⟨ip, lo, hi, out⟩ ⟨rfl, rfl, rfl, ha⟩
    refine ⟨by simp; omega, ?_⟩
    simp only
    split
    · exact portablePtrs_ok e hd hT ha (by omega)
    · rename_i hlt
      rw [show (n - 1) / 8 * 8 = n by omega] at ha
      exact Ok.pure ha

theorem benchU64x8_ok (e : Endian) {inp : Buf} {n : Nat} {T out tail : Buf}
    (hd : inp.length = n * 4) (hT : T = columns 4 pairFields inp ++ tail)
    (ho : Agree (DoneT n [2, 2] 0) T out) :
    Ok (benchU64x8 e inp out (n * 4)) (Agree (DoneT n [2, 2] n) T) := by
  have hf := fits
  have hTl : n * 4 ≤ T.length := by
    rw [hT, List.length_append, columns_length (by omega) hd hf]; simp
  unfold benchU64x8
  apply Ok.bind
  apply Ok.whileM (fun j s => s.1 = j * 16 * 4 ∧ s.2.1 = j * 16 * 2 ∧ s.2.2.1 = n * 2 + j * 16 * 2 ∧
    Agree (DoneT n [2, 2] (j * 16)) T s.2.2.2) ((n - 1) / 16) (by omega)
  · exact ⟨by simp, by simp, by simp; omega, by simpa using ho⟩
  · rintro i ⟨ip, lo, hi, out⟩ hi ⟨rfl, rfl, rfl, ha⟩
    refine ⟨by simp; omega, ?_⟩
    ksec h0 0 (i * 16) 16 hd tail hf hT
    ksec h1 1 (i * 16) 16 hd tail hf hT
    klds (i * 16 * 4) 0
    klds (i * 16 * 4) 8
    klds (i * 16 * 4) 16
    klds (i * 16 * 4) 24
    klds (i * 16 * 4) 32
    klds (i * 16 * 4) 40
    klds (i * 16 * 4) 48
    klds (i * 16 * 4) 56
    ksts ha h0 0
    ksts ha h0 4
    ksts ha h0 8
    ksts ha h0 12
    ksts ha h0 16
    ksts ha h0 20
    ksts ha h0 24
    ksts ha h0 28
    ksts ha h1 0
    ksts ha h1 4
    ksts ha h1 8
    ksts ha h1 12
    ksts ha h1 16
    ksts ha h1 20
    ksts ha h1 24
    ksts ha h1 28
    ksts ha h0 2
    ksts ha h0 6
    ksts ha h0 10
    ksts ha h0 14
    ksts ha h0 18
    ksts ha h0 22
    ksts ha h0 26
    ksts ha h0 30
    ksts ha h1 2
    ksts ha h1 6
    ksts ha h1 10
    ksts ha h1 14
    ksts ha h1 18
    ksts ha h1 22
    ksts ha h1 26
    ksts ha h1 30
    kend ha
  · rintro ⟨ip, lo, hi, out⟩ ⟨rfl, rfl, rfl, ha⟩
    refine ⟨by simp; omega, ?_⟩
    simp only
    split
    · exact portablePtrs_ok e hd hT ha (by omega)
    · rename_i hlt
      rw [show (n - 1) / 16 * 16 = n by omega] at ha
      exact Ok.pure ha

theorem benchMix_ok (e : Endian) {inp : Buf} {n : Nat} {T out tail : Buf}
    (hd : inp.length = n * 4) (hT : T = columns 4 pairFields inp ++ tail)
    (ho : Agree (DoneT n [2, 2] 0) T out) :
    Ok (benchMix e inp out (n * 4)) (Agree (DoneT n [2, 2] n) T) := by
  have hf := fits
  have hTl : n * 4 ≤ T.length := by
    rw [hT, List.length_append, columns_length (by omega) hd hf]; simp
  unfold benchMix
  apply Ok.bind
  apply Ok.whileM (fun j s => s.1 = j * 2 * 4 ∧ s.2.1 = j * 2 * 2 ∧ s.2.2.1 = n * 2 + j * 2 * 2 ∧
    Agree (DoneT n [2, 2] (j * 2)) T s.2.2.2) ((n - 1) / 2) (by omega)
  · exact ⟨by simp, by simp, by simp; omega, by simpa using ho⟩
  · rintro i ⟨ip, lo, hi, out⟩ hi ⟨rfl, rfl, rfl, ha⟩
    refine ⟨by simp; omega, ?_⟩
    ksec h0 0 (i * 2) 2 hd tail hf hT
    ksec h1 1 (i * 2) 2 hd tail hf hT
    klds (i * 2 * 4) 0
    ksts ha h0 0
    ksts ha h1 0
    kend ha
  · rintro ⟨ip, lo, hi, out⟩ ⟨rfl, rfl, rfl, ha⟩
    refine ⟨by simp; omega, ?_⟩
    simp only
    split
    · exact portablePtrs_ok e hd hT ha (by omega)
    · rename_i hlt
      rw [show (n - 1) / 2 * 2 = n by omega] at ha
      exact Ok.pure ha

theorem benchMix2_ok (e : Endian) {inp : Buf} {n : Nat} {T out tail : Buf}
    (hd : inp.length = n * 4) (hT : T = columns 4 pairFields inp ++ tail)
    (ho : Agree (DoneT n [2, 2] 0) T out) :
    Ok (benchMix2 e inp out (n * 4)) (Agree (DoneT n [2, 2] n) T) := by
  have hf := fits
  have hTl : n * 4 ≤ T.length := by
    rw [hT, List.length_append, columns_length (by omega) hd hf]; simp
  unfold benchMix2
  apply Ok.bind
  apply Ok.whileM (fun j s => s.1 = j * 4 * 4 ∧ s.2.1 = j * 4 * 2 ∧ s.2.2.1 = n * 2 + j * 4 * 2 ∧
    Agree (DoneT n [2, 2] (j * 4)) T s.2.2.2) ((n - 1) / 4) (by omega)
  · exact ⟨by simp, by simp, by simp; omega, by simpa using ho⟩
  · rintro i ⟨ip, lo, hi, out⟩ hi ⟨rfl, rfl, rfl, ha⟩
    refine ⟨by simp; omega, ?_⟩
    ksec h0 0 (i * 4) 4 hd tail hf hT
    ksec h1 1 (i * 4) 4 hd tail hf hT
    klds (i * 4 * 4) 0
    klds (i * 4 * 4) 8
    ksts ha h0 0
    ksts ha h1 0
    kend ha
  · rintro ⟨ip, lo, hi, out⟩ ⟨rfl, rfl, rfl, ha⟩
    refine ⟨by simp; omega, ?_⟩
    simp only
    split
    · exact portablePtrs_ok e hd hT ha (by omega)
    · rename_i hlt
      rw [show (n - 1) / 4 * 4 = n by omega] at ha
      exact Ok.pure ha

theorem benchMix4_ok (e : Endian) {inp : Buf} {n : Nat} {T out tail : Buf}
    (hd : inp.length = n * 4) (hT : T = columns 4 pairFields inp ++ tail)
    (ho : Agree (DoneT n [2, 2] 0) T out) :
    Ok (benchMix4 e inp out (n * 4)) (Agree (DoneT n [2, 2] n) T) := by
  have hf := fits
  have hTl : n * 4 ≤ T.length := by
    rw [hT, List.length_append, columns_length (by omega) hd hf]; simp
  unfold benchMix4
  apply Ok.bind
  apply Ok.whileM (fun j s => s.1 = j * 8 * 4 ∧ s.2.1 = j * 8 * 2 ∧ s.2.2.1 = n * 2 + j * 8 * 2 ∧
    Agree (DoneT n [2, 2] (j * 8)) T s.2.2.2) ((n - 1) / 8) (by omega)
  · exact ⟨by simp, by simp, by simp; omega, by simpa using ho⟩
  · rintro i ⟨ip, lo, hi, out⟩ hi ⟨rfl, rfl, rfl, ha⟩
    refine ⟨by simp; omega, ?_⟩
    ksec h0 0 (i * 8) 8 hd tail hf hT
    ksec h1 1 (i * 8) 8 hd tail hf hT
    klds (i * 8 * 4) 0
    klds (i * 8 * 4) 8
    klds (i * 8 * 4) 16
    klds (i * 8 * 4) 24
    ksts ha h0 0
    ksts ha h0 8
    ksts ha h1 0
    ksts ha h1 8
    kend ha
  · rintro ⟨ip, lo, hi, out⟩ ⟨rfl, rfl, rfl, ha⟩
    refine ⟨by simp; omega, ?_⟩
    simp only
    split
    · exact portablePtrs_ok e hd hT ha (by omega)
    · rename_i hlt
      rw [show (n - 1) / 8 * 8 = n by omega] at ha
      exact Ok.pure ha

theorem benchMix8_ok (e : Endian) {inp : Buf} {n : Nat} {T out tail : Buf}
    (hd : inp.length = n * 4) (hT : T = columns 4 pairFields inp ++ tail)
    (ho : Agree (DoneT n [2, 2] 0) T out) :
    Ok (benchMix8 e inp out (n * 4)) (Agree (DoneT n [2, 2] n) T) := by
  have hf := fits
  have hTl : n * 4 ≤ T.length := by
    rw [hT, List.length_append, columns_length (by omega) hd hf]; simp
  unfold benchMix8
  apply Ok.bind
  apply Ok.whileM (fun j s => s.1 = j * 16 * 4 ∧ s.2.1 = j * 16 * 2 ∧ s.2.2.1 = n * 2 + j * 16 * 2 ∧
    Agree (DoneT n [2, 2] (j * 16)) T s.2.2.2) ((n - 1) / 16) (by omega)
  · exact ⟨by simp, by simp, by simp; omega, by simpa using ho⟩
  · rintro i ⟨ip, lo, hi, out⟩ hi ⟨rfl, rfl, rfl, ha⟩
    refine ⟨by simp; omega, ?_⟩
    ksec h0 0 (i * 16) 16 hd tail hf hT
    ksec h1 1 (i * 16) 16 hd tail hf hT
    klds (i * 16 * 4) 0
    klds (i * 16 * 4) 8
    klds (i * 16 * 4) 16
    klds (i * 16 * 4) 24
    klds (i * 16 * 4) 32
    klds (i * 16 * 4) 40
    klds (i * 16 * 4) 48
    klds (i * 16 * 4) 56
    ksts ha h0 0
    ksts ha h0 8
    ksts ha h0 16
    ksts ha h0 24
    ksts ha h1 0
    ksts ha h1 8
    ksts ha h1 16
    ksts ha h1 24
    kend ha
  · rintro ⟨ip, lo, hi, out⟩ ⟨rfl, rfl, rfl, ha⟩
    refine ⟨by simp; omega, ?_⟩
    simp only
    split
    · exact portablePtrs_ok e hd hT ha (by omega)
    · rename_i hlt
      rw [show (n - 1) / 16 * 16 = n by omega] at ha
      exact Ok.pure ha

theorem benchSse2Shift_ok {inp : Buf} {n : Nat} {T out tail : Buf}
    (hd : inp.length = n * 4) (hT : T = columns 4 pairFields inp ++ tail)
    (ho : Agree (DoneT n [2, 2] 0) T out) :
    Ok (benchSse2Shift inp out (n * 4)) (Agree (DoneT n [2, 2] n) T) := by
  have hf := fits
  have hTl : n * 4 ≤ T.length := by
    rw [hT, List.length_append, columns_length (by omega) hd hf]; simp
  unfold benchSse2Shift
  apply Ok.bind
  apply Ok.whileM (fun j s => s.1 = j * 4 * 4 ∧ s.2.1 = j * 4 * 2 ∧ s.2.2.1 = n * 2 + j * 4 * 2 ∧
    Agree (DoneT n [2, 2] (j * 4)) T s.2.2.2) ((n - 1) / 4) (by omega)
  · exact ⟨by simp, by simp, by simp; omega, by simpa using ho⟩
  · rintro i ⟨ip, lo, hi, out⟩ hi ⟨rfl, rfl, rfl, ha⟩
    refine ⟨by simp; omega, ?_⟩
    ksec h0 0 (i * 4) 4 hd tail hf hT
    ksec h1 1 (i * 4) 4 hd tail hf hT
    kldv (i * 4 * 4) 0
    kstp ha h0 0
    kstp ha h1 0
    kend ha
  · rintro ⟨ip, lo, hi, out⟩ ⟨rfl, rfl, rfl, ha⟩
    refine ⟨by simp; omega, ?_⟩
    exact portablePtrs_ok .little hd hT ha (by omega)

theorem benchSse2Shuf_ok {inp : Buf} {n : Nat} {T out tail : Buf}
    (hd : inp.length = n * 4) (hT : T = columns 4 pairFields inp ++ tail)
    (ho : Agree (DoneT n [2, 2] 0) T out) :
    Ok (benchSse2Shuf inp out (n * 4)) (Agree (DoneT n [2, 2] n) T) := by
  have hf := fits
  have hTl : n * 4 ≤ T.length := by
    rw [hT, List.length_append, columns_length (by omega) hd hf]; simp
  unfold benchSse2Shuf
  apply Ok.bind
  apply Ok.whileM (fun j s => s.1 = j * 8 * 4 ∧ s.2.1 = j * 8 * 2 ∧ s.2.2.1 = n * 2 + j * 8 * 2 ∧
    Agree (DoneT n [2, 2] (j * 8)) T s.2.2.2) ((n - 1) / 8) (by omega)
  · exact ⟨by simp, by simp, by simp; omega, by simpa using ho⟩
  · rintro i ⟨ip, lo, hi, out⟩ hi ⟨rfl, rfl, rfl, ha⟩
    refine ⟨by simp; omega, ?_⟩
    ksec h0 0 (i * 8) 8 hd tail hf hT
    ksec h1 1 (i * 8) 8 hd tail hf hT
    kldv (i * 8 * 4) 0
    kldv (i * 8 * 4) 16
    kstv ha h0 0 16
    kstv ha h1 0 16
    kend ha
  · rintro ⟨ip, lo, hi, out⟩ ⟨rfl, rfl, rfl, ha⟩
    refine ⟨by simp; omega, ?_⟩
    exact portablePtrs_ok .little hd hT ha (by omega)

theorem benchSse2Shuf2_ok {inp : Buf} {n : Nat} {T out tail : Buf}
    (hd : inp.length = n * 4) (hT : T = columns 4 pairFields inp ++ tail)
    (ho : Agree (DoneT n [2, 2] 0) T out) :
    Ok (benchSse2Shuf2 inp out (n * 4)) (Agree (DoneT n [2, 2] n) T) := by
  have hf := fits
  have hTl : n * 4 ≤ T.length := by
    rw [hT, List.length_append, columns_length (by omega) hd hf]; simp
  unfold benchSse2Shuf2
  apply Ok.bind
  apply Ok.whileM (fun j s => s.1 = j * 16 * 4 ∧ s.2.1 = j * 16 * 2 ∧ s.2.2.1 = n * 2 + j * 16 * 2 ∧
    Agree (DoneT n [2, 2] (j * 16)) T s.2.2.2) ((n - 1) / 16) (by omega)
  · exact ⟨by simp, by simp, by simp; omega, by simpa using ho⟩
  · rintro i ⟨ip, lo, hi, out⟩ hi ⟨rfl, rfl, rfl, ha⟩
    refine ⟨by simp; omega, ?_⟩
    ksec h0 0 (i * 16) 16 hd tail hf hT
    ksec h1 1 (i * 16) 16 hd tail hf hT
    kldv (i * 16 * 4) 0
    kldv (i * 16 * 4) 16
    kldv (i * 16 * 4) 32
    kldv (i * 16 * 4) 48
    kstv ha h0 0 16
    kstv ha h0 16 16
    kstv ha h1 0 16
    kstv ha h1 16 16
    kend ha
  · rintro ⟨ip, lo, hi, out⟩ ⟨rfl, rfl, rfl, ha⟩
    refine ⟨by simp; omega, ?_⟩
    exact portablePtrs_ok .little hd hT ha (by omega)

theorem benchSsse3x2_ok {inp : Buf} {n : Nat} {T out tail : Buf}
    (hd : inp.length = n * 4) (hT : T = columns 4 pairFields inp ++ tail)
    (ho : Agree (DoneT n [2, 2] 0) T out) :
    Ok (benchSsse3x2 inp out (n * 4)) (Agree (DoneT n [2, 2] n) T) := by
  have hf := fits
  have hTl : n * 4 ≤ T.length := by
    rw [hT, List.length_append, columns_length (by omega) hd hf]; simp
  unfold benchSsse3x2
  apply Ok.bind
  apply Ok.whileM (fun j s => s.1 = j * 8 * 4 ∧ s.2.1 = j * 8 * 2 ∧ s.2.2.1 = n * 2 + j * 8 * 2 ∧
    Agree (DoneT n [2, 2] (j * 8)) T s.2.2.2) ((n - 1) / 8) (by omega)
  · exact ⟨by simp, by simp, by simp; omega, by simpa using ho⟩
  · rintro i ⟨ip, lo, hi, out⟩ hi ⟨rfl, rfl, rfl, ha⟩
    refine ⟨by simp; omega, ?_⟩
    ksec h0 0 (i * 8) 8 hd tail hf hT
    ksec h1 1 (i * 8) 8 hd tail hf hT
    kldv (i * 8 * 4) 0
    kldv (i * 8 * 4) 16
    kstv ha h0 0 16
    kstv ha h1 0 16
    kend ha
  · rintro ⟨ip, lo, hi, out⟩ ⟨rfl, rfl, rfl, ha⟩
    refine ⟨by simp; omega, ?_⟩
    exact portablePtrs_ok .little hd hT ha (by omega)

theorem benchSsse3x4_ok {inp : Buf} {n : Nat} {T out tail : Buf}
    (hd : inp.length = n * 4) (hT : T = columns 4 pairFields inp ++ tail)
    (ho : Agree (DoneT n [2, 2] 0) T out) :
    Ok (benchSsse3x4 inp out (n * 4)) (Agree (DoneT n [2, 2] n) T) := by
  have hf := fits
  have hTl : n * 4 ≤ T.length := by
    rw [hT, List.length_append, columns_length (by omega) hd hf]; simp
  unfold benchSsse3x4
  apply Ok.bind
  apply Ok.whileM (fun j s => s.1 = j * 16 * 4 ∧ s.2.1 = j * 16 * 2 ∧ s.2.2.1 = n * 2 + j * 16 * 2 ∧
    Agree (DoneT n [2, 2] (j * 16)) T s.2.2.2) ((n - 1) / 16) (by omega)
  · exact ⟨by simp, by simp, by simp; omega, by simpa using ho⟩
  · rintro i ⟨ip, lo, hi, out⟩ hi ⟨rfl, rfl, rfl, ha⟩
    refine ⟨by simp; omega, ?_⟩
    ksec h0 0 (i * 16) 16 hd tail hf hT
    ksec h1 1 (i * 16) 16 hd tail hf hT
    kldv (i * 16 * 4) 0
    kldv (i * 16 * 4) 16
    kldv (i * 16 * 4) 32
    kldv (i * 16 * 4) 48
    kstv ha h0 0 16
    kstv ha h0 16 16
    kstv ha h1 0 16
    kstv ha h1 16 16
    kend ha
  · rintro ⟨ip, lo, hi, out⟩ ⟨rfl, rfl, rfl, ha⟩
    refine ⟨by simp; omega, ?_⟩
    exact portablePtrs_ok .little hd hT ha (by omega)

theorem benchAvx2Shuf_ok {inp : Buf} {n : Nat} {T out tail : Buf}
    (hd : inp.length = n * 4) (hT : T = columns 4 pairFields inp ++ tail)
    (ho : Agree (DoneT n [2, 2] 0) T out) :
    Ok (benchAvx2Shuf inp out (n * 4)) (Agree (DoneT n [2, 2] n) T) := by
  have hf := fits
  have hTl : n * 4 ≤ T.length := by
    rw [hT, List.length_append, columns_length (by omega) hd hf]; simp
  unfold benchAvx2Shuf
  apply Ok.bind
  apply Ok.whileM (fun j s => s.1 = j * 16 * 4 ∧ s.2.1 = j * 16 * 2 ∧ s.2.2.1 = n * 2 + j * 16 * 2 ∧
    Agree (DoneT n [2, 2] (j * 16)) T s.2.2.2) ((n - 1) / 16) (by omega)
  · exact ⟨by simp, by simp, by simp; omega, by simpa using ho⟩
  · rintro i ⟨ip, lo, hi, out⟩ hi ⟨rfl, rfl, rfl, ha⟩
    refine ⟨by simp; omega, ?_⟩
    ksec h0 0 (i * 16) 16 hd tail hf hT
    ksec h1 1 (i * 16) 16 hd tail hf hT
    kldv (i * 16 * 4) 0
    kldv (i * 16 * 4) 32
    kstv ha h0 0 32
    kstv ha h1 0 32
    kend ha
  · rintro ⟨ip, lo, hi, out⟩ ⟨rfl, rfl, rfl, ha⟩
    refine ⟨by simp; omega, ?_⟩
    exact portablePtrs_ok .little hd hT ha (by omega)

theorem benchAvx2Shuf2_ok {inp : Buf} {n : Nat} {T out tail : Buf}
    (hd : inp.length = n * 4) (hT : T = columns 4 pairFields inp ++ tail)
    (ho : Agree (DoneT n [2, 2] 0) T out) :
    Ok (benchAvx2Shuf2 inp out (n * 4)) (Agree (DoneT n [2, 2] n) T) := by
  have hf := fits
  have hTl : n * 4 ≤ T.length := by
    rw [hT, List.length_append, columns_length (by omega) hd hf]; simp
  unfold benchAvx2Shuf2
  apply Ok.bind
  apply Ok.whileM (fun j s => s.1 = j * 32 * 4 ∧ s.2.1 = j * 32 * 2 ∧ s.2.2.1 = n * 2 + j * 32 * 2 ∧
    Agree (DoneT n [2, 2] (j * 32)) T s.2.2.2) ((n - 1) / 32) (by omega)
  · exact ⟨by simp, by simp, by simp; omega, by simpa using ho⟩
  · rintro i ⟨ip, lo, hi, out⟩ hi ⟨rfl, rfl, rfl, ha⟩
    refine ⟨by simp; omega, ?_⟩
    ksec h0 0 (i * 32) 32 hd tail hf hT
    ksec h1 1 (i * 32) 32 hd tail hf hT
    kldv (i * 32 * 4) 0
    kldv (i * 32 * 4) 32
    kldv (i * 32 * 4) 64
    kldv (i * 32 * 4) 96
    kstv ha h0 0 32
    kstv ha h0 32 32
    kstv ha h1 0 32
    kstv ha h1 32 32
    kend ha
  · rintro ⟨ip, lo, hi, out⟩ ⟨rfl, rfl, rfl, ha⟩
    refine ⟨by simp; omega, ?_⟩
    exact portablePtrs_ok .little hd hT ha (by omega)

theorem benchAvx512x2_ok {inp : Buf} {n : Nat} {T out tail : Buf}
    (hd : inp.length = n * 4) (hT : T = columns 4 pairFields inp ++ tail)
    (ho : Agree (DoneT n [2, 2] 0) T out) :
    Ok (benchAvx512x2 inp out (n * 4)) (Agree (DoneT n [2, 2] n) T) := by
  have hf := fits
  have hTl : n * 4 ≤ T.length := by
    rw [hT, List.length_append, columns_length (by omega) hd hf]; simp
  unfold benchAvx512x2
  apply Ok.bind
  apply Ok.whileM (fun j s => s.1 = j * 64 * 4 ∧ s.2.1 = j * 64 * 2 ∧ s.2.2.1 = n * 2 + j * 64 * 2 ∧
    Agree (DoneT n [2, 2] (j * 64)) T s.2.2.2) (n / 64) (by omega)
  · exact ⟨by simp, by simp, by simp; omega, by simpa using ho⟩
  · rintro i ⟨ip, lo, hi, out⟩ hi ⟨rfl, rfl, rfl, ha⟩
    refine ⟨by simp; omega, ?_⟩
    ksec h0 0 (i * 64) 64 hd tail hf hT
    ksec h1 1 (i * 64) 64 hd tail hf hT
    kldv (i * 64 * 4) 0
    kldv (i * 64 * 4) 64
    kldv (i * 64 * 4) 128
    kldv (i * 64 * 4) 192
    kstv ha h0 0 64
    kstv ha h0 64 64
    kstv ha h1 0 64
    kstv ha h1 64 64
    kend ha
  · rintro ⟨ip, lo, hi, out⟩ ⟨rfl, rfl, rfl, ha⟩
    refine ⟨by simp; omega, ?_⟩
    exact portablePtrs_ok .little hd hT ha (by omega)

end Dlt.Split
