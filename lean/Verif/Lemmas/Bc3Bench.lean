import Verif.Model.Bc3Bench
import Verif.Lemmas.Bc3Simd
import Verif.Lemmas.SplitBench
/-! The benchmark kernels of BC3 produce the layout of the production kernels. -/

set_option linter.unusedSimpArgs false

namespace Dlt.Bc3
open Spec

theorem low_half (w : U64) : w &&& 0xFFFFFFFF#64 = (w.setWidth 32).zeroExtend 64 := by
  apply BitVec.eq_of_toNat_eq
  rw [BitVec.toNat_and, show (0xFFFFFFFF#64).toNat = 2 ^ 32 - 1 by decide, Nat.and_two_pow_sub_one_eq_mod]
  simp
  omega

theorem high_half (w : U64) : w >>> 32 = ((w >>> 32).setWidth 32).zeroExtend 64 := by
  apply BitVec.eq_of_getLsbD_eq
  intro i hi
  simp [BitVec.getLsbD_setWidth, BitVec.getLsbD_ushiftRight]
  by_cases h : i < 32
  · simp [h, hi]
  · simp [h]
    exact BitVec.getLsbD_of_ge _ _ (by omega)

theorem to64_pack32 (x y : U32) :
    to64 .little (x.zeroExtend 64 ||| (y.zeroExtend 64 <<< 32)) = to32 .little x ++ to32 .little y := by
  rw [zx_eq x]
  simp only [to64, to32, or_byte, List.cons_append, List.nil_append]
  repeat' (first
    | rw [zx_byte_out _ _ _ (by omega)]
    | rw [zx_byte_in _ _ _ (by omega) (by omega)])
  simp only [Nat.reduceSub, BitVec.or_zero, BitVec.zero_or]

theorem to64_colorIndex0 (e : Endian) (a b c d f g h i a' b' c' d' f' g' h' i' : Byte) :
    to64 e (colorIndex0 e (of64 e [a, b, c, d, f, g, h, i]) (of64 e [a', b', c', d', f', g', h', i'])) =
      [a, b, c, d, a', b', c', d'] := by
  cases e
  · rw [colorIndex0, low_half, low_half, to64_pack32, to32_half64, to32_half64]; rfl
  · rw [colorIndex0, high_half, high_half (of64 .big [a, b, c, d, f, g, h, i]), of64_big_rev, of64_big_rev,
      to64_big_rev, to64_pack32, to32_half64', to32_half64']; rfl

theorem to64_colorIndex1 (e : Endian) (a b c d f g h i a' b' c' d' f' g' h' i' : Byte) :
    to64 e (colorIndex1 e (of64 e [a, b, c, d, f, g, h, i]) (of64 e [a', b', c', d', f', g', h', i'])) =
      [f, g, h, i, f', g', h', i'] := by
  cases e
  · rw [colorIndex1, high_half, high_half (of64 .little [a', b', c', d', f', g', h', i']), to64_pack32,
      to32_half64', to32_half64']; rfl
  · rw [colorIndex1, low_half, low_half, of64_big_rev, of64_big_rev,
      to64_big_rev, to64_pack32, to32_half64, to32_half64]; rfl

theorem benchU32x2_ok (e : Endian) {inp : Buf} {n : Nat} {T out tail : Buf}
    (hd : inp.length = n * 16) (hT : T = columns 16 (bc3Fields id false false) inp ++ tail)
    (ho : Agree (DoneT n [2, 6, 4, 4] 0) T out) :
    Ok (benchU32x2 e inp out (n * 16)) (Agree (DoneT n [2, 6, 4, 4] n) T) := by
  have hf := fits00 (col := id) (fun _ h => h)
  have hTl : n * 16 ≤ T.length := by
    rw [hT, List.length_append, columns_length (by omega) hd hf]; simp
  unfold benchU32x2
  have hq : n * 16 / 16 = n := by omega
  simp only [hq]
  obtain ⟨m, hm⟩ : ∃ m, m = (n * 2 - 16 + 3) / 4 := ⟨_, rfl⟩
  apply Ok.bind
  apply Ok.whileM (fun j s => s.1 = j * 2 * 16 ∧ s.2.1 = j * 2 * 2 ∧ s.2.2.1 = n * 2 + j * 2 * 6 ∧ s.2.2.2.1 = n * 8 + j * 2 * 4 ∧ s.2.2.2.2.1 = n * 12 + j * 2 * 4 ∧ Agree (DoneT n [2, 6, 4, 4] (j * 2)) T s.2.2.2.2.2) m (by omega)
  · exact ⟨by simp, by simp, by simp, by simp, by simp, by simpa using ho⟩
  · rintro i ⟨ip, ap, bp, cp, xp, out⟩ hi ⟨rfl, rfl, rfl, rfl, rfl, ha⟩
    refine ⟨by first | (simp; done) | (simp; omega), ?_⟩
    ksec h0 0 (i * 2) 2 hd tail hf hT
    ksec h1 1 (i * 2) 2 hd tail hf hT
    ksec h2 2 (i * 2) 2 hd tail hf hT
    ksec h3 3 (i * 2) 2 hd tail hf hT
    kldw (i * 2 * 16) 0
    kldw (i * 2 * 16) 2
    kldw (i * 2 * 16) 4
    kldw (i * 2 * 16) 8
    kldw (i * 2 * 16) 12
    kldw (i * 2 * 16) 16
    kldw (i * 2 * 16) 18
    kldw (i * 2 * 16) 20
    kldw (i * 2 * 16) 24
    kldw (i * 2 * 16) 28
    kstb ha h0 0 2 (to16_of16 e _ _)
    kstb ha h1 0 2 (to16_of16 e _ _)
    kstb ha h1 2 4 (to32_of32 e _ _ _ _)
    kstb ha h2 0 4 (to32_of32 e _ _ _ _)
    kstb ha h3 0 4 (to32_of32 e _ _ _ _)
    kstb ha h0 2 2 (to16_of16 e _ _)
    kstb ha h1 6 2 (to16_of16 e _ _)
    kstb ha h1 8 4 (to32_of32 e _ _ _ _)
    kstb ha h2 4 4 (to32_of32 e _ _ _ _)
    kstb ha h3 4 4 (to32_of32 e _ _ _ _)
    kend ha
  · rintro ⟨ip, ap, bp, cp, xp, out⟩ ⟨rfl, rfl, rfl, rfl, rfl, ha⟩
    refine ⟨by first | (simp; done) | (simp; omega), ?_⟩
    exact transformPtrs_ok e hd hT ha (by omega)

theorem benchUnU32_ok (e : Endian) {inp : Buf} {n : Nat} {T out tail : Buf}
    (hd : inp.length = n * 16) (hT : T = unsoa n (widths false false) (unFields id false false) inp ++ tail)
    (ho : Agree (DoneU n 16 0) T out) :
    Ok (benchUnU32 e inp out (n * 16)) (Agree (DoneU n 16 n) T) := by
  have hq : n * 16 / 16 = n := by omega
  simp only [benchUnU32, hq]
  simpa using untransformPtrs_ok e (k := 0) hd hT ho (by omega)

theorem benchUnU64_ok (e : Endian) {inp : Buf} {n : Nat} {T out tail : Buf}
    (hd : inp.length = n * 16) (hT : T = unsoa n (widths false false) (unFields id false false) inp ++ tail)
    (ho : Agree (DoneU n 16 0) T out) :
    Ok (benchUnU64 e inp out (n * 16)) (Agree (DoneU n 16 n) T) := by
  have hg := unFields_length (col := id) (fun _ h => h) false false
  have hl : n * (widths false false).sum ≤ inp.length := by simp [widths]; omega
  have hTl : n * 16 ≤ T.length := by
    rw [hT, List.length_append, unsoa_length hl hg]; omega
  unfold benchUnU64
  have hq : n * 16 / 16 = n := by omega
  simp only [hq]
  apply Ok.bind
  apply Ok.whileM (fun j s => s.1 = j * 2 * 2 ∧ s.2.1 = n * 2 + j * 2 * 6 ∧ s.2.2.1 = n * 8 + j * 2 * 4 ∧ s.2.2.2.1 = n * 12 + j * 2 * 4 ∧ s.2.2.2.2.1 = j * 2 * 16 ∧ Agree (DoneU n 16 (j * 2)) T s.2.2.2.2.2) (n / 2) (by omega)
  · exact ⟨by simp, by simp, by simp, by simp, by simp, by simpa using ho⟩
  · rintro i ⟨ap, bp, cp, xp, op, out⟩ hi ⟨rfl, rfl, rfl, rfl, rfl, ha⟩
    refine ⟨by first | (simp; done) | (simp; omega), ?_⟩
    kblk h0 (i * 2) 2 tail hl hg hT
    simp only [widths, chunkFields, Nat.zero_add, ← Nat.mul_add, Nat.reduceAdd] at h0
    kldw (i * 2 * 2) 0
    kldw (n * 8 + i * 2 * 4) 0
    kldw (n * 12 + i * 2 * 4) 0
    kstb ha h0 0 2 (Eq.trans (congrArg (to16 e) (getFirst_of32 e _ _ _ _)) (to16_of16 e _ _))
    kstb ha h0 16 2 (Eq.trans (congrArg (to16 e) (getSecond_of32 e _ _ _ _)) (to16_of16 e _ _))
    kldw (n * 2 + i * 2 * 6) 0
    kstb ha h0 2 2 (to16_of16 e _ _)
    kldw (n * 2 + i * 2 * 6) 2
    kstb ha h0 4 4 (to32_of32 e _ _ _ _)
    kldw (n * 2 + i * 2 * 6) 6
    kstb ha h0 18 2 (to16_of16 e _ _)
    kldw (n * 2 + i * 2 * 6) 8
    kstb ha h0 20 4 (to32_of32 e _ _ _ _)
    kstb ha h0 8 8 (to64_colorIndex0 e _ _ _ _ _ _ _ _ _ _ _ _ _ _ _ _)
    kstb ha h0 24 8 (to64_colorIndex1 e _ _ _ _ _ _ _ _ _ _ _ _ _ _ _ _)
    kend ha
  · rintro ⟨ap, bp, cp, xp, op, out⟩ ⟨rfl, rfl, rfl, rfl, rfl, ha⟩
    refine ⟨by first | (simp; done) | (simp; omega), ?_⟩
    have := untransformPtrs_ok e hd hT ha (by omega)
    simp only
    rw [show n * 16 - (n * 16 - n * 16 % 32) = (n - n / 2 * 2) * 16 by omega]
    exact this

end Dlt.Bc3
