import Verif.Model.Bc1Generic
import Verif.Lemmas.Mem
import Verif.Lemmas.Color565
/-! Colours and colour pairs as bytes. -/

namespace Dlt

/-- Bytes of a colour after decorrelation. -/
def encCol (e : Endian) (v : Variant) (bs : Buf) : Buf := to16 e (Color565.decorr v (of16 e bs))
/-- Bytes of a colour after recorrelation. -/
def decCol (e : Endian) (v : Variant) (bs : Buf) : Buf := to16 e (Color565.recorr v (of16 e bs))

@[simp] theorem encCol_length (e : Endian) (v : Variant) (bs : Buf) : (encCol e v bs).length = 2 := by
  simp [encCol]
@[simp] theorem decCol_length (e : Endian) (v : Variant) (bs : Buf) : (decCol e v bs).length = 2 := by
  simp [decCol]

theorem toNat_append' {n m : Nat} (x : BitVec n) (y : BitVec m) :
    (x ++ y).toNat = x.toNat * 2 ^ m + y.toNat := by
  rw [BitVec.toNat_append, ← Nat.shiftLeft_add_eq_or_of_lt y.isLt, Nat.shiftLeft_eq]

theorem of16_little_toNat (a b : Byte) : (of16 .little [a, b]).toNat = b.toNat * 256 + a.toNat :=
  toNat_append' b a
theorem of16_big_toNat (a b : Byte) : (of16 .big [a, b]).toNat = a.toNat * 256 + b.toNat :=
  toNat_append' a b

theorem of16_to16 (e : Endian) (w : U16) : of16 e (to16 e w) = w := by
  have key : w.extractLsb' 8 8 ++ w.extractLsb' 0 8 = w := by
    apply BitVec.eq_of_toNat_eq
    rw [toNat_append']
    simp [BitVec.extractLsb'_toNat, Nat.shiftRight_eq_div_pow]
    have := w.isLt
    omega
  cases e <;> exact key

theorem of32_little_toNat (a b c d : Byte) : (of32 .little [a, b, c, d]).toNat =
    d.toNat * 16777216 + c.toNat * 65536 + b.toNat * 256 + a.toNat := by
  have := toNat_append' d (c ++ (b ++ a))
  rw [toNat_append' c, toNat_append' b] at this
  refine this.trans ?_
  simp only [Nat.reduceAdd, Nat.reducePow]
  omega

theorem of32_big_toNat (a b c d : Byte) : (of32 .big [a, b, c, d]).toNat =
    a.toNat * 16777216 + b.toNat * 65536 + c.toNat * 256 + d.toNat := by
  have := toNat_append' a (b ++ (c ++ d))
  rw [toNat_append' b, toNat_append' c] at this
  refine this.trans ?_
  simp only [Nat.reduceAdd, Nat.reducePow]
  omega

theorem of32_little_lo (a b c d : Byte) :
    (of32 .little [a, b, c, d]).setWidth 16 = of16 .little [a, b] := by
  apply BitVec.eq_of_toNat_eq
  rw [BitVec.toNat_setWidth, of32_little_toNat, of16_little_toNat]; omega

theorem of32_little_hi (a b c d : Byte) :
    (of32 .little [a, b, c, d] >>> 16).setWidth 16 = of16 .little [c, d] := by
  apply BitVec.eq_of_toNat_eq
  rw [BitVec.toNat_setWidth, BitVec.toNat_ushiftRight, Nat.shiftRight_eq_div_pow,
    of32_little_toNat, of16_little_toNat]; omega

theorem of32_big_lo (a b c d : Byte) :
    (of32 .big [a, b, c, d]).setWidth 16 = of16 .big [c, d] := by
  apply BitVec.eq_of_toNat_eq
  rw [BitVec.toNat_setWidth, of32_big_toNat, of16_big_toNat]; omega

theorem of32_big_hi (a b c d : Byte) :
    (of32 .big [a, b, c, d] >>> 16).setWidth 16 = of16 .big [a, b] := by
  apply BitVec.eq_of_toNat_eq
  rw [BitVec.toNat_setWidth, BitVec.toNat_ushiftRight, Nat.shiftRight_eq_div_pow,
    of32_big_toNat, of16_big_toNat]; omega

theorem extract_lo (x y : U16) (k : Nat) (h : k + 8 ≤ 16) :
    (x.zeroExtend 32 ||| (y.zeroExtend 32 <<< 16)).extractLsb' k 8 = x.extractLsb' k 8 := by
  apply BitVec.eq_of_getElem_eq
  intro i hi
  simp [BitVec.getElem_extractLsb', show k + i < 16 by omega]
  omega

theorem extract_hi (x y : U16) (k : Nat) (h : k + 8 ≤ 16) :
    (x.zeroExtend 32 ||| (y.zeroExtend 32 <<< 16)).extractLsb' (16 + k) 8 = y.extractLsb' k 8 := by
  apply BitVec.eq_of_getElem_eq
  intro i hi
  simp [BitVec.getElem_extractLsb', show 16 + k + i < 32 by omega,
    show ¬ 16 + k + i < 16 by omega, show 16 + k + i - 16 = k + i by omega]
  intro hx
  rw [BitVec.getLsbD_of_ge x _ (by omega)] at hx
  exact absurd hx (by simp)

/-- Packing and unpacking a colour pair acts on the two colours separately, in either byte order. -/
@[simp] theorem to32_onColourPair (e : Endian) (f : U16 → U16) (a b c d : Byte) :
    to32 e (Bc1.onColourPair f (of32 e [a, b, c, d])) =
      to16 e (f (of16 e [a, b])) ++ to16 e (f (of16 e [c, d])) := by
  cases e
  · simp only [Bc1.onColourPair, of32_little_lo, of32_little_hi, to32, to16,
      List.cons_append, List.nil_append]
    rw [extract_lo _ _ 0 (by omega), extract_lo _ _ 8 (by omega)]
    have h1 := extract_hi (f (of16 .little [a, b])) (f (of16 .little [c, d])) 0 (by omega)
    have h2 := extract_hi (f (of16 .little [a, b])) (f (of16 .little [c, d])) 8 (by omega)
    rw [show 16 + 0 = 16 from rfl] at h1
    rw [show 16 + 8 = 24 from rfl] at h2
    rw [h1, h2]
  · simp only [Bc1.onColourPair, of32_big_lo, of32_big_hi, to32, to16,
      List.cons_append, List.nil_append]
    rw [extract_lo _ _ 0 (by omega), extract_lo _ _ 8 (by omega)]
    have h1 := extract_hi (f (of16 .big [c, d])) (f (of16 .big [a, b])) 0 (by omega)
    have h2 := extract_hi (f (of16 .big [c, d])) (f (of16 .big [a, b])) 8 (by omega)
    rw [show 16 + 0 = 16 from rfl] at h1
    rw [show 16 + 8 = 24 from rfl] at h2
    rw [h1, h2]

end Dlt
