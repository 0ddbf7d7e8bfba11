import Verif.Model.Embed
import Verif.Lemmas.Ints
/-!
# Lemmas about the embedded header
-/

namespace Dlt.Embed

theorem getBits_toNat (w : U32) (hi lo : Nat) (h : lo ≤ hi) (h' : hi ≤ 31) :
    (getBits w hi lo).toNat = w.toNat / 2 ^ lo % 2 ^ (hi - lo + 1) := by
  unfold getBits
  rw [BitVec.toNat_ushiftRight, BitVec.toNat_shiftLeft, Nat.shiftRight_eq_div_pow, Nat.shiftLeft_eq]
  have e1 : (2 : Nat) ^ 32 = 2 ^ (hi + 1) * 2 ^ (31 - hi) := by rw [← Nat.pow_add]; congr 1; omega
  rw [e1, Nat.mul_mod_mul_right, Nat.pow_add 2 (31 - hi) lo, Nat.mul_comm (2 ^ (31 - hi)), Nat.mul_div_mul_right _ _ (Nat.two_pow_pos _)]
  have e2 : (2 : Nat) ^ (hi + 1) = 2 ^ lo * 2 ^ (hi - lo + 1) := by rw [← Nat.pow_add]; congr 1; omega
  rw [e2, Nat.mod_mul_right_div_self]

theorem getBit_iff (w : U32) (i : Nat) : getBit w i = decide (w.toNat / 2 ^ i % 2 = 1) := by
  unfold getBit
  rw [BitVec.getLsbD, Nat.testBit_eq_decide_div_mod_eq]

theorem of32_to32 (e : Endian) (w : U32) : of32 e (to32 e w) = w := by
  have hw := w.isLt
  apply BitVec.eq_of_toNat_eq
  cases e
  · simp only [to32]
    rw [of32_little_toNat]
    simp only [BitVec.extractLsb'_toNat, Nat.shiftRight_eq_div_pow]
    omega
  · simp only [to32]
    rw [of32_big_toNat]
    simp only [BitVec.extractLsb'_toNat, Nat.shiftRight_eq_div_pow]
    omega

theorem to32_le (e : Endian) (w : U32) : to32 e (le e w) = to32 .little w := by
  cases e
  · rfl
  · exact to32_of32 .big (w.extractLsb' 0 8) (w.extractLsb' 8 8) (w.extractLsb' 16 8) (w.extractLsb' 24 8)

theorem le_of32 (e : Endian) {bs : Buf} (h : bs.length = 4) : le e (of32 e bs) = of32 .little bs := by
  match bs, h with
  | [a, b, c, d], _ =>
    cases e
    · rfl
    · show of32 .little (to32 .big (of32 .big [a, b, c, d])) = _
      rw [to32_of32]

theorem write_eq (e : Endian) (h : TransformHeader) (b : Buf) (off : Nat) :
    h.write e b off = st b off (to32 .little h.word) := by
  unfold TransformHeader.write st32
  rw [to32_le]

theorem read_eq (e : Endian) (b : Buf) (off : Nat) (h : off + 4 ≤ b.length) :
    TransformHeader.read e b off = some ⟨of32 .little (slice b off 4)⟩ := by
  unfold TransformHeader.read ld32 ld
  rw [if_pos h]
  simp [le_of32 e (slice_length_of_le h)]

theorem read_eq_none (e : Endian) (b : Buf) (off : Nat) (h : ¬ off + 4 ≤ b.length) :
    TransformHeader.read e b off = none := by
  unfold TransformHeader.read ld32 ld
  rw [if_neg h]
  rfl

/-- The header word as a number. -/
theorem new_toNat (f : TransformFormat) (d : U32) :
    (TransformHeader.new f d).word.toNat = f.toU8.toNat + 16 * (d.toNat % 2 ^ 28) := by
  have hd := d.isLt
  have m1 : fieldMask 31 4 = 0xFFFFFFF0#32 := by decide
  have key : ∀ a : U32, a.toNat < 16 → (setBits a 31 4 d).toNat = a.toNat + 16 * (d.toNat % 2 ^ 28) := by
    intro a ha
    have e1 : a &&& ~~~(fieldMask 31 4) = a := by
      rw [m1]
      apply BitVec.eq_of_toNat_eq
      have : (~~~(0xFFFFFFF0#32)).toNat = 2 ^ 4 - 1 := by decide
      rw [BitVec.toNat_and, this, Nat.and_two_pow_sub_one_eq_mod]
      omega
    have e2 : (d <<< 4) &&& fieldMask 31 4 = d <<< 4 := by
      rw [m1]
      apply BitVec.eq_of_getLsbD_eq
      intro i hi
      rw [BitVec.getLsbD_and]
      by_cases h4 : i < 4
      · simp [h4]
      · have : (0xFFFFFFF0#32).getLsbD i = true := by
          have hh : ∀ i < 32, ¬ i < 4 → (0xFFFFFFF0#32).getLsbD i = true := by decide
          exact hh i hi h4
        rw [this, Bool.and_true]
    unfold setBits
    rw [e1, e2, BitVec.toNat_or, BitVec.toNat_shiftLeft, Nat.shiftLeft_eq]
    have e3 : d.toNat * 2 ^ 4 % 2 ^ 32 = (d.toNat % 2 ^ 28) <<< 4 := by rw [Nat.shiftLeft_eq]; omega
    rw [e3, Nat.or_comm, ← Nat.shiftLeft_add_eq_or_of_lt (by omega), Nat.shiftLeft_eq]
    omega
  unfold TransformHeader.new
  simp only
  cases f <;> (rw [key _ (by decide)]; rfl)

theorem formatData_toNat (h : TransformHeader) : h.formatData.toNat = h.word.toNat / 16 := by
  unfold TransformHeader.formatData
  rw [getBits_toNat _ _ _ (by omega) (by omega)]
  have := h.word.isLt
  omega

/-- The formats by tag. -/
def ofTag : Nat → Option TransformFormat
  | 0 => some .bc1
  | 1 => some .bc2
  | 2 => some .bc3
  | 3 => some .bc7
  | 4 => some .bc6h
  | 5 => some .rgba8888
  | 6 => some .bgra8888
  | 7 => some .bgr888
  | 8 => some .bc4
  | 9 => some .bc5
  | _ => none

theorem format_eq (h : TransformHeader) : h.format = ofTag (h.word.toNat % 16) := by
  unfold TransformHeader.format TransformFormat.fromU8
  have : (((getBits h.word 3 0).setWidth 8) &&& 0x0F#8).toNat = h.word.toNat % 16 := by
    have h15 : (0x0F#8).toNat = 2 ^ 4 - 1 := rfl
    rw [BitVec.toNat_and, h15, Nat.and_two_pow_sub_one_eq_mod, BitVec.toNat_setWidth,
      getBits_toNat _ _ _ (by omega) (by omega)]
    omega
  rw [this]
  rfl

theorem ofTag_toU8 (f : TransformFormat) : ofTag f.toU8.toNat = some f := by cases f <;> rfl

theorem ofTag_eq {n : Nat} {f : TransformFormat} (h : ofTag n = some f) : n = f.toU8.toNat := by
  unfold ofTag at h
  split at h <;> first | (obtain rfl := Option.some.inj h; rfl) | simp at h

theorem toU8_lt (f : TransformFormat) : f.toU8.toNat < 16 := by cases f <;> decide

theorem new_format (f : TransformFormat) (d : U32) : (TransformHeader.new f d).format = some f := by
  rw [format_eq, new_toNat, Nat.add_mul_mod_self_left, Nat.mod_eq_of_lt (toU8_lt f), ofTag_toU8]

theorem new_formatData (f : TransformFormat) (d : U32) (h : d.toNat < 2 ^ 28) :
    (TransformHeader.new f d).formatData = d := by
  apply BitVec.eq_of_toNat_eq
  rw [formatData_toNat, new_toNat]
  have := toU8_lt f
  omega

/-- Packing followed by unpacking through the header. -/
theorem fromHeader_toHeader {α : Type} (D : Embeddable α) (a : α) (h : (D.pack a).toNat < 2 ^ 28) :
    D.fromHeader (D.toHeader a) = D.unpack (D.pack a) := by
  unfold Embeddable.fromHeader Embeddable.toHeader
  rw [new_format, new_formatData _ _ h]
  simp

theorem fromHeader_eq {α : Type} (D : Embeddable α) (h : TransformHeader) :
    D.fromHeader h = if h.word.toNat % 16 = D.format.toU8.toNat then D.unpack h.formatData
      else .error .unknownFormat := by
  unfold Embeddable.fromHeader
  rw [format_eq]
  by_cases hc : h.word.toNat % 16 = D.format.toU8.toNat
  · rw [if_pos hc, hc, ofTag_toU8]; simp
  · rw [if_neg hc]
    cases ho : ofTag (h.word.toNat % 16) with
    | none => rfl
    | some f =>
      simp only
      rw [if_neg]
      intro hf
      exact hc (by rw [← hf]; exact ofTag_eq ho)

end Dlt.Embed
