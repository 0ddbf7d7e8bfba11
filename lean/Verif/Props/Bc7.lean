import Verif.Model.Bc7
/-!
# C53: the BC7 bit field helpers are inverse

The specification numbers the bits of a byte from the left: bit 0 is the most significant one.
-/

namespace Dlt.Props
open Dlt.Bc7

/-- Bit `i` of a byte, counted from the most significant bit. -/
def msbBit (b : Byte) (i : Nat) : Bool := b.toNat / 2 ^ (7 - i) % 2 = 1

theorem msbBit_eq (b : Byte) (i : Nat) : msbBit b i = b.getLsbD (7 - i) := by
  simp only [msbBit, BitVec.getLsbD, Nat.testBit_eq_decide_div_mod_eq]

private theorem mask_bit : ∀ n : Fin 9, ∀ s : Fin 8, ∀ i : Fin 8,
    ((((1#32 <<< n.val) - 1#32) <<< s.val).setWidth 8).getLsbD i.val
      = decide (s.val ≤ i.val ∧ i.val < s.val + n.val) := by decide +kernel

private theorem mask_bit' {n s i : Nat} (hn : n < 9) (hs : s < 8) (hi : i < 8) :
    ((((1#32 <<< n) - 1#32) <<< s).setWidth 8).getLsbD i = decide (s ≤ i ∧ i < s + n) :=
  mask_bit ⟨n, hn⟩ ⟨s, hs⟩ ⟨i, hi⟩

private theorem mask_bit0 {n i : Nat} (hn : n < 9) (hi : i < 8) :
    (((1#32 <<< n) - 1#32).setWidth 8).getLsbD i = decide (i < n) := by
  have := mask_bit' (s := 0) hn (by omega) hi
  simpa using this

private theorem insert_some {byte value : Byte} {start stop : Nat} (h : start ≤ stop)
    (h7 : stop ≤ 7) : ∃ r, insertMsbBits byte value start stop = some r ∧
      ∀ j, j < 8 → r.getLsbD j =
        if 7 - stop ≤ j ∧ j ≤ 7 - start then value.getLsbD (j - (7 - stop)) else byte.getLsbD j := by
  refine ⟨_, by simp only [insertMsbBits, h, h7, and_self, if_true]; rfl, ?_⟩
  intro j hj
  simp only [BitVec.getLsbD_or, BitVec.getLsbD_and, BitVec.getLsbD_not, BitVec.getLsbD_shiftLeft,
    mask_bit' (n := stop - start + 1) (s := 7 - stop) (by omega) (by omega) hj, hj, decide_true,
    Bool.true_and]
  by_cases hc : 7 - stop ≤ j ∧ j ≤ 7 - start
  · have h1 : 7 - stop ≤ j ∧ j < 7 - stop + (stop - start + 1) := by omega
    have h2 : ¬ j < 7 - stop := by omega
    rw [if_pos hc, decide_eq_true h1, decide_eq_false h2]; simp
  · have h1 : ¬ (7 - stop ≤ j ∧ j < 7 - stop + (stop - start + 1)) := by omega
    rw [if_neg hc, decide_eq_false h1]; simp

private theorem extract_some {byte : Byte} {start stop : Nat} (h : start ≤ stop)
    (h7 : stop ≤ 7) : ∃ r, extractMsbBits byte start stop = some r ∧
      ∀ j, r.getLsbD j = (decide (j ≤ stop - start) && byte.getLsbD (j + (7 - stop))) := by
  refine ⟨_, by simp only [extractMsbBits, h, h7, and_self, if_true]; rfl, ?_⟩
  intro j
  by_cases hj : j < 8
  · simp only [BitVec.getLsbD_and, BitVec.getLsbD_ushiftRight,
      mask_bit0 (n := stop - start + 1) (by omega) hj]
    by_cases hc : j ≤ stop - start
    · have : j < stop - start + 1 := by omega
      simp [hc, this, Nat.add_comm]
    · have : ¬ j < stop - start + 1 := by omega
      simp [hc, this]
  · have : ¬ j ≤ stop - start := by omega
    rw [BitVec.getLsbD_of_ge _ _ (by omega)]
    simp [this]

/-- C53: inserting replaces exactly the bits `start ..= stop` (counted from the left) with the
low bits of the value; all other bits keep their value. -/
theorem C53_insert_bits (byte value : Byte) (start stop : Nat) (h : start ≤ stop) (h7 : stop ≤ 7) :
    ∃ r, insertMsbBits byte value start stop = some r ∧
      ∀ i, i ≤ 7 → msbBit r i =
        if start ≤ i ∧ i ≤ stop then msbBit value (7 - (stop - i)) else msbBit byte i := by
  obtain ⟨r, hr, hb⟩ := insert_some (byte := byte) (value := value) h h7
  refine ⟨r, hr, fun i hi => ?_⟩
  simp only [msbBit_eq]
  rw [hb (7 - i) (by omega)]
  by_cases hc : start ≤ i ∧ i ≤ stop
  · rw [if_pos hc, if_pos (by omega)]
    congr 1; omega
  · rw [if_neg hc, if_neg (by omega)]

/-- C53: extracting returns the number formed by the bits `start ..= stop`. -/
theorem C53_extract_value (byte : Byte) (start stop : Nat) (h : start ≤ stop) (h7 : stop ≤ 7) :
    ∃ r, extractMsbBits byte start stop = some r ∧
      r.toNat = byte.toNat / 2 ^ (7 - stop) % 2 ^ (stop - start + 1) := by
  obtain ⟨r, hr, hb⟩ := extract_some (byte := byte) h h7
  refine ⟨r, hr, Nat.eq_of_testBit_eq fun j => ?_⟩
  have := hb j
  simp only [BitVec.getLsbD] at this
  rw [this, Nat.testBit_mod_two_pow, Nat.testBit_div_two_pow]
  congr 1
  simp; omega

/-- C53: extracting what was inserted returns the value reduced to the width of the range. -/
theorem C53_extract_insert (byte value : Byte) (start stop : Nat) (h : start ≤ stop)
    (h7 : stop ≤ 7) :
    ∃ r x, insertMsbBits byte value start stop = some r ∧
      extractMsbBits r start stop = some x ∧
      x.toNat = value.toNat % 2 ^ (stop - start + 1) := by
  obtain ⟨r, hr, hb⟩ := insert_some (byte := byte) (value := value) h h7
  obtain ⟨x, hx, hc⟩ := extract_some (byte := r) h h7
  refine ⟨r, x, hr, hx, Nat.eq_of_testBit_eq fun j => ?_⟩
  have hj := hc j
  rw [Nat.testBit_mod_two_pow]
  show x.getLsbD j = (_ && value.getLsbD j)
  rw [hj]
  by_cases hlt : j ≤ stop - start
  · rw [hb _ (by omega), if_pos (by omega), Nat.add_sub_cancel]
    have : j < stop - start + 1 := by omega
    simp [hlt, this]
  · have : ¬ j < stop - start + 1 := by omega
    simp [hlt, this]

/-- C53: inserting what was extracted from the same range changes nothing. -/
theorem C53_insert_extract (byte : Byte) (start stop : Nat) (h : start ≤ stop) (h7 : stop ≤ 7) :
    ∃ x, extractMsbBits byte start stop = some x ∧
      insertMsbBits byte x start stop = some byte := by
  obtain ⟨x, hx, hc⟩ := extract_some (byte := byte) h h7
  obtain ⟨r, hr, hb⟩ := insert_some (byte := byte) (value := x) h h7
  refine ⟨x, hx, ?_⟩
  rw [hr]
  congr 1
  refine BitVec.eq_of_getLsbD_eq fun j hj => ?_
  rw [hb j hj]
  split
  · rename_i hlt
    rw [hc]
    have h1 : j - (7 - stop) ≤ stop - start := by omega
    have h2 : j - (7 - stop) + (7 - stop) = j := by omega
    simp [h1, h2]
  · rfl

/-- C53: arguments which are not a bit range of a byte trip the assertions. -/
theorem C53_bad_range (byte value : Byte) (start stop : Nat) (h : ¬ (start ≤ stop ∧ stop ≤ 7)) :
    insertMsbBits byte value start stop = none ∧ extractMsbBits byte start stop = none := by
  simp [insertMsbBits, extractMsbBits, h]

/-- A run: bits 1-3 of `0b10110000` are `0b011`; replacing them by `0b101` gives `0b11010000`. -/
theorem C53_example : extractMsbBits 0b10110000#8 1 3 = some 0b011#8 ∧
    insertMsbBits 0b10110000#8 0b101#8 1 3 = some 0b11010000#8 := by decide

end Dlt.Props
