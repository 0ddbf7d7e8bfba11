import Verif.Model.Caches
import Mathlib.Data.Nat.Digits.Lemmas
/-!
# C65: one file of the data cache for one key

Entries with different content hash, level or algorithm are kept in different files of the cache directory,
although the hash is padded with spaces and the level may be negative.  No name leaves the directory.
-/

namespace Dlt.Props
open Dlt.Cache

/-- The value of a digit. -/
def digitValue (c : Char) : Nat :=
  ['0', '1', '2', '3', '4', '5', '6', '7', '8', '9', 'a', 'b', 'c', 'd', 'e', 'f'].idxOf c

theorem digitValue_digit : ∀ n < 16, digitValue (digit n) = n := by decide

theorem digit_plain : ∀ n < 16, digit n ≠ ' ' ∧ digit n ≠ '.' ∧ digit n ≠ '-' ∧ digit n ≠ '/' ∧ digit n ≠ '_' ∧ digit n ≠ '\\' := by
  decide

theorem digits_plain (b n : Nat) (hb : 1 < b) (hb' : b ≤ 16) :
    ∀ c ∈ digits b n, c ≠ ' ' ∧ c ≠ '.' ∧ c ≠ '-' ∧ c ≠ '/' ∧ c ≠ '_' ∧ c ≠ '\\' := by
  intro c hc
  unfold digits at hc
  split at hc
  · rw [List.mem_singleton] at hc
    subst hc
    decide
  · rw [List.mem_reverse, List.mem_map] at hc
    obtain ⟨d, hd, rfl⟩ := hc
    exact digit_plain d (lt_of_lt_of_le (Nat.digits_lt_base hb hd) hb')

theorem digits_value (b n : Nat) (hb : 1 < b) (hb' : b ≤ 16) :
    Nat.ofDigits b ((digits b n).reverse.map digitValue) = n := by
  unfold digits
  split
  · next h =>
    subst h
    rfl
  · rw [List.reverse_reverse, List.map_map]
    have : (Nat.digits b n).map (digitValue ∘ digit) = Nat.digits b n := by
      conv_rhs => rw [← List.map_id (Nat.digits b n)]
      refine List.map_congr_left fun d hd => ?_
      exact digitValue_digit d (lt_of_lt_of_le (Nat.digits_lt_base hb hd) hb')
    rw [this, Nat.ofDigits_digits]

theorem digits_injective (b n m : Nat) (hb : 1 < b) (hb' : b ≤ 16) (h : digits b n = digits b m) : n = m := by
  rw [← digits_value b n hb hb', h, digits_value b m hb hb']

theorem hex_length (h : BitVec 128) : (digits 16 h.toNat).length ≤ 32 := by
  unfold digits
  split
  · simp
  · rw [List.length_reverse, List.length_map]
    rw [Nat.digits_length_le_iff (by decide)]
    have := h.isLt
    calc h.toNat < 2 ^ 128 := this
      _ = 16 ^ 32 := by norm_num

theorem hex32_length (h : BitVec 128) : (hex32 h).length = 32 := by
  have := hex_length h
  unfold hex32
  rw [List.length_append, List.length_replicate]
  omega

theorem hex32_injective (h h' : BitVec 128) (e : hex32 h = hex32 h') : h = h' := by
  have key : ∀ h : BitVec 128, (hex32 h).filter (fun c => decide (c ≠ ' ')) = digits 16 h.toNat := by
    intro h
    unfold hex32
    rw [List.filter_append, List.filter_replicate]
    simp only [ne_eq, not_true_eq_false, decide_false, Bool.false_eq_true, if_false, List.nil_append]
    rw [List.filter_eq_self]
    intro c hc
    simpa using (digits_plain 16 _ (by decide) (by decide) c hc).1
  have := congrArg (List.filter (fun c => decide (c ≠ ' '))) e
  rw [key, key] at this
  exact BitVec.eq_of_toNat_eq (digits_injective 16 _ _ (by decide) (by decide) this)

theorem decimal_injective (l l' : BitVec 32) (e : decimal l = decimal l') : l = l' := by
  have plain : ∀ n : Nat, ∀ t, digits 10 n ≠ '-' :: t := by
    intro n t h
    exact (digits_plain 10 n (by decide) (by decide) '-' (by rw [h]; simp)).2.2.1 rfl
  unfold decimal at e
  apply BitVec.eq_of_toInt_eq
  split at e <;> split at e
  · have := digits_injective 10 _ _ (by decide) (by decide) (List.cons.inj e).2
    omega
  · exact absurd e.symm (plain _ _)
  · exact absurd e (plain _ _)
  · have := digits_injective 10 _ _ (by decide) (by decide) e
    omega

theorem decimal_plain (l : BitVec 32) : ∀ c ∈ decimal l, c ≠ '.' ∧ c ≠ '/' ∧ c ≠ '_' ∧ c ≠ '\\' := by
  intro c hc
  unfold decimal at hc
  have hd : ∀ c ∈ digits 10 l.toInt.natAbs, c ≠ '.' ∧ c ≠ '/' ∧ c ≠ '_' ∧ c ≠ '\\' := fun c hc =>
    have := digits_plain 10 _ (by decide) (by decide) c hc
    ⟨this.2.1, this.2.2.2.1, this.2.2.2.2⟩
  split at hc
  · rcases List.mem_cons.mp hc with rfl | hc
    · decide
    · exact hd c hc
  · exact hd c hc

/-- C65.  Different keys have different files. -/
theorem C65_file_names_differ (k k' : Key) (h : fileName k = fileName k') : k = k' := by
  unfold fileName at h
  obtain ⟨h1, h2⟩ := List.append_inj h (by rw [hex32_length, hex32_length])
  have h2 := (List.cons.inj h2).2
  have key : ∀ (l : BitVec 32) (e : List Char), (decimal l ++ '.' :: e).takeWhile (fun c => decide (c ≠ '.')) =
      decimal l := by
    intro l e
    rw [List.takeWhile_append_of_pos]
    · simp
    · intro c hc
      simpa using (decimal_plain l c hc).1
  have h3 := congrArg (List.takeWhile (fun c => decide (c ≠ '.'))) h2
  rw [key, key] at h3
  have h4 := (List.append_inj h2 (by rw [h3])).2
  have h5 : k.alg = k'.alg := by
    have := (List.cons.inj h4).2
    cases hk : k.alg <;> cases hk' : k'.alg <;> rw [hk, hk'] at this <;> simp [Algorithm.extension] at this ⊢
  have h6 := hex32_injective _ _ h1
  have h7 := decimal_injective _ _ h3
  cases k
  cases k'
  simp_all

/-- C65.  A file name has no path separator of any system and is not one of the names with a special meaning: the file lies in the
cache directory itself. -/
theorem C65_inside_directory (k : Key) :
    '/' ∉ fileName k ∧ '\\' ∉ fileName k ∧ fileName k ≠ [] ∧ fileName k ≠ ['.'] ∧ fileName k ≠ ['.', '.'] := by
  have hl : 32 ≤ (fileName k).length := by
    unfold fileName
    rw [List.length_append, hex32_length]
    omega
  have key : ∀ c ∈ fileName k, c ≠ '/' ∧ c ≠ '\\' := by
    intro c h
    unfold fileName at h
    rcases List.mem_append.mp h with h | h
    · unfold hex32 at h
      rcases List.mem_append.mp h with h | h
      · rw [List.eq_of_mem_replicate h]; decide
      · have := digits_plain 16 _ (by decide) (by decide) _ h
        exact ⟨this.2.2.2.1, this.2.2.2.2.2⟩
    · rcases List.mem_cons.mp h with h | h
      · rw [h]; decide
      · rcases List.mem_append.mp h with h | h
        · exact ⟨(decimal_plain _ _ h).2.1, (decimal_plain _ _ h).2.2.2⟩
        · have : ∀ a : Algorithm, ∀ c ∈ '.' :: a.extension, c ≠ '/' ∧ c ≠ '\\' := by
            intro a
            cases a <;> decide
          exact this _ _ h
  refine ⟨fun h => (key _ h).1 rfl, fun h => (key _ h).2 rfl, ?_, ?_, ?_⟩
  all_goals
    intro h
    rw [h] at hl
    exact absurd hl (by decide)

/-- Cases of C65. -/
example : String.ofList (fileName ⟨0x1a2b, -3, .zstandard⟩) = "                            1a2b_-3.zst" := by decide +kernel
example : String.ofList (fileName ⟨0, 16, .losslessTransformUtils⟩) = "                               0_16.ltu" := by
  decide +kernel

end Dlt.Props
