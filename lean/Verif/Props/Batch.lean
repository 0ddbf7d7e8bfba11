import Verif.Lemmas.Batch
/-!
# Batch colour functions: C14

A buffer of colours holds native-endian 16-bit words; `word e buf i` is word `i`.
-/

namespace Dlt.Props
open Batch

/-- Colour number `i` of a buffer. -/
def word (e : Endian) (b : Buf) (i : Nat) : U16 := of16 e (slice b (i * 2) 2)

/-- **C14**, slices. Every colour of the destination is the decorrelated (recorrelated) colour of the
source at the same index; the rest of the destination is unchanged. -/
theorem C14_batch_slice (e : Endian) (v : Variant) (src dst : Buf) (h2 : src.length % 2 = 0)
    (hd : src.length ≤ dst.length) :
    ∃ d r, decorrelateSlice e src dst v = some d ∧ recorrelateSlice e src dst v = some r ∧
      d.length = dst.length ∧ r.length = dst.length ∧
      (∀ i, i < src.length / 2 → word e d i = Color565.decorr v (word e src i) ∧
        word e r i = Color565.recorr v (word e src i)) ∧
      d.drop src.length = dst.drop src.length ∧ r.drop src.length = dst.drop src.length := by
  have key : ∀ (f : U16 → U16), ∃ A : Buf, (List.range (src.length / 2)).flatMap
      (fun i => to16 e (f (of16 e (slice src (i * 2) 2)))) = A ∧ A.length = src.length ∧
      ∀ i, i < src.length / 2 → slice A (i * 2) 2 = to16 e (f (word e src i)) := by
    intro f
    have hw : ∀ i, i < src.length / 2 → (to16 e (f (of16 e (slice src (i * 2) 2)))).length = 2 :=
      fun i _ => to16_length _ _
    refine ⟨_, rfl, ?_, fun i hi => ?_⟩
    · rw [flatMap_range_length _ 2 _ hw]; omega
    · have := flatMap_range_slice _ 2 i 1 _ hw (by omega)
      rw [Nat.one_mul] at this
      rw [this]; simp [word]
  obtain ⟨A, hA, hAl, hAs⟩ := key (Color565.decorr v)
  obtain ⟨R, hR, hRl, hRs⟩ := key (Color565.recorr v)
  refine ⟨A ++ dst.drop src.length, R ++ dst.drop src.length, ?_, ?_, ?_, ?_, fun i hi => ⟨?_, ?_⟩, ?_, ?_⟩
  · rw [decorrelateSlice_eq e v src dst h2 hd]; simp only [encCol]; rw [hA]
  · rw [recorrelateSlice_eq e v src dst h2 hd]; simp only [decCol]; rw [hR]
  · simp; omega
  · simp; omega
  · rw [word, slice_append_left _ _ _ _ (by omega), hAs i hi, of16_to16]
  · rw [word, slice_append_left _ _ _ _ (by omega), hRs i hi, of16_to16]
  · rw [List.drop_left' hAl]
  · rw [List.drop_left' hRl]

/-- Two colours, all of them changed by variant 1. -/
example : decorrelateSlice .little [0x1F, 0, 0, 0xF8] [9, 9, 9, 9, 9] .v1 =
    some [0x41, 0xF8, 0xD1, 0xBF, 9] := by decide

/-- **C14**, split sources. The destination alternates between recorrelated colours of the first and
of the second source. -/
theorem C14_batch_split (e : Endian) (v : Variant) (src0 src1 dst : Buf) (h2 : src0.length % 2 = 0)
    (h01 : src0.length = src1.length) (hd : src0.length + src1.length ≤ dst.length) :
    ∃ d, recorrelateSliceSplit e src0 src1 dst v = some d ∧ d.length = dst.length ∧
      (∀ i, i < src0.length / 2 → word e d (2 * i) = Color565.recorr v (word e src0 i) ∧
        word e d (2 * i + 1) = Color565.recorr v (word e src1 i)) ∧
      d.drop (src0.length + src1.length) = dst.drop (src0.length + src1.length) := by
  obtain ⟨n, hn⟩ : ∃ n, src0.length = n * 2 := ⟨src0.length / 2, by omega⟩
  have hn2 : src0.length / 2 = n := by omega
  have h := recorrelatePtrSplit_eq e v src0 src1 dst 0 0 n (by omega) (by omega) (by omega)
  rw [hn2]
  have hw : ∀ i, i < n → (decCol e v (slice src0 (0 + i * 2) 2) ++
      decCol e v (slice src1 (0 + i * 2) 2)).length = 4 := fun i _ => by simp
  have hl := flatMap_range_length n 4 _ hw
  refine ⟨_, by unfold recorrelateSliceSplit; rw [hn2]; exact h, by simp only [List.length_append, hl, List.length_drop]; omega, fun i hi => ?_, ?_⟩
  · have hs := flatMap_range_slice n 4 i 1 _ hw (by omega)
    simp only [Nat.one_mul, List.range_one, List.flatMap_cons, List.flatMap_nil, List.append_nil,
      Nat.zero_add, Nat.add_zero] at hs
    constructor
    · rw [word, slice_append_left _ _ _ _ (by omega), show 2 * i * 2 = i * 4 + 0 by omega]
      simp only [Nat.zero_add]
      rw [← slice_slice _ (i * 4) 4 0 2 (by omega), hs, slice_append_left _ _ _ _ (by simp),
        show slice (decCol e v (slice src0 (i * 2) 2)) 0 2 = decCol e v (slice src0 (i * 2) 2) by
          have := decCol_length e v (slice src0 (i * 2) 2)
          unfold slice at this ⊢
          rw [List.drop_zero, List.take_of_length_le (by omega)]]
      exact of16_to16 e _
    · rw [word, slice_append_left _ _ _ _ (by omega), show (2 * i + 1) * 2 = i * 4 + 2 by omega]
      simp only [Nat.zero_add]
      rw [← slice_slice _ (i * 4) 4 2 2 (by omega), hs, slice_append_right _ _ _ 0 _ (by simp),
        show slice (decCol e v (slice src1 (i * 2) 2)) 0 2 = decCol e v (slice src1 (i * 2) 2) by
          have := decCol_length e v (slice src1 (i * 2) 2)
          unfold slice at this ⊢
          rw [List.drop_zero, List.take_of_length_le (by omega)]]
      exact of16_to16 e _
  · rw [show src0.length + src1.length = n * 4 by omega, List.drop_left' hl]

/-- Two colours per source, variant 1, little-endian. -/
example : recorrelateSliceSplit .little [0x41, 0xF8, 0x41, 0xF8] [0xD1, 0xBF, 0xD1, 0xBF]
    (List.replicate 8 0) .v1 = some [0x1F, 0, 0, 0xF8, 0x1F, 0, 0, 0xF8] := by decide

end Dlt.Props
