import Verif.Lemmas.SplitEndpoints
/-!
# C15: splitting colour endpoints
-/

namespace Dlt.Props
open Split

/-- The first colours of `n` four-byte pairs. -/
def firsts (n : Nat) (data : Buf) : Buf := (List.range n).flatMap (fun i => slice data (i * 4) 2)
/-- The second colours of `n` four-byte pairs. -/
def seconds (n : Nat) (data : Buf) : Buf := (List.range n).flatMap (fun i => slice data (i * 4 + 2) 2)
/-- Interleave the colours of two sections. -/
def interleave (n : Nat) (a b : Buf) : Buf :=
  (List.range n).flatMap (fun i => slice a (i * 2) 2 ++ slice b (i * 2) 2)

/-- **C15**, layout: on every machine the output is the first colours in order, then the second
colours in order, and the rest of the buffer is untouched. -/
theorem C15_split_layout (m : Machine) (data out : Buf) (n : Nat) (hd : data.length = 4 * n)
    (ho : data.length ≤ out.length) :
    splitColorEndpoints m data out data.length =
      some (firsts n data ++ seconds n data ++ out.drop data.length) := by
  have hd' : data.length = n * 4 := by omega
  rw [hd', split_eq m hd' (by omega)]
  congr 2
  simp only [Spec.columns, pairFields, List.flatMap_cons, List.flatMap_nil, List.append_nil]
  simp only [Spec.column, Spec.block, firsts, seconds]
  rw [hd', Nat.mul_div_cancel _ (by omega)]
  congr 1
  · exact flatMap_congr_range (fun i _ => by rw [slice_slice _ _ _ _ _ (by omega)]; rfl)
  · exact flatMap_congr_range (fun i _ => by rw [slice_slice _ _ _ _ _ (by omega)])

/-- **C15**, reversal: interleaving the two halves of the output gives back the input. -/
theorem C15_split_merge (m : Machine) (data out : Buf) (n : Nat) (hd : data.length = 4 * n)
    (ho : data.length ≤ out.length) :
    ∃ t, splitColorEndpoints m data out data.length = some t ∧
      interleave n (slice t 0 (2 * n)) (slice t (2 * n) (2 * n)) = data := by
  have hd' : data.length = n * 4 := by omega
  refine ⟨_, C15_split_layout m data out n hd ho, ?_⟩
  have l1 : (firsts n data).length = n * 2 :=
    flatMap_range_length n 2 _ (fun i hi => slice_length_of_le (by omega))
  have l2 : (seconds n data).length = n * 2 :=
    flatMap_range_length n 2 _ (fun i hi => slice_length_of_le (by omega))
  rw [List.append_assoc, slice_append_left _ _ _ _ (by omega), slice_append_right _ _ _ 0 _ (by omega),
    slice_append_left _ _ _ _ (by omega)]
  rw [slice_all (by omega), slice_all (by omega)]
  conv => rhs; rw [← flatMap_blocks hd']
  refine flatMap_congr_range (fun i hi => ?_)
  have h1 := flatMap_range_slice n 2 i 1 (fun i => slice data (i * 4) 2)
    (fun i hi => slice_length_of_le (by omega)) (by omega)
  have h2 := flatMap_range_slice n 2 i 1 (fun i => slice data (i * 4 + 2) 2)
    (fun i hi => slice_length_of_le (by omega)) (by omega)
  simp only [Nat.one_mul, List.range_one, List.flatMap_cons, List.flatMap_nil, List.append_nil,
    Nat.add_zero] at h1 h2
  rw [firsts, seconds, h1, h2, slice_append_slice]; rfl

/-- C15 on an SSE2 machine, 68 bytes: one vector iteration and one scalar one. -/
example : ∃ t, splitColorEndpoints (.x86 ⟨true, true, false, false, false, false, fun _ => 0⟩)
      ((List.range 68).map (BitVec.ofNat 8)) (List.replicate 70 9#8) 68 = some t ∧
    slice t 0 4 = [0#8, 1#8, 4#8, 5#8] ∧ slice t 34 4 = [2#8, 3#8, 6#8, 7#8] ∧
    slice t 66 4 = [66#8, 67#8, 9#8, 9#8] := by
  refine ⟨_, C15_split_layout _ ((List.range 68).map (BitVec.ofNat 8)) (List.replicate 70 9#8) 17 (by decide) (by decide), ?_⟩
  decide

end Dlt.Props
