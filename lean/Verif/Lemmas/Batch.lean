import Verif.Lemmas.Layout
import Verif.Lemmas.Ints
/-! The batch colour loops. -/

namespace Dlt

theorem ld_some {b : Buf} {off n : Nat} (h : off + n ≤ b.length) : ld b off n = some (slice b off n) := by
  simp [ld, h]

/-- A store right behind the part written so far. -/
theorem st_append {A R bs : Buf} {off : Nat} (ho : off = A.length) (h : bs.length ≤ R.length) :
    st (A ++ R) off bs = some (A ++ bs ++ R.drop bs.length) := by
  subst ho
  simp only [st, List.length_append]
  rw [if_pos (by omega), List.take_left, List.drop_length_add_append]

theorem ld16_some {e : Endian} {b : Buf} {off : Nat} (h : off + 2 ≤ b.length) :
    ld16 e b off = some (of16 e (slice b off 2)) := by
  simp [ld16, ld_some h]

namespace Batch

theorem mapLoop_eq (e : Endian) (f : U16 → U16) (src dst : Buf) (n : Nat) (hs : n * 2 ≤ src.length)
    (hd : n * 2 ≤ dst.length) :
    mapLoop e f src 0 dst 0 n =
      some ((List.range n).flatMap (fun i => to16 e (f (of16 e (slice src (i * 2) 2)))) ++ dst.drop (n * 2)) := by
  have hl : ∀ x, ((List.range x).flatMap (fun i => to16 e (f (of16 e (slice src (i * 2) 2))))).length = x * 2 :=
    fun x => flatMap_range_length _ _ _ (fun i _ => to16_length _ _)
  suffices h : Ok (mapLoop e f src 0 dst 0 n) (fun s => s =
      (List.range n).flatMap (fun i => to16 e (f (of16 e (slice src (i * 2) 2)))) ++ dst.drop (n * 2)) by
    obtain ⟨a, ha, rfl⟩ := h; exact ha
  apply Ok.forM (fun x s => s =
      (List.range x).flatMap (fun i => to16 e (f (of16 e (slice src (i * 2) 2)))) ++ dst.drop (x * 2)) 0 n
  · simp
  · rintro x s _ hx rfl
    rw [ld16_some (by omega)]
    refine ⟨_, ?_, rfl⟩
    simp only [Option.bind_eq_bind, Option.bind_some, st16]
    rw [st_append (by rw [hl]; omega) (by simp; omega)]
    simp [List.range_succ, Nat.add_mul]
  · rintro s rfl; simp

theorem splitLoop_eq (e : Endian) (f : U16 → U16) (src0 src1 dst : Buf) (sp0 sp1 n : Nat)
    (h0 : sp0 + n * 2 ≤ src0.length) (h1 : sp1 + n * 2 ≤ src1.length) (hd : n * 4 ≤ dst.length) :
    splitLoop e f src0 sp0 src1 sp1 dst 0 (n * 2) =
      some ((List.range n).flatMap (fun i => to16 e (f (of16 e (slice src0 (sp0 + i * 2) 2))) ++
        to16 e (f (of16 e (slice src1 (sp1 + i * 2) 2)))) ++ dst.drop (n * 4)) := by
  have hl : ∀ x, ((List.range x).flatMap (fun i => to16 e (f (of16 e (slice src0 (sp0 + i * 2) 2))) ++
        to16 e (f (of16 e (slice src1 (sp1 + i * 2) 2))))).length = x * 4 :=
    fun x => flatMap_range_length _ _ _ (fun i _ => by simp)
  suffices h : Ok (splitLoop e f src0 sp0 src1 sp1 dst 0 (n * 2)) (fun s => s =
      (List.range n).flatMap (fun i => to16 e (f (of16 e (slice src0 (sp0 + i * 2) 2))) ++
        to16 e (f (of16 e (slice src1 (sp1 + i * 2) 2)))) ++ dst.drop (n * 4)) by
    obtain ⟨a, ha, rfl⟩ := h; exact ha
  unfold splitLoop
  rw [show n * 2 / 2 = n by omega]
  apply Ok.forM (fun x s => s =
      (List.range x).flatMap (fun i => to16 e (f (of16 e (slice src0 (sp0 + i * 2) 2))) ++
        to16 e (f (of16 e (slice src1 (sp1 + i * 2) 2)))) ++ dst.drop (x * 4)) 0 n
  · simp
  · rintro x s _ hx rfl
    rw [ld16_some (by omega), ld16_some (by omega)]
    refine ⟨_, ?_, rfl⟩
    simp only [Option.bind_eq_bind, Option.bind_some, st16]
    rw [st_append (by rw [hl]; omega) (by simp; omega)]
    simp only [Option.bind_some]
    rw [st_append (by rw [List.length_append, hl]; simp; omega) (by simp; omega)]
    simp [List.range_succ, Nat.add_mul]
  · rintro s rfl; simp

theorem recorrelatePtrSplit_eq (e : Endian) (v : Variant) (src0 src1 dst : Buf) (sp0 sp1 n : Nat)
    (h0 : sp0 + n * 2 ≤ src0.length) (h1 : sp1 + n * 2 ≤ src1.length) (hd : n * 4 ≤ dst.length) :
    recorrelatePtrSplit e src0 sp0 src1 sp1 dst 0 (n * 2) v =
      some ((List.range n).flatMap (fun i => decCol e v (slice src0 (sp0 + i * 2) 2) ++
        decCol e v (slice src1 (sp1 + i * 2) 2)) ++ dst.drop (n * 4)) := by
  cases v
  · exact splitLoop_eq e _ src0 src1 dst sp0 sp1 n h0 h1 hd
  · exact splitLoop_eq e _ src0 src1 dst sp0 sp1 n h0 h1 hd
  · exact splitLoop_eq e _ src0 src1 dst sp0 sp1 n h0 h1 hd
  · simp only [recorrelatePtrSplit]
    split
    · exact splitLoop_eq e id src0 src1 dst sp0 sp1 n h0 h1 hd
    · have : n = 0 := by omega
      subst this; simp

end Batch
end Dlt

namespace Dlt.Batch

theorem column_copy {src : Buf} {n : Nat} (h : src.length = n * 2) (e : Endian) :
    (List.range n).flatMap (fun i => to16 e (of16 e (slice src (i * 2) 2))) = src := by
  conv => rhs; rw [← flatMap_blocks h]
  apply flatMap_congr_range
  intro i hi
  have := block_length h hi
  unfold Spec.block at this ⊢
  revert this
  generalize slice src (i * 2) 2 = l
  intro hl
  match l, hl with
  | [a, b], _ => exact to16_of16 e a b

theorem decorrelateSlice_eq (e : Endian) (v : Variant) (src dst : Buf) (h2 : src.length % 2 = 0)
    (hd : src.length ≤ dst.length) :
    decorrelateSlice e src dst v = some ((List.range (src.length / 2)).flatMap
      (fun i => encCol e v (slice src (i * 2) 2)) ++ dst.drop src.length) := by
  have hn : src.length = src.length / 2 * 2 := by omega
  have hc := column_copy hn e
  unfold decorrelateSlice
  generalize hk : src.length / 2 = n at hn hc
  rw [hn]
  cases v
  · exact mapLoop_eq e _ src dst n (by omega) (by omega)
  · exact mapLoop_eq e _ src dst n (by omega) (by omega)
  · exact mapLoop_eq e _ src dst n (by omega) (by omega)
  · show (if 0 < n then (ld src 0 (n * 2)).bind (fun bs => st dst 0 bs) else some dst) = _
    have : (fun i => encCol e .none (slice src (i * 2) 2)) =
        (fun i => to16 e (of16 e (slice src (i * 2) 2))) := rfl
    rw [this, hc]
    by_cases h0 : 0 < n
    · rw [if_pos h0, ld_some (by omega)]
      have hs : slice src 0 (n * 2) = src := by rw [← hn]; simp [slice]
      have := st_append (A := []) (R := dst) (bs := src) rfl hd
      rw [Option.bind_some, hs, ← hn]
      simpa using this
    · have : n = 0 := by omega
      subst this
      have : src = [] := List.eq_nil_of_length_eq_zero (by omega)
      subst this; simp

theorem recorrelateSlice_eq (e : Endian) (v : Variant) (src dst : Buf) (h2 : src.length % 2 = 0)
    (hd : src.length ≤ dst.length) :
    recorrelateSlice e src dst v = some ((List.range (src.length / 2)).flatMap
      (fun i => decCol e v (slice src (i * 2) 2)) ++ dst.drop src.length) := by
  have hn : src.length = src.length / 2 * 2 := by omega
  have hnone := decorrelateSlice_eq e .none src dst h2 hd
  unfold recorrelateSlice
  generalize hk : src.length / 2 = n at hn hnone
  cases v
  · rw [hn]; exact mapLoop_eq e _ src dst n (by omega) (by omega)
  · rw [hn]; exact mapLoop_eq e _ src dst n (by omega) (by omega)
  · rw [hn]; exact mapLoop_eq e _ src dst n (by omega) (by omega)
  · unfold decorrelateSlice at hnone
    rw [hk] at hnone
    exact hnone

end Dlt.Batch
