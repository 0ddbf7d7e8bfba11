import Verif.Props.ColourPart
import Verif.Props.Pieces
import Verif.Lemmas.Batch
import Verif.Lemmas.SplitEndpoints
/-!
# C111: the settings are separate steps

Decorrelation and the separation of the end points are done by kernels of their own for each combination.  Here: what these leave in
the section of the end points is the same as the plain transform followed by the public functions for the single steps, and all
other sections are the same for all settings.
-/

namespace Dlt.Props
open Spec Batch Split

/-- The end points are turned into columns of two bytes. -/
theorem column_flatMap {w : Nat} {f : Buf → Buf} : ∀ (n : Nat) (g : Nat → Buf), (∀ i, i < n → (g i).length = w * 2) →
    column 2 ((List.range n).flatMap g) f = (List.range n).flatMap fun i => column 2 (g i) f
  | 0, _, _ => by simp [column]
  | n + 1, g, h => by
    have l1 : ((List.range n).flatMap g).length = n * w * 2 := by
      rw [flatMap_range_length n (w * 2) g fun i hi => h i (by omega), Nat.mul_assoc]
    rw [List.range_succ, List.flatMap_append, List.flatMap_append, List.flatMap_singleton, List.flatMap_singleton,
      column_append (by omega) l1 (h n (by omega)), column_flatMap n g fun i hi => h i (by omega)]

theorem column_single {a : Buf} (f : Buf → Buf) (h : a.length = 2) : column 2 a f = f a := by
  have : slice a 0 2 = a := slice_all h
  simp [column, h, block, this]

theorem column_pair {a b : Buf} (f : Buf → Buf) (ha : a.length = 2) (hb : b.length = 2) : column 2 (a ++ b) f = f a ++ f b := by
  rw [column_append (na := 1) (nb := 1) (by omega) ha hb, column_single f ha, column_single f hb]

/-- The end points of a transformed BC1 texture. -/
def endPoints (e : Endian) (s : ColourSettings) (data : Buf) : Buf :=
  if s.split then column 8 data (fun b => encCol e s.decorr (slice b 0 2)) ++ column 8 data (fun b => encCol e s.decorr (slice b 2 2))
  else column 8 data fun b => encCol e s.decorr (slice b 0 2) ++ encCol e s.decorr (slice b 2 2)

theorem endPoints_true (e : Endian) (v : Variant) (data : Buf) : endPoints e ⟨v, true⟩ data =
    column 8 data (fun b => encCol e v (slice b 0 2)) ++ column 8 data (fun b => encCol e v (slice b 2 2)) := by
  simp [endPoints]

theorem endPoints_false (e : Endian) (v : Variant) (data : Buf) : endPoints e ⟨v, false⟩ data =
    column 8 data fun b => encCol e v (slice b 0 2) ++ encCol e v (slice b 2 2) := by
  simp [endPoints]

theorem encode1_parts (e : Endian) (s : ColourSettings) (data : Buf) :
    Bc1.encode e s data = endPoints e s data ++ column 8 data fun b => slice b 4 4 := by
  unfold Bc1.encode endPoints
  cases s.split <;> simp [columns, bc1Fields]

theorem endPoints_length {n : Nat} {data : Buf} (h : data.length = n * 8) (e : Endian) (s : ColourSettings) :
    (endPoints e s data).length = n * 4 := by
  unfold endPoints
  split
  · rw [List.length_append, column_length (w := 2) (by omega) h fun _ _ => encCol_length _ _ _,
      column_length (w := 2) (by omega) h fun _ _ => encCol_length _ _ _]
    omega
  · exact column_length (by omega) h fun _ _ => by rw [List.length_append, encCol_length, encCol_length]

/-- A function applied to each colour of the end points. -/
theorem column_endPoints {n : Nat} {data : Buf} (h : data.length = n * 8) (e : Endian) (s : ColourSettings) (f : Buf → Buf) :
    column 2 (endPoints e s data) f =
      if s.split then column 8 data (fun b => f (encCol e s.decorr (slice b 0 2))) ++
        column 8 data (fun b => f (encCol e s.decorr (slice b 2 2)))
      else column 8 data fun b => f (encCol e s.decorr (slice b 0 2)) ++ f (encCol e s.decorr (slice b 2 2)) := by
  have hc : ∀ bs : Buf, (encCol e s.decorr bs).length = 2 := encCol_length e s.decorr
  unfold endPoints
  by_cases hs : s.split = true
  · rw [if_pos hs, if_pos hs, column_append (na := n) (nb := n) (by omega) (column_length (by omega) h fun _ _ => hc _)
      (column_length (by omega) h fun _ _ => hc _)]
    have key : ∀ o, column 2 (column 8 data fun b => encCol e s.decorr (slice b o 2)) f =
        column 8 data fun b => f (encCol e s.decorr (slice b o 2)) := fun o => by
      rw [column.eq_def 8, column.eq_def 8, column_flatMap (w := 1) _ _ fun i _ => hc _]
      exact flatMap_congr_range fun i _ => column_single f (hc _)
    rw [key, key]
  · rw [if_neg hs, if_neg hs, column.eq_def 8, column.eq_def 8,
      column_flatMap (w := 2) _ _ fun i _ => by rw [List.length_append, hc, hc]]
    exact flatMap_congr_range fun i _ => column_pair f (hc _) (hc _)

theorem column8_congr {n : Nat} {data : Buf} (h : data.length = n * 8) {f g : Buf → Buf} (hfg : ∀ b : Buf, b.length = 8 → f b = g b) :
    column 8 data f = column 8 data g := by
  unfold column
  rw [length_div (by omega) h]
  exact flatMap_congr_range fun i hi => hfg _ (block_length h hi)

theorem endPoints_decorrelate {n : Nat} {data : Buf} (h : data.length = n * 8) (e : Endian) (v : Variant) (split : Bool) :
    column 2 (endPoints e ⟨.none, split⟩ data) (encCol e v) = endPoints e ⟨v, split⟩ data := by
  have key : ∀ (b : Buf) (o : Nat), b.length = 8 → o + 2 ≤ 8 → encCol e v (encCol e .none (slice b o 2)) = encCol e v (slice b o 2) :=
    fun b o hb ho => by rw [encCol_none e (slice_length_of_le (by omega))]
  rw [column_endPoints h]
  cases split
  · rw [endPoints_false]
    simp only [Bool.false_eq_true, if_false]
    exact column8_congr h fun b hb => by rw [key b 0 hb (by omega), key b 2 hb (by omega)]
  · rw [endPoints_true]
    simp only [if_true]
    rw [column8_congr h fun b hb => key b 0 hb (by omega), column8_congr h fun b hb => key b 2 hb (by omega)]

theorem endPoints_recorrelate {n : Nat} {data : Buf} (h : data.length = n * 8) (e : Endian) (v : Variant) (split : Bool) :
    column 2 (endPoints e ⟨v, split⟩ data) (decCol e v) = endPoints e ⟨.none, split⟩ data := by
  have key : ∀ (b : Buf) (o : Nat), b.length = 8 → o + 2 ≤ 8 → decCol e v (encCol e v (slice b o 2)) = encCol e .none (slice b o 2) :=
    fun b o hb ho => by
      rw [encCol_none e (slice_length_of_le (by omega)), decCol_encCol e v (slice_length_of_le (by omega))]
  rw [column_endPoints h]
  cases split
  · rw [endPoints_false]
    simp only [Bool.false_eq_true, if_false]
    exact column8_congr h fun b hb => by rw [key b 0 hb (by omega), key b 2 hb (by omega)]
  · rw [endPoints_true]
    simp only [if_true]
    rw [column8_congr h fun b hb => key b 0 hb (by omega), column8_congr h fun b hb => key b 2 hb (by omega)]

theorem endPoints_split {n : Nat} {data : Buf} (h : data.length = n * 8) (e : Endian) (v : Variant) :
    columns 4 pairFields (endPoints e ⟨v, false⟩ data) = endPoints e ⟨v, true⟩ data := by
  have hl := endPoints_length h e ⟨v, false⟩
  have hc : ∀ bs : Buf, (encCol e v bs).length = 2 := encCol_length e v
  have hb : ∀ i, i < n → block 4 (endPoints e ⟨v, false⟩ data) i =
      encCol e v (slice (block 8 data i) 0 2) ++ encCol e v (slice (block 8 data i) 2 2) := fun i hi => by
    have := flatMap_range_slice n 4 i 1 (fun i => encCol e v (slice (block 8 data i) 0 2) ++ encCol e v (slice (block 8 data i) 2 2))
      (fun j _ => by rw [List.length_append, hc, hc]) (by omega)
    rw [endPoints_false]
    unfold column
    rw [length_div (by omega) h]
    simpa [block] using this
  rw [endPoints_true]
  simp only [columns, pairFields, List.flatMap_cons, List.flatMap_nil, List.append_nil]
  unfold column
  rw [length_div (by omega) hl, length_div (by omega) h]
  congr 1
  · exact flatMap_congr_range fun i hi => by
      simp only []
      rw [hb i hi, slice_append_left _ _ _ _ (by rw [hc]), slice_all (hc _)]
  · exact flatMap_congr_range fun i hi => by
      simp only []
      rw [hb i hi, slice_append_right _ _ _ 0 _ (by rw [hc]), slice_all (hc _)]

/-! ## Specification -/

/-- Two transformed textures `t` and `t'` of `n` blocks with `a` bytes of alpha per block are the same except for the end points, and those
of `t'` are what `step` makes of those of `t`, given any buffer of the right size. -/
def OneStep (a n : Nat) (step : Buf → Buf → Option Buf) (t t' : Buf) : Prop :=
  t'.take (n * a) = t.take (n * a) ∧ t'.drop (n * a + n * 4) = t.drop (n * a + n * 4) ∧
    ∀ x : Buf, x.length = n * 4 → step (slice t (n * a) (n * 4)) x = some (slice t' (n * a) (n * 4))

theorem oneStep_of {a n : Nat} {step : Buf → Buf → Option Buf} {A P P' I : Buf} (ha : A.length = n * a) (hp : P.length = n * 4)
    (hp' : P'.length = n * 4) (h : ∀ x : Buf, x.length = n * 4 → step P x = some P') : OneStep a n step (A ++ (P ++ I)) (A ++ (P' ++ I)) := by
  have d : ∀ Q : Buf, Q.length = n * 4 → (A ++ (Q ++ I)).drop (n * a + n * 4) = I := fun Q hq => by
    rw [← List.append_assoc]; exact List.drop_left' (by rw [List.length_append]; omega)
  have s : ∀ Q : Buf, Q.length = n * 4 → slice (A ++ (Q ++ I)) (n * a) (n * 4) = Q := fun Q hq => by
    rw [slice_append_right _ _ _ 0 _ (by omega), slice_append_left _ _ _ _ (by omega), slice_all hq]
  refine ⟨by rw [List.take_left' ha, List.take_left' ha], by rw [d P hp, d P' hp'], fun x hx => ?_⟩
  rw [s P hp, s P' hp']
  exact h x hx

/-- The three steps for the end points of BC1 blocks. -/
theorem steps_of {a n : Nat} {A data I : Buf} (h : data.length = n * 8) (ha : A.length = n * a) (e : Endian) (m : Machine) (v : Variant) :
    (∀ split, OneStep a n (fun t x => decorrelateSlice e t x v) (A ++ (endPoints e ⟨.none, split⟩ data ++ I))
      (A ++ (endPoints e ⟨v, split⟩ data ++ I))) ∧
    (∀ split, OneStep a n (fun t x => recorrelateSlice e t x v) (A ++ (endPoints e ⟨v, split⟩ data ++ I))
      (A ++ (endPoints e ⟨.none, split⟩ data ++ I))) ∧
    OneStep a n (fun t x => splitColorEndpoints m t x t.length) (A ++ (endPoints e ⟨v, false⟩ data ++ I))
      (A ++ (endPoints e ⟨v, true⟩ data ++ I)) := by
  have hl := endPoints_length h e
  refine ⟨fun split => oneStep_of ha (hl _) (hl _) fun x hx => ?_, fun split => oneStep_of ha (hl _) (hl _) fun x hx => ?_,
    oneStep_of ha (hl _) (hl _) fun x hx => ?_⟩
  · rw [decorrelateSlice_eq e v _ x (by rw [hl]; omega) (by rw [hl]; omega), List.drop_of_length_le (by rw [hl]; omega),
      List.append_nil, ← endPoints_decorrelate h e v]
    rfl
  · rw [recorrelateSlice_eq e v _ x (by rw [hl]; omega) (by rw [hl]; omega), List.drop_of_length_le (by rw [hl]; omega),
      List.append_nil, ← endPoints_recorrelate h e v]
    rfl
  · rw [hl, split_eq m (hl _) (by omega), List.drop_of_length_le (by omega), List.append_nil, endPoints_split h]

/-- **C111**, BC1.  For each variant: decorrelating the end points of a texture transformed without decorrelation gives the texture
transformed with it, recorrelating leads back, and separating the end points of a texture transformed without separation gives the texture
transformed with it.  The single steps may run on another CPU. -/
theorem C111_bc1 (m m' : Machine) (n : Nat) (data out : Buf) (v : Variant) (h : data.length = n * 8) (ho : out.length = data.length) :
    ∃ t : ColourSettings → Buf, (∀ s, Bc1.transformWithSettings m data out data.length s = some (t s)) ∧
      (∀ split, OneStep 0 n (fun p x => decorrelateSlice m.endian p x v) (t ⟨.none, split⟩) (t ⟨v, split⟩)) ∧
      (∀ split, OneStep 0 n (fun p x => recorrelateSlice m.endian p x v) (t ⟨v, split⟩) (t ⟨.none, split⟩)) ∧
      OneStep 0 n (fun p x => splitColorEndpoints m' p x p.length) (t ⟨v, false⟩) (t ⟨v, true⟩) := by
  refine ⟨fun s => [] ++ (endPoints m.endian s data ++ column 8 data fun b => slice b 4 4), fun s => ?_, ?_⟩
  · have e1 := (Bc1.transform_impl m s data out (by omega) (by omega)).2
    simp only [] at e1
    rw [e1, List.drop_of_length_le (by omega), List.append_nil, encode1_parts]
    rfl
  · exact steps_of (A := []) h (by simp) m.endian m' v

/-- **C111**, BC2. -/
theorem C111_bc2 (m m' : Machine) (n : Nat) (data out : Buf) (v : Variant) (h : data.length = n * 16) (ho : out.length = data.length) :
    ∃ t : ColourSettings → Buf, (∀ s, Bc2.transformWithSettings m data out data.length s = some (t s)) ∧
      (∀ split, OneStep 8 n (fun p x => decorrelateSlice m.endian p x v) (t ⟨.none, split⟩) (t ⟨v, split⟩)) ∧
      (∀ split, OneStep 8 n (fun p x => recorrelateSlice m.endian p x v) (t ⟨v, split⟩) (t ⟨.none, split⟩)) ∧
      OneStep 8 n (fun p x => splitColorEndpoints m' p x p.length) (t ⟨v, false⟩) (t ⟨v, true⟩) := by
  refine ⟨fun s => column 16 data (fun b => slice b 0 8) ++
    (endPoints m.endian s (coloursOf data) ++ column 8 (coloursOf data) fun b => slice b 4 4), fun s => ?_, ?_⟩
  · have e1 := (Bc2.transform_impl m s data out (by omega) (by omega)).2
    simp only [] at e1
    rw [e1, List.drop_of_length_le (by omega), List.append_nil, encode2_eq h, encode1_parts]
  · exact steps_of (coloursOf_length h) (column_length (by omega) h fun _ hb => slice_length_of_le (by omega)) m.endian m' v

/-- **C111**, BC3, with the alpha end points separated or not. -/
theorem C111_bc3 (m m' : Machine) (n : Nat) (data out : Buf) (v : Variant) (splitAlpha : Bool) (h : data.length = n * 16)
    (ho : out.length = data.length) :
    ∃ t : ColourSettings → Buf,
      (∀ s : ColourSettings, Bc3.transformWithSettings m data out data.length
        { decorr := s.decorr, splitAlpha := splitAlpha, splitColour := s.split } = some (t s)) ∧
      (∀ split, OneStep 8 n (fun p x => decorrelateSlice m.endian p x v) (t ⟨.none, split⟩) (t ⟨v, split⟩)) ∧
      (∀ split, OneStep 8 n (fun p x => recorrelateSlice m.endian p x v) (t ⟨v, split⟩) (t ⟨.none, split⟩)) ∧
      OneStep 8 n (fun p x => splitColorEndpoints m' p x p.length) (t ⟨v, false⟩) (t ⟨v, true⟩) := by
  obtain ⟨ws, hsum, hfit⟩ := alphaFields_fits splitAlpha
  refine ⟨fun s => columns 16 (alphaFields splitAlpha) data ++
    (endPoints m.endian s (coloursOf data) ++ column 8 (coloursOf data) fun b => slice b 4 4), fun s => ?_, ?_⟩
  · have e1 := (Bc3.transform_impl m { decorr := s.decorr, splitAlpha := splitAlpha, splitColour := s.split } data out (by omega) (by omega)).2
    simp only [] at e1
    rw [e1, List.drop_of_length_le (by omega), List.append_nil, encode3_eq h, encode1_parts]
  · exact steps_of (coloursOf_length h) (by rw [columns_length (by omega) h hfit, hsum]) m.endian m' v

/-! ## A concrete texture -/

/-- Two BC1 blocks: plain, then decorrelated, then separated. -/
example :
    Bc1.transformWithSettings (.other .little fun _ => 0) [1, 2, 3, 4, 5, 6, 7, 8, 9, 10, 11, 12, 13, 14, 15, 16] (List.replicate 16 0) 16
      ⟨.none, false⟩ = some [1, 2, 3, 4, 9, 10, 11, 12, 5, 6, 7, 8, 13, 14, 15, 16] ∧
    decorrelateSlice .little [1, 2, 3, 4, 9, 10, 11, 12] (List.replicate 8 0) .v1 = some [216, 231, 95, 7, 19, 246, 154, 29] ∧
    splitColorEndpoints (.other .little fun _ => 0) [216, 231, 95, 7, 19, 246, 154, 29] (List.replicate 8 0) 8 =
      some [216, 231, 19, 246, 95, 7, 154, 29] ∧
    Bc1.transformWithSettings (.other .little fun _ => 0) [1, 2, 3, 4, 5, 6, 7, 8, 9, 10, 11, 12, 13, 14, 15, 16] (List.replicate 16 0) 16
      ⟨.v1, true⟩ = some [216, 231, 19, 246, 95, 7, 154, 29, 5, 6, 7, 8, 13, 14, 15, 16] := by
  decide +kernel

end Dlt.Props
