import Verif.Props.Brightness
/-!
# C119: the three decorrelation variants store the same bits in another order

Textures transformed with two of the variants, all else being equal, differ in the order of the 16 bits of each colour only.
-/

namespace Dlt.Props
open Spec

/-! ## Specification -/

/-- Where bit `i` of a colour stored with variant 1 (luma, Co, low green bit, Cg) stands if it is stored with another variant: variant 2
begins with the low green bit, variant 3 ends with it. -/
def bitPos : Variant → Nat → Nat
  | .v2, i => if i < 5 then i else if i = 5 then 15 else i - 1
  | .v3, i => if i < 5 then i + 1 else if i = 5 then 0 else i
  | _, i => i

/-- Bit `i` of a number. -/
def bitAt (w i : Nat) : Nat := w / 2 ^ i % 2

/-- The number of bits of a colour that are set. -/
def ones (w : Nat) : Nat := ((List.range 16).map (bitAt w)).sum

/-- Each of the 16 places is taken once. -/
theorem bitPos_perm {v : Variant} : ((List.range 16).map (bitPos v)).Perm (List.range 16) := by cases v <;> decide

/-! ## One colour -/

theorem bitAt_field (h : Nat) {r k : Nat} (hr : r < 2 ^ k) (i : Nat) :
    bitAt (2 ^ k * h + r) i = if i < k then bitAt r i else bitAt h (i - k) := by
  unfold bitAt
  rw [← Nat.toNat_testBit, ← Nat.toNat_testBit, ← Nat.toNat_testBit, Nat.testBit_two_pow_mul_add _ hr]
  split <;> rfl

theorem variant_bits {v : Variant} (hv : v ≠ .none) (c : Nat) {i : Nat} (hi : i < 16) :
    bitAt (decorrelate v c) (bitPos v i) = bitAt (decorrelate .v1 c) i := by
  have k1 : 0 ≤ co (red5 c) (blue5 c) ∧ co (red5 c) (blue5 c) < 32 := by unfold co; omega
  have k2 : 0 ≤ cg (red5 c) (green5 c) (blue5 c) ∧ cg (red5 c) (green5 c) (blue5 c) < 32 := by unfold cg; omega
  have k3 : 0 ≤ yy (red5 c) (green5 c) (blue5 c) ∧ yy (red5 c) (green5 c) (blue5 c) < 32 := by unfold yy; omega
  have hl : greenLow c < 2 ^ 1 := by unfold greenLow; omega
  unfold decorrelate
  generalize yy (red5 c) (green5 c) (blue5 c) = y at *
  generalize co (red5 c) (blue5 c) = o at *
  generalize cg (red5 c) (green5 c) (blue5 c) = g at *
  generalize greenLow c = l at *
  obtain ⟨y, rfl⟩ := Int.eq_ofNat_of_zero_le k3.1
  obtain ⟨o, rfl⟩ := Int.eq_ofNat_of_zero_le k1.1
  obtain ⟨g, rfl⟩ := Int.eq_ofNat_of_zero_le k2.1
  have hy : y < 2 ^ 5 := by omega
  have ho : o < 2 ^ 5 := by omega
  have hg : g < 2 ^ 5 := by omega
  clear k1 k2 k3
  simp only [Int.toNat_natCast]
  cases v
  · rfl
  · rw [show y * 2 ^ 11 + o * 2 ^ 6 + l * 2 ^ 5 + g = 2 ^ 5 * (2 ^ 1 * (2 ^ 5 * y + o) + l) + g by omega,
      show l * 2 ^ 15 + y * 2 ^ 10 + o * 2 ^ 5 + g = 2 ^ 5 * (2 ^ 5 * (2 ^ 5 * l + y) + o) + g by omega]
    rcases i with _ | _ | _ | _ | _ | _ | _ | _ | _ | _ | _ | _ | _ | _ | _ | _ | i
    all_goals first | omega | simp only [bitPos, Nat.reduceAdd, Nat.reduceLT, Nat.reduceSub, Nat.reduceEqDiff, if_true, if_false, bitAt_field _ hg,
      bitAt_field _ ho, bitAt_field _ hy, bitAt_field _ hl]
  · rw [show y * 2 ^ 11 + o * 2 ^ 6 + l * 2 ^ 5 + g = 2 ^ 5 * (2 ^ 1 * (2 ^ 5 * y + o) + l) + g by omega,
      show y * 2 ^ 11 + o * 2 ^ 6 + g * 2 + l = 2 ^ 1 * (2 ^ 5 * (2 ^ 5 * y + o) + g) + l by omega]
    rcases i with _ | _ | _ | _ | _ | _ | _ | _ | _ | _ | _ | _ | _ | _ | _ | _ | i
    all_goals first | omega | simp only [bitPos, Nat.reduceAdd, Nat.reduceLT, Nat.reduceSub, Nat.reduceEqDiff, if_true, if_false, bitAt_field _ hg,
      bitAt_field _ ho, bitAt_field _ hy, bitAt_field _ hl]
  · exact absurd rfl hv

/-- The number of set bits does not depend on their places. -/
theorem ones_places (v : Variant) (x : Nat) : (((List.range 16).map (bitPos v)).map (bitAt x)).sum = ones x :=
  ((bitPos_perm (v := v)).map (bitAt x)).sum_nat

theorem ones_eq {u v : Variant} {w x : Nat} (h : ∀ i, i < 16 → bitAt x (bitPos v i) = bitAt w (bitPos u i)) : ones x = ones w := by
  rw [← ones_places v x, ← ones_places u w, List.map_map, List.map_map]
  congr 1
  refine List.map_congr_left fun i hi => ?_
  exact h i (List.mem_range.1 hi)

/-! ## Textures -/

/-- The outputs `a`, with variant `u`, and `o`, with variant `v`, of `n` blocks with colours at byte `c`. -/
def SameBits (u v : Variant) (split : Bool) (c n : Nat) (a o : Buf) : Prop :=
  (∀ i q, i < n → q < 2 →
    (∀ k, k < 16 → bitAt (num16 o (place c split n i q)) (bitPos v k) = bitAt (num16 a (place c split n i q)) (bitPos u k)) ∧
    ones (num16 o (place c split n i q)) = ones (num16 a (place c split n i q))) ∧
  ∀ k, k < n * c ∨ n * (c + 4) ≤ k → o[k]? = a[k]?

theorem same_bits {u v : Variant} (hu : u ≠ .none) (hv : v ≠ .none) {split : Bool} {B c n : Nat} {data a o : Buf} (hB : c + 4 ≤ B)
    (hd : data.length = n * B) (ha : n * (c + 4) ≤ a.length) (ho : n * (c + 4) ≤ o.length)
    (h1 : ∀ i q, i < n → q < 2 → slice a (place c split n i q) 2 = encCol .little u (slice data (i * B + (c + 2 * q)) 2))
    (h : ∀ i q, i < n → q < 2 → slice o (place c split n i q) 2 = encCol .little v (slice data (i * B + (c + 2 * q)) 2))
    (hr : ∀ k, k < n * c ∨ n * (c + 4) ≤ k → o[k]? = a[k]?) : SameBits u v split c n a o := by
  refine ⟨fun i q hi hq => ?_, hr⟩
  rw [colours_at hB hd ha h1 i q hi hq, colours_at hB hd ho h i q hi hq]
  have key : ∀ k, k < 16 → bitAt (decorrelate v (num16 data (i * B + (c + 2 * q)))) (bitPos v k) =
      bitAt (decorrelate u (num16 data (i * B + (c + 2 * q)))) (bitPos u k) := fun k hk => by rw [variant_bits hv _ hk, variant_bits hu _ hk]
  exact ⟨key, ones_eq key⟩

theorem outside_eq {P C C' Q : Buf} (h : C.length = C'.length) {k : Nat} (hk : k < P.length ∨ P.length + C.length ≤ k) :
    (P ++ C ++ Q)[k]? = (P ++ C' ++ Q)[k]? := by
  rcases hk with hk | hk
  · rw [List.append_assoc, List.append_assoc, List.getElem?_append_left hk, List.getElem?_append_left hk]
  · rw [List.getElem?_append_right (by simpa using hk), List.getElem?_append_right (by simp; omega)]
    simp [h]

/-- The fields before and after the colours are the same in both outputs. -/
theorem columns_outside {B c n : Nat} {data : Buf} {ps cs cs' qs : List (Buf → Buf)} {wp wc : List Nat} (hB : 0 < B) (hd : data.length = n * B)
    (hp : Fits B ps wp) (hc : Fits B cs wc) (hc' : Fits B cs' wc) (h1 : wp.sum = c) (h2 : wc.sum = 4) (tail : Buf) {k : Nat}
    (hk : k < n * c ∨ n * (c + 4) ≤ k) :
    (columns B (ps ++ cs ++ qs) data ++ tail)[k]? = (columns B (ps ++ cs' ++ qs) data ++ tail)[k]? := by
  have e : ∀ xs : List (Buf → Buf), columns B (ps ++ xs ++ qs) data ++ tail =
      columns B ps data ++ columns B xs data ++ (columns B qs data ++ tail) := by
    intro xs
    simp [columns, List.flatMap_append, List.append_assoc]
  have l1 := columns_length hB hd hp
  have l2 := columns_length hB hd hc
  have l3 := columns_length hB hd hc'
  rw [e, e]
  refine outside_eq (l2.trans l3.symm) ?_
  rw [l1, l2, h1, h2]
  rw [Nat.mul_add] at hk
  exact hk

/-- The colour fields at byte `c`. -/
def colourFields (col : Buf → Buf) (c : Nat) (split : Bool) : List (Buf → Buf) :=
  if split then [fun b => col (slice b c 2), fun b => col (slice b (c + 2) 2)] else [fun b => col (slice b c 2) ++ col (slice b (c + 2) 2)]

theorem colourFields_fit (e : Endian) (v : Variant) (B c : Nat) (split : Bool) :
    Fits B (colourFields (encCol e v) c split) (if split then [2, 2] else [4]) := by
  cases split <;> simp [colourFields, Fits]

section
variable (m : Machine) (hm : m.endian = .little) (n : Nat) (data out : Buf)
include hm

/-- **C119** (BC1), on every little-endian machine. -/
theorem C119_bc1 (u v : Variant) (hu : u ≠ .none) (hv : v ≠ .none) (split : Bool) (hd : data.length = n * 8) (ho : n * 8 ≤ out.length) :
    ∃ a o, Bc1.transformWithSettings m data out data.length ⟨u, split⟩ = some a ∧
      Bc1.transformWithSettings m data out data.length ⟨v, split⟩ = some o ∧ SameBits u v split 0 n a o := by
  obtain ⟨hl1, e1⟩ := Bc1.transform_impl m ⟨u, split⟩ data out (by omega) (by omega)
  obtain ⟨hl, e⟩ := Bc1.transform_impl m ⟨v, split⟩ data out (by omega) (by omega)
  refine ⟨_, _, e1, e, same_bits (B := 8) (data := data) hu hv (by omega) hd ?_ ?_ (fun i q hi hq => ?_) (fun i q hi hq => ?_) fun k hk => ?_⟩
  · rw [List.length_append, hl1]; omega
  · rw [List.length_append, hl]; omega
  · rw [hm]; exact bc1_colour_at .little ⟨u, split⟩ _ hd hi hq
  · rw [hm]; exact bc1_colour_at .little ⟨v, split⟩ _ hd hi hq
  · have f : ∀ w : Variant, bc1Fields (encCol m.endian w) split = [] ++ colourFields (encCol m.endian w) 0 split ++ [fun b => slice b 4 4] := by
      intro w; cases split <;> rfl
    unfold Bc1.encode
    rw [f, f]
    exact columns_outside (ps := []) (wp := []) (by omega) hd trivial (colourFields_fit _ _ _ _ _) (colourFields_fit _ _ _ _ _) rfl
      (by cases split <;> rfl) _ hk

/-- **C119** (BC2). -/
theorem C119_bc2 (u v : Variant) (hu : u ≠ .none) (hv : v ≠ .none) (split : Bool) (hd : data.length = n * 16) (ho : n * 16 ≤ out.length) :
    ∃ a o, Bc2.transformWithSettings m data out data.length ⟨u, split⟩ = some a ∧
      Bc2.transformWithSettings m data out data.length ⟨v, split⟩ = some o ∧ SameBits u v split 8 n a o := by
  obtain ⟨hl1, e1⟩ := Bc2.transform_impl m ⟨u, split⟩ data out (by omega) (by omega)
  obtain ⟨hl, e⟩ := Bc2.transform_impl m ⟨v, split⟩ data out (by omega) (by omega)
  refine ⟨_, _, e1, e, same_bits (B := 16) (data := data) hu hv (by omega) hd ?_ ?_ (fun i q hi hq => ?_) (fun i q hi hq => ?_) fun k hk => ?_⟩
  · rw [List.length_append, hl1]; omega
  · rw [List.length_append, hl]; omega
  · rw [hm]; exact bc2_colour_at .little ⟨u, split⟩ _ hd hi hq
  · rw [hm]; exact bc2_colour_at .little ⟨v, split⟩ _ hd hi hq
  · have f : ∀ w : Variant, bc2Fields (encCol m.endian w) split =
        [fun b => slice b 0 8] ++ colourFields (encCol m.endian w) 8 split ++ [fun b => slice b 12 4] := by
      intro w; cases split <;> rfl
    unfold Bc2.encode
    rw [f, f]
    exact columns_outside (ps := [fun b => slice b 0 8]) (wp := [8]) (by omega) hd ⟨fun b hb => slice_length_of_le (by omega), trivial⟩ (colourFields_fit _ _ _ _ _)
      (colourFields_fit _ _ _ _ _) rfl (by cases split <;> rfl) _ hk

/-- **C119** (BC3). -/
theorem C119_bc3 (u v : Variant) (hu : u ≠ .none) (hv : v ≠ .none) (alphas colours : Bool) (hd : data.length = n * 16) (ho : n * 16 ≤ out.length) :
    ∃ a o, Bc3.transformWithSettings m data out data.length { decorr := u, splitAlpha := alphas, splitColour := colours } = some a ∧
      Bc3.transformWithSettings m data out data.length { decorr := v, splitAlpha := alphas, splitColour := colours } = some o ∧
      SameBits u v colours 8 n a o := by
  obtain ⟨hl1, e1⟩ := Bc3.transform_impl m { decorr := u, splitAlpha := alphas, splitColour := colours } data out (by omega) (by omega)
  obtain ⟨hl, e⟩ := Bc3.transform_impl m { decorr := v, splitAlpha := alphas, splitColour := colours } data out (by omega) (by omega)
  refine ⟨_, _, e1, e, same_bits (B := 16) (data := data) hu hv (by omega) hd ?_ ?_ (fun i q hi hq => ?_) (fun i q hi hq => ?_) fun k hk => ?_⟩
  · rw [List.length_append, hl1]; omega
  · rw [List.length_append, hl]; omega
  · rw [hm]; exact bc3_colour_at .little { decorr := u, splitAlpha := alphas, splitColour := colours } _ hd hi hq
  · rw [hm]; exact bc3_colour_at .little { decorr := v, splitAlpha := alphas, splitColour := colours } _ hd hi hq
  · have f : ∀ w : Variant, bc3Fields (encCol m.endian w) alphas colours =
        (if alphas then [fun b => slice b 0 1, fun b => slice b 1 1, fun b => slice b 2 6] else [fun b => slice b 0 2, fun b => slice b 2 6]) ++
          colourFields (encCol m.endian w) 8 colours ++ [fun b => slice b 12 4] := by
      intro w; cases alphas <;> cases colours <;> rfl
    have g : Fits 16 (if alphas then [fun b => slice b 0 1, fun b => slice b 1 1, fun b => slice b 2 6] else
        [fun b => slice b 0 2, fun b => slice b 2 6]) (if alphas then [1, 1, 6] else [2, 6]) := by
      have s : ∀ o w, o + w ≤ 16 → ∀ b : Buf, b.length = 16 → (slice b o w).length = w :=
        fun o w h b hb => slice_length_of_le (by omega)
      cases alphas
      · exact ⟨s 0 2 (by omega), s 2 6 (by omega), trivial⟩
      · exact ⟨s 0 1 (by omega), s 1 1 (by omega), s 2 6 (by omega), trivial⟩
    unfold Bc3.encode
    rw [f, f]
    exact columns_outside (by omega) hd g (colourFields_fit _ _ _ _ _) (colourFields_fit _ _ _ _ _) (by cases alphas <;> rfl)
      (by cases colours <;> rfl) _ hk

end

/-! ## Switching to another variant -/

theorem bitPos_onto (v : Variant) : ∀ j, j < 16 → ∃ k, k < 16 ∧ bitPos v k = j := by cases v <;> decide

/-- The bits of a colour determine it. -/
theorem word_of_bits {v : Variant} {w w' : Nat} (hw : w < 2 ^ 16) (hw' : w' < 2 ^ 16)
    (h : ∀ k, k < 16 → bitAt w (bitPos v k) = bitAt w' (bitPos v k)) : w = w' := by
  refine Nat.eq_of_testBit_eq fun j => ?_
  by_cases hj : j < 16
  · obtain ⟨k, hk, rfl⟩ := bitPos_onto v j hj
    have := h k hk
    unfold bitAt at this
    rw [← Nat.toNat_testBit, ← Nat.toNat_testBit] at this
    revert this
    cases w.testBit (bitPos v k) <;> cases w'.testBit (bitPos v k) <;> simp
  · have hp : (2 : Nat) ^ 16 ≤ 2 ^ j := Nat.pow_le_pow_right (by omega) (by omega)
    rw [Nat.testBit_lt_two_pow (by omega), Nat.testBit_lt_two_pow (by omega)]

theorem num16_bytes {b b' : Buf} {k : Nat} (h : num16 b k = num16 b' k) {r : Nat} (hr : r < 2) : b.getD (k + r) 0 = b'.getD (k + r) 0 := by
  have h1 := (b.getD k 0).isLt
  have h2 := (b'.getD k 0).isLt
  unfold num16 at h
  apply BitVec.eq_of_toNat_eq
  rcases r with _ | _ | r
  · rw [Nat.add_zero]; omega
  · rw [Nat.zero_add]; omega
  · omega

/-- Every byte of the colours belongs to one colour. -/
theorem place_onto (split : Bool) {c n k : Nat} (h1 : n * c ≤ k) (h2 : k < n * (c + 4)) :
    ∃ i q r, i < n ∧ q < 2 ∧ r < 2 ∧ k = place c split n i q + r := by
  obtain ⟨j, rfl⟩ := Nat.exists_eq_add_of_le h1
  rw [Nat.mul_add] at h2
  cases split
  · exact ⟨j / 4, j / 2 % 2, j % 2, by omega, by omega, by omega, by simp only [place, Bool.false_eq_true, if_false]; omega⟩
  · by_cases hj : j < n * 2
    · exact ⟨j / 2, 0, j % 2, by omega, by omega, by omega, by simp only [place, if_true, Nat.mul_zero, Nat.add_zero]; omega⟩
    · exact ⟨(j - n * 2) / 2, 1, j % 2, by omega, by omega, by omega, by simp only [place, if_true, Nat.mul_add, Nat.mul_one]; omega⟩

/-- What has the bits of `a` in the places of `v` is determined. -/
theorem SameBits.unique {u v : Variant} {split : Bool} {c n : Nat} {a o x : Buf} (ho : SameBits u v split c n a o) (hx : SameBits u v split c n a x)
    (hl : x.length = o.length) : x = o := by
  refine List.ext_getElem? fun k => ?_
  by_cases hk : k < n * c ∨ n * (c + 4) ≤ k
  · rw [ho.2 k hk, hx.2 k hk]
  · obtain ⟨i, q, r, hi, hq, hr, rfl⟩ := place_onto split (c := c) (n := n) (k := k) (by omega) (by omega)
    have hw : num16 x (place c split n i q) = num16 o (place c split n i q) :=
      word_of_bits (v := v) (num16_lt _ _) (num16_lt _ _) fun k hk => by rw [(hx.1 i q hi hq).1 k hk, (ho.1 i q hi hq).1 k hk]
    have hb := num16_bytes hw hr
    by_cases hlen : place c split n i q + r < x.length
    · simp only [List.getD_eq_getElem?_getD, List.getElem?_eq_getElem hlen, List.getElem?_eq_getElem (hl ▸ hlen), Option.getD_some] at hb ⊢
      rw [hb]
    · rw [List.getElem?_eq_none (by omega), List.getElem?_eq_none (by omega)]

section
variable (m m' : Machine) (hm : m.endian = .little) (hm' : m'.endian = .little) (n : Nat) (data out out' : Buf)
include hm hm'

/-- **C119** (BC1): a texture transformed with variant `u` whose colours get the bit order of variant `v` is the one that the untransform with
`v` restores. -/
theorem C119_bc1_switch (u v : Variant) (hu : u ≠ .none) (hv : v ≠ .none) (split : Bool) (hd : data.length = n * 8) (ho : n * 8 ≤ out.length)
    (ho' : n * 8 ≤ out'.length) :
    ∃ a, Bc1.transformWithSettings m data out data.length ⟨u, split⟩ = some a ∧ ∀ x, x.length = out.length → SameBits u v split 0 n a x →
      ∃ r, Bc1.untransformWithSettings m' (x.take data.length) out' data.length ⟨v, split⟩ = some r ∧ r.take data.length = data := by
  obtain ⟨a, o, ha, h, hs⟩ := C119_bc1 m hm n data out u v hu hv split hd ho
  refine ⟨a, ha, fun x hx hxs => ?_⟩
  obtain ⟨t, r, ht, hr, e⟩ := C01_bc1_lossless m m' (hm.trans hm'.symm) ⟨v, split⟩ data out out' (by omega) (by omega) (by omega)
  obtain ⟨hl, e'⟩ := Bc1.transform_impl m ⟨v, split⟩ data out (by omega) (by omega)
  have hlen : o.length = out.length := by
    rw [Option.some.inj (h.symm.trans e'), List.length_append, hl, List.length_drop]
    omega
  obtain rfl : t = o := Option.some.inj (ht.symm.trans h)
  obtain rfl := hs.unique hxs (hx.trans hlen.symm)
  exact ⟨r, hr, e⟩

/-- **C119** (BC2). -/
theorem C119_bc2_switch (u v : Variant) (hu : u ≠ .none) (hv : v ≠ .none) (split : Bool) (hd : data.length = n * 16) (ho : n * 16 ≤ out.length)
    (ho' : n * 16 ≤ out'.length) :
    ∃ a, Bc2.transformWithSettings m data out data.length ⟨u, split⟩ = some a ∧ ∀ x, x.length = out.length → SameBits u v split 8 n a x →
      ∃ r, Bc2.untransformWithSettings m' (x.take data.length) out' data.length ⟨v, split⟩ = some r ∧ r.take data.length = data := by
  obtain ⟨a, o, ha, h, hs⟩ := C119_bc2 m hm n data out u v hu hv split hd ho
  refine ⟨a, ha, fun x hx hxs => ?_⟩
  obtain ⟨t, r, ht, hr, e⟩ := C02_bc2_lossless m m' (hm.trans hm'.symm) ⟨v, split⟩ data out out' (by omega) (by omega) (by omega)
  obtain ⟨hl, e'⟩ := Bc2.transform_impl m ⟨v, split⟩ data out (by omega) (by omega)
  have hlen : o.length = out.length := by
    rw [Option.some.inj (h.symm.trans e'), List.length_append, hl, List.length_drop]
    omega
  obtain rfl : t = o := Option.some.inj (ht.symm.trans h)
  obtain rfl := hs.unique hxs (hx.trans hlen.symm)
  exact ⟨r, hr, e⟩

/-- **C119** (BC3). -/
theorem C119_bc3_switch (u v : Variant) (hu : u ≠ .none) (hv : v ≠ .none) (alphas colours : Bool) (hd : data.length = n * 16) (ho : n * 16 ≤ out.length)
    (ho' : n * 16 ≤ out'.length) :
    ∃ a, Bc3.transformWithSettings m data out data.length { decorr := u, splitAlpha := alphas, splitColour := colours } = some a ∧
      ∀ x, x.length = out.length → SameBits u v colours 8 n a x →
      ∃ r, Bc3.untransformWithSettings m' (x.take data.length) out' data.length
        { decorr := v, splitAlpha := alphas, splitColour := colours } = some r ∧ r.take data.length = data := by
  obtain ⟨a, o, ha, h, hs⟩ := C119_bc3 m hm n data out u v hu hv alphas colours hd ho
  refine ⟨a, ha, fun x hx hxs => ?_⟩
  obtain ⟨t, r, ht, hr, e⟩ := C03_bc3_lossless m m' (hm.trans hm'.symm) { decorr := v, splitAlpha := alphas, splitColour := colours } data out out'
    (by omega) (by omega) (by omega)
  obtain ⟨hl, e'⟩ := Bc3.transform_impl m { decorr := v, splitAlpha := alphas, splitColour := colours } data out (by omega) (by omega)
  have hlen : o.length = out.length := by
    rw [Option.some.inj (h.symm.trans e'), List.length_append, hl, List.length_drop]
    omega
  obtain rfl : t = o := Option.some.inj (ht.symm.trans h)
  obtain rfl := hs.unique hxs (hx.trans hlen.symm)
  exact ⟨r, hr, e⟩

end

/-! ## A concrete texture -/

/-- A block with two colours; the low green bit of the first is set. -/
def mossData : Buf := [0xA3, 0x51, 0x87, 0x72, 1, 2, 3, 4]

/-- Its outputs: the indices stand, each colour has its bits in another order, six of the first are set. -/
example :
    ([Variant.v1, .v2, .v3].map fun v => Bc1.transformWithSettings (.other .little fun _ => 0) mossData (List.replicate 8 9) 8 ⟨v, false⟩) =
      [some [0xE0, 0x31, 0xC0, 0x51, 1, 2, 3, 4], some [0xE0, 0x98, 0xE0, 0x28, 1, 2, 3, 4], some [0xC1, 0x31, 0xC0, 0x51, 1, 2, 3, 4]] ∧
    ones 0x31E0 = 6 ∧ ones 0x98E0 = 6 ∧ ones 0x31C1 = 6 ∧ bitAt 0x31E0 5 = 1 ∧ bitPos .v2 5 = 15 ∧ bitAt 0x98E0 15 = 1 := by decide +kernel

/-- The output with variant 1, its colours in the order of variant 2, is restored with variant 2. -/
example : (Bc1.untransformWithSettings (.other .little fun _ => 0) [0xE0, 0x98, 0xE0, 0x28, 1, 2, 3, 4] (List.replicate 8 7) 8 ⟨.v2, false⟩) =
    some mossData := by decide +kernel

end Dlt.Props
