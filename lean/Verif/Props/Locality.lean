import Verif.Props.Bc1
import Verif.Props.Bc2
import Verif.Props.Bc3
/-!
# C83: each block of the texture has its own bytes of the transformed texture

`Owns ws n i p` says which bytes these are, from the widths of the sections alone.
-/

namespace Dlt.Props
open Spec

/-- In a string of sections, section `k` holding `ws[k]` bytes for each of `n` blocks, byte `p` belongs to block `i`. -/
def Owns (ws : List Nat) (n i p : Nat) : Prop :=
  ∃ k w, ws[k]? = some w ∧ n * (ws.take k).sum + i * w ≤ p ∧ p < n * (ws.take k).sum + (i + 1) * w

/-- The sections of a transformed BC1 texture: colours, indices. -/
def sections1 (split : Bool) : List Nat := if split then [2, 2, 4] else [4, 4]
/-- BC2: alpha, colours, indices. -/
def sections2 (split : Bool) : List Nat := if split then [8, 2, 2, 4] else [8, 4, 4]
/-- BC3: alpha end points, alpha indices, colours, indices. -/
def sections3 (splitAlpha splitColour : Bool) : List Nat :=
  (if splitAlpha then [1, 1] else [2]) ++ [6] ++ (if splitColour then [2, 2] else [4]) ++ [4]

/-- Two strings agree on the bytes of block `i`. -/
def AgreeOn (ws : List Nat) (n i : Nat) (a b : Buf) : Prop := ∀ p, Owns ws n i p → a[p]? = b[p]?

theorem slice_eq_iff {a b : Buf} {o w : Nat} (ha : o + w ≤ a.length) (hb : o + w ≤ b.length) :
    slice a o w = slice b o w ↔ ∀ p, o ≤ p → p < o + w → a[p]? = b[p]? := by
  constructor
  · intro h p h1 h2
    have := congrArg (fun l => l[p - o]?) h
    simp only [slice, List.getElem?_take, List.getElem?_drop] at this
    rw [if_pos (by omega), if_pos (by omega), show o + (p - o) = p by omega] at this
    exact this
  · intro h
    apply List.ext_getElem?
    intro j
    simp only [slice, List.getElem?_take, List.getElem?_drop]
    by_cases hj : j < w
    · rw [if_pos hj, if_pos hj]
      exact h _ (by omega) (by omega)
    · rw [if_neg hj, if_neg hj]

theorem take_sum_le {ws : List Nat} {k w : Nat} (h : ws[k]? = some w) : (ws.take k).sum + w ≤ ws.sum := by
  have h1 := List.take_append_drop k ws
  have h2 : ws.drop k = w :: ws.drop (k + 1) := by
    obtain ⟨hk, rfl⟩ := List.getElem?_eq_some_iff.mp h
    exact List.drop_eq_getElem_cons hk
  have h3 := congrArg List.sum h1
  rw [List.sum_append, h2, List.sum_cons] at h3
  omega

/-- Block `i` of section `k` ends inside the string. -/
theorem section_end {ws : List Nat} {n i k w : Nat} (hi : i < n) (h : ws[k]? = some w) :
    n * (ws.take k).sum + (i + 1) * w ≤ n * ws.sum := by
  have h1 := Nat.mul_le_mul_left n (take_sum_le h)
  have h2 : (i + 1) * w ≤ n * w := Nat.mul_le_mul_right _ hi
  rw [Nat.mul_add] at h1
  omega

theorem fieldsAt_eq {n i : Nat} {a b : Buf} :
    ∀ (base : Nat) (ws : List Nat),
      (∀ k w, ws[k]? = some w → slice a (base + n * (ws.take k).sum + i * w) w = slice b (base + n * (ws.take k).sum + i * w) w) →
      fieldsAt n a i base ws = fieldsAt n b i base ws
  | _, [], _ => rfl
  | base, w :: ws, h => by
    rw [fieldsAt, fieldsAt]
    congr 1
    · simpa using h 0 w rfl
    · refine fieldsAt_eq _ ws fun k v hk => ?_
      have := h (k + 1) v hk
      simp only [List.take_succ_cons, List.sum_cons, Nat.mul_add, ← Nat.add_assoc] at this
      exact this

theorem fits_get {B : Nat} : ∀ {fs : List (Buf → Buf)} {ws : List Nat} {k w : Nat}, Fits B fs ws → ws[k]? = some w →
    ∃ f, fs[k]? = some f
  | f :: _, _ :: _, 0, _, _, _ => ⟨f, rfl⟩
  | _ :: _, _ :: _, k + 1, _, h, hw => by
    obtain ⟨f, hf⟩ := fits_get (k := k) h.2 hw
    exact ⟨f, hf⟩
  | [], [], _, _, _, hw => by simp at hw

/-- The general form: `dec` undoes a layout. -/
theorem agree_iff {B n i : Nat} {ws : List Nat} {fs : List (Buf → Buf)} {g : List Buf → Buf} (hB : 0 < B) (hsum : ws.sum = B)
    (hfit : Fits B fs ws) (hg : ∀ l, Shape l ws → (g l).length = B) {a b : Buf} (ha : a.length = n * B) (hb : b.length = n * B)
    (hea : columns B fs (unsoa n ws g a) = a) (heb : columns B fs (unsoa n ws g b) = b) (hi : i < n) :
    AgreeOn ws n i a b ↔ block B (unsoa n ws g a) i = block B (unsoa n ws g b) i := by
  have key : ∀ k w, ws[k]? = some w → (slice a (n * (ws.take k).sum + i * w) w = slice b (n * (ws.take k).sum + i * w) w ↔
      ∀ p, n * (ws.take k).sum + i * w ≤ p → p < n * (ws.take k).sum + (i + 1) * w → a[p]? = b[p]?) := by
    intro k w hw
    have h1 := section_end hi hw
    rw [hsum] at h1
    rw [Nat.succ_mul] at h1 ⊢
    rw [slice_eq_iff (by omega) (by omega)]
    constructor
    · exact fun h p h1 h2 => h p h1 (by omega)
    · exact fun h p h1 h2 => h p h1 (by omega)
  constructor
  · intro h
    rw [block_unsoa (by rw [hsum, ha]) hg hi, block_unsoa (by rw [hsum, hb]) hg hi]
    congr 1
    refine fieldsAt_eq 0 ws fun k w hw => ?_
    rw [Nat.zero_add]
    exact (key k w hw).2 fun p h1 h2 => h p ⟨k, w, hw, h1, h2⟩
  · rintro h p ⟨k, w, hw, h1, h2⟩
    refine (key k w hw).1 ?_ p h1 h2
    obtain ⟨f, hf⟩ := fits_get hfit hw
    have hsl : ∀ c : Buf, c.length = n * B → columns B fs (unsoa n ws g c) = c →
        slice c (n * (ws.take k).sum + i * w) w = f (block B (unsoa n ws g c) i) := by
      intro c hc hec
      have hlen : (unsoa n ws g c).length = n * B := unsoa_length (by rw [hsum]; omega) hg
      have := columns_slice hB hlen [] (i := i) (N := 1) (by omega) k hfit hf hw rfl
      rw [List.append_nil, hec, Nat.one_mul] at this
      rw [this, show i = i + 0 from rfl, block_eq_mk hlen (by omega)]
      simp
    rw [hsl a ha hea, hsl b hb heb, h]

/-- **C83** (ownership): every byte of the sections belongs to exactly one block. -/
theorem C83_one_owner : ∀ (ws : List Nat) (n p : Nat), p < n * ws.sum → ∃ i, i < n ∧ Owns ws n i p ∧ ∀ j, j < n → Owns ws n j p → j = i
  | [], n, p, hp => by simp at hp
  | w :: ws, n, p, hp => by
    rw [List.sum_cons, Nat.mul_add] at hp
    by_cases h : p < n * w
    · have hw : 0 < w := by
        rcases Nat.eq_zero_or_pos w with rfl | hw
        · simp at h
        · exact hw
      refine ⟨p / w, (Nat.div_lt_iff_lt_mul hw).2 h, ⟨0, w, rfl, ?_, ?_⟩, ?_⟩
      · simpa using Nat.div_mul_le_self p w
      · simpa [Nat.mul_comm] using Nat.lt_mul_div_succ p hw
      · rintro j hj ⟨k, v, hk, h1, h2⟩
        rcases k with _ | k
        · simp only [List.getElem?_cons_zero, Option.some.injEq] at hk
          subst hk
          simp only [List.take_zero, List.sum_nil, Nat.mul_zero, Nat.zero_add] at h1 h2
          exact (Nat.div_eq_of_lt_le h1 h2).symm
        · rw [List.take_succ_cons, List.sum_cons, Nat.mul_add] at h1
          omega
    · obtain ⟨i, hi, ⟨k, v, hk, h1, h2⟩, h3⟩ := C83_one_owner ws n (p - n * w) (by omega)
      refine ⟨i, hi, ⟨k + 1, v, hk, ?_, ?_⟩, ?_⟩
      · rw [List.take_succ_cons, List.sum_cons, Nat.mul_add]; omega
      · rw [List.take_succ_cons, List.sum_cons, Nat.mul_add]; omega
      · rintro j hj ⟨k, v, hk, h1, h2⟩
        rcases k with _ | k
        · simp only [List.getElem?_cons_zero, Option.some.injEq] at hk
          subst hk
          simp only [List.take_zero, List.sum_nil, Nat.mul_zero, Nat.zero_add] at h1 h2
          have : (j + 1) * w ≤ n * w := Nat.mul_le_mul_right _ hj
          omega
        · rw [List.take_succ_cons, List.sum_cons, Nat.mul_add] at h1 h2
          exact h3 j hj ⟨k, v, hk, by omega, by omega⟩

theorem local1 (s : ColourSettings) {n i : Nat} (e : Endian) {a b : Buf} (ha : a.length = n * 8) (hb : b.length = n * 8) (hi : i < n) :
    AgreeOn (sections1 s.split) n i a b ↔ block 8 (Bc1.decode e s a) i = block 8 (Bc1.decode e s b) i := by
  have hw : sections1 s.split = Bc1.widths s.split := by cases s.split <;> rfl
  have h := fun c (hc : c.length = n * 8) => Bc1.encode_decode e s c (by omega)
  simp only [Bc1.encode, Bc1.decode] at h ⊢
  rw [ha, hb, Nat.mul_div_cancel _ (by omega), hw]
  refine agree_iff (by omega) (Bc1.widths_sum _) (Bc1.fits (col := encCol e s.decorr) (fun _ _ => encCol_length _ _ _) s.split)
    (Bc1.unFields_length (fun _ _ => decCol_length _ _ _) s.split) ha hb ?_ ?_ hi
  · have := h a ha
    rwa [ha, Nat.mul_div_cancel _ (by omega)] at this
  · have := h b hb
    rwa [hb, Nat.mul_div_cancel _ (by omega)] at this

theorem local2 (s : ColourSettings) {n i : Nat} (e : Endian) {a b : Buf} (ha : a.length = n * 16) (hb : b.length = n * 16) (hi : i < n) :
    AgreeOn (sections2 s.split) n i a b ↔ block 16 (Bc2.decode e s a) i = block 16 (Bc2.decode e s b) i := by
  have hw : sections2 s.split = Bc2.widths s.split := by cases s.split <;> rfl
  have h := fun c (hc : c.length = n * 16) => Bc2.encode_decode e s c (by omega)
  simp only [Bc2.encode, Bc2.decode] at h ⊢
  rw [ha, hb, Nat.mul_div_cancel _ (by omega), hw]
  refine agree_iff (by omega) (Bc2.widths_sum _) (Bc2.fits (col := encCol e s.decorr) (fun _ _ => encCol_length _ _ _) s.split)
    (Bc2.unFields_length (fun _ _ => decCol_length _ _ _) s.split) ha hb ?_ ?_ hi
  · have := h a ha
    rwa [ha, Nat.mul_div_cancel _ (by omega)] at this
  · have := h b hb
    rwa [hb, Nat.mul_div_cancel _ (by omega)] at this

theorem local3 (s : Bc3.Settings) {n i : Nat} (e : Endian) {a b : Buf} (ha : a.length = n * 16) (hb : b.length = n * 16) (hi : i < n) :
    AgreeOn (sections3 s.splitAlpha s.splitColour) n i a b ↔ block 16 (Bc3.decode e s a) i = block 16 (Bc3.decode e s b) i := by
  have hw : sections3 s.splitAlpha s.splitColour = Bc3.widths s.splitAlpha s.splitColour := by cases s.splitAlpha <;> cases s.splitColour <;> rfl
  have h := fun c (hc : c.length = n * 16) => Bc3.encode_decode e s c (by omega)
  simp only [Bc3.encode, Bc3.decode] at h ⊢
  rw [ha, hb, Nat.mul_div_cancel _ (by omega), hw]
  refine agree_iff (by omega) (Bc3.widths_sum _ _) (Bc3.fits (col := encCol e s.decorr) (fun _ _ => encCol_length _ _ _) s.splitAlpha s.splitColour)
    (Bc3.unFields_length (fun _ _ => decCol_length _ _ _) s.splitAlpha s.splitColour) ha hb ?_ ?_ hi
  · have := h a ha
    rwa [ha, Nat.mul_div_cancel _ (by omega)] at this
  · have := h b hb
    rwa [hb, Nat.mul_div_cancel _ (by omega)] at this

/-- Two strings that differ in one byte agree on the bytes of all blocks but one. -/
theorem agree_one {ws : List Nat} {n p : Nat} {a b : Buf} (hp : p < n * ws.sum) (hne : a[p]? ≠ b[p]?)
    (heq : ∀ q, q ≠ p → a[q]? = b[q]?) : ∃ i, i < n ∧ Owns ws n i p ∧ ∀ j, j < n → (AgreeOn ws n j a b ↔ j ≠ i) := by
  obtain ⟨i, hi, ho, hu⟩ := C83_one_owner ws n p hp
  refine ⟨i, hi, ho, fun j hj => ⟨?_, fun hji q hq => ?_⟩⟩
  · rintro h rfl
    exact hne (h p ho)
  · refine heq q ?_
    rintro rfl
    exact hji (hu j hj hq)

/-- **C83** (BC1): two textures have the same block number `i` exactly if their transforms have the same bytes at the places of
block `i`; and two strings have the same bytes at these places exactly if the textures restored from them have the same block
number `i`.  Any CPUs of one byte order, any output buffers. -/
theorem C83_bc1 (m m' : Machine) (hm : m.endian = m'.endian) (s : ColourSettings) (n : Nat) (a b out out' : Buf) (ha : a.length = n * 8)
    (hb : b.length = n * 8) (ho : n * 8 ≤ out.length) (ho' : n * 8 ≤ out'.length) :
    (∃ x y, Bc1.transformWithSettings m a out a.length s = some x ∧ Bc1.transformWithSettings m' b out' b.length s = some y ∧
      ∀ i, i < n → (AgreeOn (sections1 s.split) n i (x.take (n * 8)) (y.take (n * 8)) ↔ block 8 a i = block 8 b i)) ∧
    (∃ x y, Bc1.untransformWithSettings m a out a.length s = some x ∧ Bc1.untransformWithSettings m' b out' b.length s = some y ∧
      ∀ i, i < n → (block 8 (x.take (n * 8)) i = block 8 (y.take (n * 8)) i ↔ AgreeOn (sections1 s.split) n i a b)) := by
  have h8 : ∀ c : Buf, c.length = n * 8 → c.length % 8 = 0 := fun c hc => by omega
  constructor
  · obtain ⟨la, ea⟩ := Bc1.transform_impl m s a out (h8 a ha) (by omega)
    obtain ⟨lb, eb⟩ := Bc1.transform_impl m' s b out' (h8 b hb) (by omega)
    refine ⟨_, _, ea, eb, fun i hi => ?_⟩
    rw [List.take_left' (by omega), List.take_left' (by omega), local1 s m.endian (by omega) (by omega) hi,
      Bc1.decode_encode _ _ _ (h8 a ha), hm, Bc1.decode_encode _ _ _ (h8 b hb)]
  · obtain ⟨la, ea⟩ := Bc1.untransform_impl m s a out (h8 a ha) (by omega)
    obtain ⟨lb, eb⟩ := Bc1.untransform_impl m' s b out' (h8 b hb) (by omega)
    refine ⟨_, _, ea, eb, fun i hi => ?_⟩
    rw [List.take_left' (by omega), List.take_left' (by omega), ← hm, local1 s m.endian ha hb hi]

/-- **C83** (BC2). -/
theorem C83_bc2 (m m' : Machine) (hm : m.endian = m'.endian) (s : ColourSettings) (n : Nat) (a b out out' : Buf) (ha : a.length = n * 16)
    (hb : b.length = n * 16) (ho : n * 16 ≤ out.length) (ho' : n * 16 ≤ out'.length) :
    (∃ x y, Bc2.transformWithSettings m a out a.length s = some x ∧ Bc2.transformWithSettings m' b out' b.length s = some y ∧
      ∀ i, i < n → (AgreeOn (sections2 s.split) n i (x.take (n * 16)) (y.take (n * 16)) ↔ block 16 a i = block 16 b i)) ∧
    (∃ x y, Bc2.untransformWithSettings m a out a.length s = some x ∧ Bc2.untransformWithSettings m' b out' b.length s = some y ∧
      ∀ i, i < n → (block 16 (x.take (n * 16)) i = block 16 (y.take (n * 16)) i ↔ AgreeOn (sections2 s.split) n i a b)) := by
  have h8 : ∀ c : Buf, c.length = n * 16 → c.length % 16 = 0 := fun c hc => by omega
  constructor
  · obtain ⟨la, ea⟩ := Bc2.transform_impl m s a out (h8 a ha) (by omega)
    obtain ⟨lb, eb⟩ := Bc2.transform_impl m' s b out' (h8 b hb) (by omega)
    refine ⟨_, _, ea, eb, fun i hi => ?_⟩
    rw [List.take_left' (by omega), List.take_left' (by omega), local2 s m.endian (by omega) (by omega) hi,
      Bc2.decode_encode _ _ _ (h8 a ha), hm, Bc2.decode_encode _ _ _ (h8 b hb)]
  · obtain ⟨la, ea⟩ := Bc2.untransform_impl m s a out (h8 a ha) (by omega)
    obtain ⟨lb, eb⟩ := Bc2.untransform_impl m' s b out' (h8 b hb) (by omega)
    refine ⟨_, _, ea, eb, fun i hi => ?_⟩
    rw [List.take_left' (by omega), List.take_left' (by omega), ← hm, local2 s m.endian ha hb hi]

/-- **C83** (BC3). -/
theorem C83_bc3 (m m' : Machine) (hm : m.endian = m'.endian) (s : Bc3.Settings) (n : Nat) (a b out out' : Buf) (ha : a.length = n * 16)
    (hb : b.length = n * 16) (ho : n * 16 ≤ out.length) (ho' : n * 16 ≤ out'.length) :
    (∃ x y, Bc3.transformWithSettings m a out a.length s = some x ∧ Bc3.transformWithSettings m' b out' b.length s = some y ∧
      ∀ i, i < n → (AgreeOn (sections3 s.splitAlpha s.splitColour) n i (x.take (n * 16)) (y.take (n * 16)) ↔ block 16 a i = block 16 b i)) ∧
    (∃ x y, Bc3.untransformWithSettings m a out a.length s = some x ∧ Bc3.untransformWithSettings m' b out' b.length s = some y ∧
      ∀ i, i < n → (block 16 (x.take (n * 16)) i = block 16 (y.take (n * 16)) i ↔ AgreeOn (sections3 s.splitAlpha s.splitColour) n i a b)) := by
  have h8 : ∀ c : Buf, c.length = n * 16 → c.length % 16 = 0 := fun c hc => by omega
  constructor
  · obtain ⟨la, ea⟩ := Bc3.transform_impl m s a out (h8 a ha) (by omega)
    obtain ⟨lb, eb⟩ := Bc3.transform_impl m' s b out' (h8 b hb) (by omega)
    refine ⟨_, _, ea, eb, fun i hi => ?_⟩
    rw [List.take_left' (by omega), List.take_left' (by omega), local3 s m.endian (by omega) (by omega) hi,
      Bc3.decode_encode _ _ _ (h8 a ha), hm, Bc3.decode_encode _ _ _ (h8 b hb)]
  · obtain ⟨la, ea⟩ := Bc3.untransform_impl m s a out (h8 a ha) (by omega)
    obtain ⟨lb, eb⟩ := Bc3.untransform_impl m' s b out' (h8 b hb) (by omega)
    refine ⟨_, _, ea, eb, fun i hi => ?_⟩
    rw [List.take_left' (by omega), List.take_left' (by omega), ← hm, local3 s m.endian ha hb hi]

/-- **C83** (one wrong byte): if two strings differ in exactly one byte, the textures restored from them differ in exactly one block, the one
that the byte belongs to. -/
theorem C83_one_byte (m : Machine) (n p : Nat) (a b out : Buf) (hne : a[p]? ≠ b[p]?) (heq : ∀ q, q ≠ p → a[q]? = b[q]?) :
    (∀ s : ColourSettings, a.length = n * 8 → b.length = n * 8 → n * 8 ≤ out.length →
      ∃ x y i, Bc1.untransformWithSettings m a out a.length s = some x ∧ Bc1.untransformWithSettings m b out b.length s = some y ∧
        i < n ∧ Owns (sections1 s.split) n i p ∧
        ∀ j, j < n → (block 8 (x.take (n * 8)) j = block 8 (y.take (n * 8)) j ↔ j ≠ i)) ∧
    (∀ s : ColourSettings, a.length = n * 16 → b.length = n * 16 → n * 16 ≤ out.length →
      ∃ x y i, Bc2.untransformWithSettings m a out a.length s = some x ∧ Bc2.untransformWithSettings m b out b.length s = some y ∧
        i < n ∧ Owns (sections2 s.split) n i p ∧
        ∀ j, j < n → (block 16 (x.take (n * 16)) j = block 16 (y.take (n * 16)) j ↔ j ≠ i)) ∧
    (∀ s : Bc3.Settings, a.length = n * 16 → b.length = n * 16 → n * 16 ≤ out.length →
      ∃ x y i, Bc3.untransformWithSettings m a out a.length s = some x ∧ Bc3.untransformWithSettings m b out b.length s = some y ∧
        i < n ∧ Owns (sections3 s.splitAlpha s.splitColour) n i p ∧
        ∀ j, j < n → (block 16 (x.take (n * 16)) j = block 16 (y.take (n * 16)) j ↔ j ≠ i)) := by
  have hp : ∀ l, a.length = l → b.length = l → p < l := by
    intro l h1 h2
    by_contra h
    exact hne (by rw [List.getElem?_eq_none (by omega), List.getElem?_eq_none (by omega)])
  refine ⟨fun s ha hb ho => ?_, fun s ha hb ho => ?_, fun s ha hb ho => ?_⟩
  · obtain ⟨x, y, h1, h2, h3⟩ := (C83_bc1 m m rfl s n a b out out ha hb ho ho).2
    obtain ⟨i, hi, h4, h5⟩ := agree_one (ws := sections1 s.split) (n := n)
      (by rw [show (sections1 s.split).sum = 8 by cases s.split <;> rfl]; exact hp _ ha hb) hne heq
    exact ⟨x, y, i, h1, h2, hi, h4, fun j hj => (h3 j hj).trans (h5 j hj)⟩
  · obtain ⟨x, y, h1, h2, h3⟩ := (C83_bc2 m m rfl s n a b out out ha hb ho ho).2
    obtain ⟨i, hi, h4, h5⟩ := agree_one (ws := sections2 s.split) (n := n)
      (by rw [show (sections2 s.split).sum = 16 by cases s.split <;> rfl]; exact hp _ ha hb) hne heq
    exact ⟨x, y, i, h1, h2, hi, h4, fun j hj => (h3 j hj).trans (h5 j hj)⟩
  · obtain ⟨x, y, h1, h2, h3⟩ := (C83_bc3 m m rfl s n a b out out ha hb ho ho).2
    obtain ⟨i, hi, h4, h5⟩ := agree_one (ws := sections3 s.splitAlpha s.splitColour) (n := n)
      (by rw [show (sections3 s.splitAlpha s.splitColour).sum = 16 by cases s.splitAlpha <;> cases s.splitColour <;> rfl]
          exact hp _ ha hb) hne heq
    exact ⟨x, y, i, h1, h2, hi, h4, fun j hj => (h3 j hj).trans (h5 j hj)⟩

/-- A case: two BC1 blocks with split colours.  Byte 6 is the low byte of the second colour of the second block; if it is wrong, the second
block is wrong and the first is not. -/
example : let a : Buf := List.replicate 16 0
    let b : Buf := a.set 6 1
    a[6]? ≠ b[6]? ∧ (∀ q, q ≠ 6 → a[q]? = b[q]?) ∧ a.length = 2 * 8 ∧ b.length = 2 * 8 ∧ Owns (sections1 true) 2 1 6 := by
  refine ⟨by decide, fun q hq => ?_, rfl, rfl, 1, 2, rfl, by decide, by decide⟩
  exact (List.getElem?_set_ne (Ne.symm hq)).symm

end Dlt.Props
