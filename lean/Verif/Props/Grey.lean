import Verif.Props.Rearrange
import Verif.Lemmas.SpecCol
/-!
# C104: grey colours have no chroma

What decorrelation is for: in a transformed texture the chroma bits of an end point are zero exactly if the colour was grey
(equal red, blue and upper five bits of green), and then the luma is that value.
-/

namespace Dlt.Props
open Spec

/-! ## Specification -/

/-- Red, the upper five bits of green, and blue are equal. -/
def Grey (c : Nat) : Prop := c / 2 ^ 11 % 32 = c % 32 ∧ c / 2 ^ 6 % 32 = c % 32

/-- The first of the 16 bits of a stored colour where Co, Cg and Y stand in each variant. -/
def coPos : Variant → Nat | .v1 => 6 | .v2 => 5 | .v3 => 6 | .none => 0
def cgPos : Variant → Nat | .v1 => 0 | .v2 => 0 | .v3 => 1 | .none => 0
def yPos : Variant → Nat | .v1 => 11 | .v2 => 10 | .v3 => 11 | .none => 0

/-- Both chroma values of a stored colour are zero. -/
def NoChroma (v : Variant) (w : Nat) : Prop := w / 2 ^ coPos v % 32 = 0 ∧ w / 2 ^ cgPos v % 32 = 0

/-- The luma of a stored colour. -/
def luma (v : Variant) (w : Nat) : Nat := w / 2 ^ yPos v % 32

/-- The values the low byte of a stored colour has if there is no chroma: only the low green bit may be in it. -/
def greyLow : Variant → List Nat | .v1 => [0, 32] | .v2 => [0] | .v3 => [0, 1] | .none => []

/-- The little-endian number in the two bytes at `off`. -/
def num16 (b : Buf) (off : Nat) : Nat := (b.getD off 0).toNat + 256 * (b.getD (off + 1) 0).toNat

/-- Where colour `q` (0 or 1) of block `i` out of `n` stands in the output, if the colours begin `c` bytes into a block. -/
def place (c : Nat) (split : Bool) (n i q : Nat) : Nat := if split then n * (c + 2 * q) + i * 2 else n * c + i * 4 + 2 * q

/-! ## One colour -/

theorem grey_word {v : Variant} (hv : v ≠ .none) {c : Nat} (hc : c < 65536) :
    (NoChroma v (decorrelate v c) ↔ Grey c) ∧ (Grey c → luma v (decorrelate v c) = c % 32) ∧
    (Grey c → decorrelate v c % 256 ∈ greyLow v) := by
  have k1 : 0 ≤ co (red5 c) (blue5 c) ∧ co (red5 c) (blue5 c) < 32 := by unfold co; omega
  have k2 : 0 ≤ cg (red5 c) (green5 c) (blue5 c) ∧ cg (red5 c) (green5 c) (blue5 c) < 32 := by unfold cg; omega
  have k3 : 0 ≤ yy (red5 c) (green5 c) (blue5 c) ∧ yy (red5 c) (green5 c) (blue5 c) < 32 := by unfold yy; omega
  have h1 : co (red5 c) (blue5 c) = 0 ∧ cg (red5 c) (green5 c) (blue5 c) = 0 ↔ Grey c := by
    unfold cg tt co Grey red5 green5 blue5
    omega
  have h2 : Grey c → yy (red5 c) (green5 c) (blue5 c) = (c % 32 : Nat) := by
    intro hg
    obtain ⟨a, b⟩ := h1.mpr hg
    unfold yy
    rw [b]
    unfold tt
    rw [a]
    unfold blue5
    omega
  have hl : greenLow c < 2 := by unfold greenLow; omega
  rw [← h1] at *
  unfold NoChroma luma decorrelate
  generalize yy (red5 c) (green5 c) (blue5 c) = y at *
  generalize co (red5 c) (blue5 c) = o at *
  generalize cg (red5 c) (green5 c) (blue5 c) = g at *
  generalize greenLow c = l at *
  cases v
  · simp only [coPos, cgPos, yPos, greyLow, Nat.reducePow, List.mem_cons, List.not_mem_nil, or_false]
    omega
  · simp only [coPos, cgPos, yPos, greyLow, Nat.reducePow, List.mem_cons, List.not_mem_nil, or_false]
    omega
  · simp only [coPos, cgPos, yPos, greyLow, Nat.reducePow, List.mem_cons, List.not_mem_nil, or_false]
    omega
  · exact absurd rfl hv

theorem num16_slice {a b : Buf} {x y : Nat} {v : Variant} (hx : x + 2 ≤ a.length) (hy : y + 2 ≤ b.length)
    (h : slice a x 2 = encCol .little v (slice b y 2)) : num16 a x = decorrelate v (num16 b y) := by
  have s2 : ∀ (b : Buf) (o : Nat), o + 2 ≤ b.length → slice b o 2 = [b.getD o 0, b.getD (o + 1) 0] := fun b o h => by
    rw [slice_eq_mk h]; rfl
  rw [encCol_little v _ (slice_length_of_le hy), s2 a x hx, s2 b y hy] at h
  simp only [colour, List.cons.injEq, and_true] at h
  unfold num16
  rw [h.1, h.2]
  generalize hw : decorrelate v ((b.getD y 0).toNat + 256 * (b.getD (y + 1) 0).toNat) = w
  have : w < 65536 := by
    rw [← hw]
    have b1 := (b.getD y 0).isLt
    have b2 := (b.getD (y + 1) 0).isLt
    generalize hc : (b.getD y 0).toNat + 256 * (b.getD (y + 1) 0).toNat = c
    have hc' : c < 65536 := by omega
    have e := C09_ycocg_meaning v (BitVec.ofNat 16 c)
    rw [BitVec.toNat_ofNat, Nat.mod_eq_of_lt hc'] at e
    rw [← e]
    exact (Color565.decorr v _).isLt
  simp only [BitVec.toNat_ofNat]
  omega

theorem num16_lt (b : Buf) (o : Nat) : num16 b o < 65536 := by
  unfold num16
  have := (b.getD o 0).isLt
  have := (b.getD (o + 1) 0).isLt
  omega

theorem num16_low (b : Buf) (o : Nat) : num16 b o % 256 = (b.getD o 0).toNat := by
  unfold num16
  have := (b.getD o 0).isLt
  omega

/-! ## Where the colours go -/

theorem bc1_colour_at (e : Endian) (s : ColourSettings) {n : Nat} {t : Buf} (tail : Buf) (hd : t.length = n * 8) {i q : Nat}
    (hi : i < n) (hq : q < 2) :
    slice (Bc1.encode e s t ++ tail) (place 0 s.split n i q) 2 = encCol e s.decorr (slice t (i * 8 + (0 + 2 * q)) 2) := by
  have hfit := Bc1.fits (col := encCol e s.decorr) (fun _ _ => encCol_length _ _ _) s.split
  unfold Bc1.encode place
  rcases q with _ | _ | q
  · cases hs : s.split <;> rw [hs] at hfit
    · have := section_is (by omega) hd hfit tail hi (k := 0) rfl rfl
      simp only [Bool.false_eq_true, if_false]
      rw [show n * 0 + i * 4 + 2 * 0 = n * start (Bc1.widths false) 0 + i * 4 + 0 by rfl, ← slice_slice _ _ 4 0 2 (by omega), this,
        slice_append_left _ _ _ _ (by simp), slice_all (encCol_length _ _ _), slice_block (by omega)]
    · have := section_is (by omega) hd hfit tail hi (k := 0) rfl rfl
      simp only [if_true]
      refine this.trans ?_
      rw [slice_block (by omega)]
  · cases hs : s.split <;> rw [hs] at hfit
    · have := section_is (by omega) hd hfit tail hi (k := 0) rfl rfl
      simp only [Bool.false_eq_true, if_false]
      rw [show n * 0 + i * 4 + 2 * (0 + 1) = n * start (Bc1.widths false) 0 + i * 4 + 2 by rfl, ← slice_slice _ _ 4 2 2 (by omega), this,
        slice_append_right _ _ _ 0 _ (by simp), slice_all (encCol_length _ _ _), slice_block (by omega)]
    · have := section_is (by omega) hd hfit tail hi (k := 1) rfl rfl
      simp only [if_true]
      refine this.trans ?_
      rw [slice_block (by omega)]
  · omega

theorem bc2_colour_at (e : Endian) (s : ColourSettings) {n : Nat} {t : Buf} (tail : Buf) (hd : t.length = n * 16) {i q : Nat}
    (hi : i < n) (hq : q < 2) :
    slice (Bc2.encode e s t ++ tail) (place 8 s.split n i q) 2 = encCol e s.decorr (slice t (i * 16 + (8 + 2 * q)) 2) := by
  have hfit := Bc2.fits (col := encCol e s.decorr) (fun _ _ => encCol_length _ _ _) s.split
  unfold Bc2.encode place
  rcases q with _ | _ | q
  · cases hs : s.split <;> rw [hs] at hfit
    · have := section_is (by omega) hd hfit tail hi (k := 1) rfl rfl
      simp only [Bool.false_eq_true, if_false]
      rw [show n * 8 + i * 4 + 2 * 0 = n * start (Bc2.widths false) 1 + i * 4 + 0 by rfl, ← slice_slice _ _ 4 0 2 (by omega), this,
        slice_append_left _ _ _ _ (by simp), slice_all (encCol_length _ _ _), slice_block (by omega)]
    · have := section_is (by omega) hd hfit tail hi (k := 1) rfl rfl
      simp only [if_true]
      refine this.trans ?_
      rw [slice_block (by omega)]
  · cases hs : s.split <;> rw [hs] at hfit
    · have := section_is (by omega) hd hfit tail hi (k := 1) rfl rfl
      simp only [Bool.false_eq_true, if_false]
      rw [show n * 8 + i * 4 + 2 * (0 + 1) = n * start (Bc2.widths false) 1 + i * 4 + 2 by rfl, ← slice_slice _ _ 4 2 2 (by omega), this,
        slice_append_right _ _ _ 0 _ (by simp), slice_all (encCol_length _ _ _), slice_block (by omega)]
    · have := section_is (by omega) hd hfit tail hi (k := 2) rfl rfl
      simp only [if_true]
      refine this.trans ?_
      rw [slice_block (by omega)]
  · omega

theorem bc3_colour_at (e : Endian) (s : Bc3.Settings) {n : Nat} {t : Buf} (tail : Buf) (hd : t.length = n * 16) {i q : Nat}
    (hi : i < n) (hq : q < 2) :
    slice (Bc3.encode e s t ++ tail) (place 8 s.splitColour n i q) 2 = encCol e s.decorr (slice t (i * 16 + (8 + 2 * q)) 2) := by
  have hfit := Bc3.fits (col := encCol e s.decorr) (fun _ _ => encCol_length _ _ _) s.splitAlpha s.splitColour
  unfold Bc3.encode place
  generalize hk : (if s.splitAlpha then 3 else 2) = k
  have w0 : start (Bc3.widths s.splitAlpha s.splitColour) k = 8 := by
    subst hk; cases s.splitAlpha <;> cases s.splitColour <;> rfl
  have fs : s.splitColour = false → (bc3Fields (encCol e s.decorr) s.splitAlpha s.splitColour)[k]? =
      some (fun b => encCol e s.decorr (slice b 8 2) ++ encCol e s.decorr (slice b 10 2)) := by
    subst hk; intro h; rw [h]; cases s.splitAlpha <;> rfl
  have ws : s.splitColour = false → (Bc3.widths s.splitAlpha s.splitColour)[k]? = some 4 := by
    subst hk; intro h; rw [h]; cases s.splitAlpha <;> rfl
  have f0 : s.splitColour = true → (bc3Fields (encCol e s.decorr) s.splitAlpha s.splitColour)[k]? =
      some (fun b => encCol e s.decorr (slice b 8 2)) := by
    subst hk; intro h; rw [h]; cases s.splitAlpha <;> rfl
  have f1 : s.splitColour = true → (bc3Fields (encCol e s.decorr) s.splitAlpha s.splitColour)[k + 1]? =
      some (fun b => encCol e s.decorr (slice b 10 2)) := by
    subst hk; intro h; rw [h]; cases s.splitAlpha <;> rfl
  have v0 : s.splitColour = true → (Bc3.widths s.splitAlpha s.splitColour)[k]? = some 2 := by
    subst hk; intro h; rw [h]; cases s.splitAlpha <;> rfl
  have v1 : s.splitColour = true → (Bc3.widths s.splitAlpha s.splitColour)[k + 1]? = some 2 := by
    subst hk; intro h; rw [h]; cases s.splitAlpha <;> rfl
  have w1 : s.splitColour = true → start (Bc3.widths s.splitAlpha s.splitColour) (k + 1) = 10 := by
    subst hk; intro h; rw [h]; cases s.splitAlpha <;> rfl
  cases hs : s.splitColour
  · have := section_is (by omega) hd hfit tail hi (fs hs) (ws hs)
    rw [w0, hs] at this
    simp only [Bool.false_eq_true, if_false]
    rw [← slice_slice _ _ 4 (2 * q) 2 (by omega), this]
    rcases q with _ | _ | q
    · rw [slice_append_left _ _ _ _ (by simp), slice_all (encCol_length _ _ _), slice_block (by omega)]
    · rw [slice_append_right _ _ _ 0 _ (by simp), slice_all (encCol_length _ _ _), slice_block (by omega)]
    · omega
  · simp only [if_true]
    rcases q with _ | _ | q
    · have := section_is (by omega) hd hfit tail hi (f0 hs) (v0 hs)
      rw [w0, hs] at this
      refine this.trans ?_
      rw [slice_block (by omega)]
    · have := section_is (by omega) hd hfit tail hi (f1 hs) (v1 hs)
      rw [w1 hs, hs] at this
      refine this.trans ?_
      rw [slice_block (by omega)]
    · omega

/-! ## Textures -/

/-- `o` is what becomes of `data`: `n` blocks of `B` bytes with colours at byte `c`. -/
def GreyKept (v : Variant) (split : Bool) (B c n : Nat) (data o : Buf) : Prop :=
  (∀ i q, i < n → q < 2 →
    (NoChroma v (num16 o (place c split n i q)) ↔ Grey (num16 data (i * B + (c + 2 * q)))) ∧
    (Grey (num16 data (i * B + (c + 2 * q))) →
      luma v (num16 o (place c split n i q)) = num16 data (i * B + (c + 2 * q)) % 32)) ∧
  ((∀ i q, i < n → q < 2 → Grey (num16 data (i * B + (c + 2 * q)))) →
    ∀ j, j < 2 * n → (o.getD (n * c + 2 * j) 0).toNat ∈ greyLow v)

theorem colours_at {v : Variant} {split : Bool} {B c n : Nat} {data o : Buf} (hB : c + 4 ≤ B)
    (hd : data.length = n * B) (ho : n * (c + 4) ≤ o.length)
    (h : ∀ i q, i < n → q < 2 → slice o (place c split n i q) 2 = encCol .little v (slice data (i * B + (c + 2 * q)) 2)) :
    ∀ i q, i < n → q < 2 → num16 o (place c split n i q) = decorrelate v (num16 data (i * B + (c + 2 * q))) := by
  intro i q hi hq
  have h3 : (i + 1) * B ≤ n * B := Nat.mul_le_mul_right _ hi
  rw [Nat.succ_mul] at h3
  refine num16_slice ?_ (by omega) (h i q hi hq)
  unfold place
  rw [Nat.mul_add] at ho
  split
  · have : n * (c + 2 * q) = n * c + n * (2 * q) := Nat.mul_add _ _ _
    have : n * (2 * q) ≤ n * 2 := Nat.mul_le_mul_left _ (by omega)
    omega
  · omega

theorem grey_kept {v : Variant} (hv : v ≠ .none) {split : Bool} {B c n : Nat} {data o : Buf} (hB : c + 4 ≤ B)
    (hd : data.length = n * B) (ho : n * (c + 4) ≤ o.length)
    (h : ∀ i q, i < n → q < 2 → slice o (place c split n i q) 2 = encCol .little v (slice data (i * B + (c + 2 * q)) 2)) :
    GreyKept v split B c n data o := by
  have key := colours_at hB hd ho h
  refine ⟨fun i q hi hq => ?_, fun hg j hj => ?_⟩
  · rw [key i q hi hq]
    obtain ⟨g1, g2, _⟩ := grey_word hv (num16_lt data (i * B + (c + 2 * q)))
    exact ⟨g1, g2⟩
  · rw [← num16_low]
    have fin : ∀ i q, i < n → q < 2 → place c split n i q = n * c + 2 * j → num16 o (n * c + 2 * j) % 256 ∈ greyLow v := by
      intro i q hi hq e
      rw [← e, key i q hi hq]
      exact (grey_word hv (num16_lt data _)).2.2 (hg i q hi hq)
    cases split
    · exact fin (j / 2) (j % 2) (by omega) (by omega) (by simp only [place, Bool.false_eq_true, if_false]; omega)
    · by_cases hjn : j < n
      · exact fin j 0 hjn (by omega) (by simp only [place, if_true, Nat.mul_zero, Nat.add_zero]; omega)
      · exact fin (j - n) 1 (by omega) (by omega) (by simp only [place, if_true, Nat.mul_add]; omega)

/-- **C104** (BC1), on every little-endian machine. -/
theorem C104_bc1 (m : Machine) (hm : m.endian = .little) (s : ColourSettings) (hv : s.decorr ≠ .none) (n : Nat) (data out : Buf)
    (hd : data.length = n * 8) (ho : n * 8 ≤ out.length) :
    ∃ o, Bc1.transformWithSettings m data out data.length s = some o ∧ GreyKept s.decorr s.split 8 0 n data o := by
  obtain ⟨hl, e⟩ := Bc1.transform_impl m s data out (by omega) (by omega)
  refine ⟨_, e, grey_kept hv (by omega) hd ?_ fun i q hi hq => ?_⟩
  · rw [List.length_append, hl]; omega
  · rw [hm]
    exact bc1_colour_at .little s _ hd hi hq

/-- **C104** (BC2). -/
theorem C104_bc2 (m : Machine) (hm : m.endian = .little) (s : ColourSettings) (hv : s.decorr ≠ .none) (n : Nat) (data out : Buf)
    (hd : data.length = n * 16) (ho : n * 16 ≤ out.length) :
    ∃ o, Bc2.transformWithSettings m data out data.length s = some o ∧ GreyKept s.decorr s.split 16 8 n data o := by
  obtain ⟨hl, e⟩ := Bc2.transform_impl m s data out (by omega) (by omega)
  refine ⟨_, e, grey_kept hv (by omega) hd ?_ fun i q hi hq => ?_⟩
  · rw [List.length_append, hl]; omega
  · rw [hm]
    exact bc2_colour_at .little s _ hd hi hq

/-- **C104** (BC3). -/
theorem C104_bc3 (m : Machine) (hm : m.endian = .little) (s : Bc3.Settings) (hv : s.decorr ≠ .none) (n : Nat) (data out : Buf)
    (hd : data.length = n * 16) (ho : n * 16 ≤ out.length) :
    ∃ o, Bc3.transformWithSettings m data out data.length s = some o ∧ GreyKept s.decorr s.splitColour 16 8 n data o := by
  obtain ⟨hl, e⟩ := Bc3.transform_impl m s data out (by omega) (by omega)
  refine ⟨_, e, grey_kept hv (by omega) hd ?_ fun i q hi hq => ?_⟩
  · rw [List.length_append, hl]; omega
  · rw [hm]
    exact bc3_colour_at .little s _ hd hi hq

/-! ## Concrete textures -/

/-- A black, a white, a middle grey (with the low green bit) and a red end point. -/
def greyData : Buf := [0, 0, 0xFF, 0xFF, 1, 2, 3, 4, 0x30, 0x84, 0, 0xF8, 5, 6, 7, 8]

/-- With variant 2 and split end points the three greys leave a zero low byte and the red one does not. -/
example :
    (Bc1.transformWithSettings (.other .little fun _ => 0) greyData (List.replicate 16 9) 16 ⟨.v2, true⟩).map (·.take 8) =
      some [0, 0, 0, 0xC0, 0, 0xFC, 0xF1, 0x5F] ∧
    Grey (num16 greyData 0) ∧ Grey (num16 greyData 2) ∧ Grey (num16 greyData 8) ∧ ¬ Grey (num16 greyData 10) := by
  refine ⟨by decide +kernel, ?_, ?_, ?_, ?_⟩ <;> (unfold Grey; decide +kernel)

end Dlt.Props
