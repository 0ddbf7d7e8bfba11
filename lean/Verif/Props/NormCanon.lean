import Verif.Props.NormExact
/-!
# C96: what looks the same and is recognised gets the same bytes

Two blocks, of any two textures, normalized with the same modes.
-/

namespace Dlt.Props
open Spec Norm

theorem le_lt : ∀ x : Buf, le x < 256 ^ x.length
  | [] => by simp [le]
  | a :: x => by
    have := le_lt x
    have := a.isLt
    rw [le, List.length_cons, Nat.pow_succ]
    omega

theorem digits_eq : ∀ (n x y : Nat), x < 16 ^ n → y < 16 ^ n → (∀ k, k < n → x / 16 ^ k % 16 = y / 16 ^ k % 16) → x = y
  | 0, x, y, hx, hy, _ => by simp at hx hy; omega
  | n + 1, x, y, hx, hy, h => by
    rw [Nat.pow_succ] at hx hy
    have h0 := h 0 (by omega)
    simp only [Nat.pow_zero, Nat.div_one] at h0
    have := digits_eq n (x / 16) (y / 16) (by omega) (by omega) fun k hk => by
      have := h (k + 1) (by omega)
      rwa [Nat.pow_succ', ← Nat.div_div_eq_div_mul, ← Nat.div_div_eq_div_mul] at this
    omega

theorem whole_eq {x y : Buf} (hx : x.length = 16) (hy : y.length = 16) (h1 : slice x 0 8 = slice y 0 8)
    (h2 : slice x 8 8 = slice y 8 8) : x = y := by
  rw [← List.take_append_drop 8 x, ← List.take_append_drop 8 y]
  simp only [slice, List.drop_zero] at h1 h2
  rw [List.take_of_length_le (by simp [hx]), List.take_of_length_le (by simp [hy])] at h2
  rw [h1, h2]

/-- **C96** (BC1): the block is transparent, or of one RGB565 colour. -/
theorem C96_bc1 (src src2 : Option Buf) (out out2 out' out2' : Buf) (n n2 : Nat) (mode : Mode) (hm : mode ≠ .none)
    (hs : n * 8 ≤ (src.getD out).length) (ho : n * 8 ≤ out.length) (hs2 : n2 * 8 ≤ (src2.getD out2).length) (ho2 : n2 * 8 ≤ out2.length)
    (h : Norm.Bc1.normalizeBlocks src out (n * 8) mode = some out')
    (h2 : Norm.Bc1.normalizeBlocks src2 out2 (n2 * 8) mode = some out2') (i j : Nat) (hi : i < n) (hj : j < n2)
    (hr : Transparent (block 8 (src.getD out) i) ∨ ∃ c, c < 65536 ∧ SolidColour (block 8 (src.getD out) i) c) :
    block 8 out' i = block 8 out2' j ↔
      ∀ k, k < 16 → bc1Pixel (block 8 (src.getD out) i) k = bc1Pixel (block 8 (src2.getD out2) j) k := by
  constructor
  · intro e k hk
    obtain ⟨x, e1, -, -, e2⟩ := C43_bc1_pixels src out n mode hs ho
    obtain ⟨y, f1, -, -, f2⟩ := C43_bc1_pixels src2 out2 n2 mode hs2 ho2
    cases h.symm.trans e1
    cases h2.symm.trans f1
    rw [← e2 i hi k hk, ← f2 j hj k hk, e]
  · intro hp
    have g := C43_bc1_normal_form src out out' n mode hs ho h i hi
    have g2 := C43_bc1_normal_form src2 out2 out2' n2 mode hs2 ho2 h2 j hj
    rcases hr with ht | ⟨c, hc, hsol⟩
    · rw [g.transparent hm ht, g2.transparent hm fun k hk => by rw [← hp k hk, ht k hk]]
    · obtain ⟨l1, a1, a2, a3⟩ := g.solid hm c hc hsol
      obtain ⟨l2, b1, b2, b3⟩ := g2.solid hm c hc fun k hk => by rw [← hp k hk, hsol k hk]
      have q1 := le_inj (by simp [slice, l1, l2]) (a1.trans b1.symm)
      have q2 := le_inj (by simp [slice, l1, l2]) (a2.trans b2.symm)
      have q3 := le_inj (by simp [slice, l1, l2]) (a3.trans b3.symm)
      have hw : ∀ x : Buf, x.length = 8 → x = slice x 0 2 ++ (slice x 2 2 ++ slice x 4 4) := by
        intro x hx
        match x, hx with
        | [_, _, _, _, _, _, _, _], _ => rfl
      rw [hw _ l1, hw _ l2, q1, q2, q3]

theorem colour_same {mode : Mode} (hm : mode ≠ .none) {a b a' b' : Buf} (la : a'.length = 16) (lb : b'.length = 16)
    (ga : ColourNormal mode a a') (gb : ColourNormal mode b b') {c : Nat} (hc : c < 65536) (ha : SolidRgb a c) (hb : SolidRgb b c) :
    slice a' 8 8 = slice b' 8 8 := by
  obtain ⟨a1, a2, a3⟩ := ga.solid hm c hc ha
  obtain ⟨b1, b2, b3⟩ := gb.solid hm c hc hb
  have q1 := le_inj (by simp [slice, la, lb]) (a1.trans b1.symm)
  have q2 := le_inj (by simp [slice, la, lb]) (a2.trans b2.symm)
  have q3 := le_inj (by simp [slice, la, lb]) (a3.trans b3.symm)
  have hw : ∀ x : Buf, x.length = 16 → slice x 8 8 = slice x 8 2 ++ (slice x 10 2 ++ slice x 12 4) := by
    intro x hx
    match x, hx with
    | [_, _, _, _, _, _, _, _, _, _, _, _, _, _, _, _], _ => rfl
  rw [hw _ la, hw _ lb, q1, q2, q3]

theorem rgba_parts {x y : Rgb} {a b : Nat} (h : withAlpha x a = withAlpha y b) : x = y ∧ a = b := by
  obtain ⟨x1, x2, x3⟩ := x
  obtain ⟨y1, y2, y3⟩ := y
  simp only [withAlpha, Prod.mk.injEq] at h
  obtain ⟨rfl, rfl, rfl, rfl⟩ := h
  exact ⟨rfl, rfl⟩

/-- **C96** (BC2): the colours are one RGB565 colour, the alpha values are any. -/
theorem C96_bc2 (src src2 : Option Buf) (out out2 out' out2' : Buf) (n n2 : Nat) (mode : Mode) (hm : mode ≠ .none)
    (hs : n * 16 ≤ (src.getD out).length) (ho : n * 16 ≤ out.length) (hs2 : n2 * 16 ≤ (src2.getD out2).length)
    (ho2 : n2 * 16 ≤ out2.length) (h : Norm.Bc2.normalizeBlocks src out (n * 16) mode = some out')
    (h2 : Norm.Bc2.normalizeBlocks src2 out2 (n2 * 16) mode = some out2') (i j : Nat) (hi : i < n) (hj : j < n2)
    (hr : ∃ c, c < 65536 ∧ SolidRgb (block 16 (src.getD out) i) c) :
    block 16 out' i = block 16 out2' j ↔
      ∀ k, k < 16 → bc2Pixel (block 16 (src.getD out) i) k = bc2Pixel (block 16 (src2.getD out2) j) k := by
  obtain ⟨x, e1, e3, -, e2⟩ := C44_bc2_pixels src out n mode hs ho
  obtain ⟨y, f1, f3, -, f2⟩ := C44_bc2_pixels src2 out2 n2 mode hs2 ho2
  cases h.symm.trans e1
  cases h2.symm.trans f1
  constructor
  · intro e k hk
    rw [← e2 i hi k hk, ← f2 j hj k hk, e]
  · intro hp
    obtain ⟨g, ga⟩ := C44_bc2_normal_form src out out' n mode hs ho h i hi
    obtain ⟨g2, ga2⟩ := C44_bc2_normal_form src2 out2 out2' n2 mode hs2 ho2 h2 j hj
    obtain ⟨c, hc, hsol⟩ := hr
    have lx : (block 16 out' i).length = 16 := block_len (by omega) hi
    have ly : (block 16 out2' j).length = 16 := block_len (by omega) hj
    refine whole_eq lx ly ?_ (colour_same hm lx ly g g2 hc hsol fun k hk => ?_)
    · rw [ga, ga2]
      have ka := block_len hs hi
      have kb := block_len hs2 hj
      have sa : (slice (block 16 (src.getD out) i) 0 8).length = 8 := slice_length_of_le (by omega)
      have sb : (slice (block 16 (src2.getD out2) j) 0 8).length = 8 := slice_length_of_le (by omega)
      have l1 := le_lt (slice (block 16 (src.getD out) i) 0 8)
      have l2 := le_lt (slice (block 16 (src2.getD out2) j) 0 8)
      rw [sa] at l1
      rw [sb] at l2
      refine le_inj (by rw [sa, sb]) (digits_eq 16 _ _ (by omega) (by omega) fun k hk => ?_)
      have := (rgba_parts (hp k hk)).2
      omega
    · rw [← (rgba_parts (hp k hk)).1, hsol k hk]

/-- **C96** (BC3): the colours are one RGB565 colour and the alpha values are one value. -/
theorem C96_bc3 (src src2 : Option Buf) (out out2 out' out2' : Buf) (n n2 : Nat) (am : Norm.Bc3.AlphaMode) (cm : Mode)
    (hma : am ≠ .none) (hmc : cm ≠ .none)
    (hs : n * 16 ≤ (src.getD out).length) (ho : n * 16 ≤ out.length) (hs2 : n2 * 16 ≤ (src2.getD out2).length)
    (ho2 : n2 * 16 ≤ out2.length) (h : Norm.Bc3.normalizeBlocks src out (n * 16) am cm = some out')
    (h2 : Norm.Bc3.normalizeBlocks src2 out2 (n2 * 16) am cm = some out2') (i j : Nat) (hi : i < n) (hj : j < n2)
    (hr : ∃ c, c < 65536 ∧ SolidRgb (block 16 (src.getD out) i) c) (hra : ∃ a, UniformAlpha (block 16 (src.getD out) i) a) :
    block 16 out' i = block 16 out2' j ↔
      ∀ k, k < 16 → bc3Pixel (block 16 (src.getD out) i) k = bc3Pixel (block 16 (src2.getD out2) j) k := by
  obtain ⟨x, e1, e3, -, e2⟩ := C44_bc3_pixels src out n am cm hs ho
  obtain ⟨y, f1, f3, -, f2⟩ := C44_bc3_pixels src2 out2 n2 am cm hs2 ho2
  cases h.symm.trans e1
  cases h2.symm.trans f1
  constructor
  · intro e k hk
    rw [← e2 i hi k hk, ← f2 j hj k hk, e]
  · intro hp
    obtain ⟨ga, g⟩ := C44_bc3_normal_form src out out' n am cm hs ho h i hi
    obtain ⟨ga2, g2⟩ := C44_bc3_normal_form src2 out2 out2' n2 am cm hs2 ho2 h2 j hj
    obtain ⟨c, hc, hsol⟩ := hr
    obtain ⟨a, hu⟩ := hra
    have hu2 : UniformAlpha (block 16 (src2.getD out2) j) a := fun k hk => by rw [← hp k hk, hu k hk]
    have lx : (block 16 out' i).length = 16 := block_len (by omega) hi
    have ly : (block 16 out2' j).length = 16 := block_len (by omega) hj
    refine whole_eq lx ly ?_ (colour_same hmc lx ly g g2 hc hsol fun k hk => ?_)
    · by_cases h255 : a = 255 → am = .uniformAlphaZeroIndices
      · obtain ⟨p1, p2⟩ := ga.uniform hma a hu h255
        obtain ⟨q1, q2⟩ := ga2.uniform hma a hu2 h255
        have hw : ∀ x : Buf, x.length = 16 → slice x 0 8 = slice x 0 1 ++ slice x 1 7 := by
          intro x hx
          match x, hx with
          | [_, _, _, _, _, _, _, _, _, _, _, _, _, _, _, _], _ => rfl
        rw [hw _ lx, hw _ ly, p2, q2, le_inj (by simp [slice, lx, ly]) (p1.trans q1.symm)]
      · have ha : a = 255 := by
          by_contra hne
          exact h255 fun e => absurd e hne
        subst ha
        cases am with
        | none => exact absurd rfl hma
        | uniformAlphaZeroIndices => exact absurd (fun _ => rfl) h255
        | opaqueFillAll => rw [ga.fillAll rfl hu, ga2.fillAll rfl hu2]
        | opaqueZeroAlphaMaxIndices => rw [ga.maxIndices rfl hu, ga2.maxIndices rfl hu2]
    · rw [← (rgba_parts (hp k hk)).1, hsol k hk]

/-! ## Concrete cases -/

/-- Two different blocks of one colour, one with equal end points and one with equal indices, get the same bytes. -/
example : Norm.Bc1.normalizeBlocks (some [0x34, 0x12, 0x34, 0x12, 0x44, 0x11, 0x05, 0x50, 0x34, 0x12, 0x11, 0x22, 0, 0, 0, 0])
    (List.replicate 16 7) 16 .color0Only = some [0x34, 0x12, 0, 0, 0, 0, 0, 0, 0x34, 0x12, 0, 0, 0, 0, 0, 0] := by decide +kernel

/-- The condition is needed: all pixels of these two blocks are of one colour which is not an RGB565 colour; they look the same and
stay different in every mode. -/
theorem C96_other_colours :
    let a : Buf := [1, 0, 2, 0, 0xAA, 0xAA, 0xAA, 0xAA]
    let b : Buf := [0, 0, 3, 0, 0xAA, 0xAA, 0xAA, 0xAA]
    let z : Buf := List.replicate 8 0
    (∀ k, k < 16 → bc1Pixel a k = (0, 0, 12, 255) ∧ bc1Pixel b k = (0, 0, 12, 255)) ∧
    ∀ mode : Mode, Norm.Bc1.normalizeBlocks (some a) z 8 mode = some a ∧ Norm.Bc1.normalizeBlocks (some b) z 8 mode = some b := by
  refine ⟨by decide +kernel, fun mode => ?_⟩
  cases mode <;> decide +kernel

end Dlt.Props
