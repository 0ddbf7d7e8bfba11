import Verif.Props.Grey
/-!
# C118: colours that differ in brightness only have the same chroma

The second thing that decorrelation is for: two end points have the same chroma bits in the transformed texture exactly if red, the upper
five bits of green, and blue differ by the same amount (modulo 32), and then the lumas differ by this amount.
-/

namespace Dlt.Props
open Spec

/-! ## Specification -/

/-- `d` is `c` with `k` added to red, the upper five bits of green, and blue, modulo 32. -/
def BrighterBy (k c d : Nat) : Prop :=
  d / 2 ^ 11 % 32 = (c / 2 ^ 11 % 32 + k) % 32 ∧ d / 2 ^ 6 % 32 = (c / 2 ^ 6 % 32 + k) % 32 ∧ d % 32 = (c % 32 + k) % 32

/-- The stored colours `w` and `x` have the same chroma values. -/
def SameChroma (v : Variant) (w x : Nat) : Prop :=
  w / 2 ^ coPos v % 32 = x / 2 ^ coPos v % 32 ∧ w / 2 ^ cgPos v % 32 = x / 2 ^ cgPos v % 32

/-! ## One colour -/

/-- The values of a stored colour. -/
theorem stored_values {v : Variant} (hv : v ≠ .none) {c : Nat} :
    (decorrelate v c / 2 ^ coPos v % 32 : Nat) = co (red5 c) (blue5 c) ∧
    (decorrelate v c / 2 ^ cgPos v % 32 : Nat) = cg (red5 c) (green5 c) (blue5 c) ∧
    (luma v (decorrelate v c) : Int) = yy (red5 c) (green5 c) (blue5 c) := by
  have k1 : 0 ≤ co (red5 c) (blue5 c) ∧ co (red5 c) (blue5 c) < 32 := by unfold co; omega
  have k2 : 0 ≤ cg (red5 c) (green5 c) (blue5 c) ∧ cg (red5 c) (green5 c) (blue5 c) < 32 := by unfold cg; omega
  have k3 : 0 ≤ yy (red5 c) (green5 c) (blue5 c) ∧ yy (red5 c) (green5 c) (blue5 c) < 32 := by unfold yy; omega
  have hl : greenLow c < 2 := by unfold greenLow; omega
  unfold luma decorrelate
  generalize yy (red5 c) (green5 c) (blue5 c) = y at *
  generalize co (red5 c) (blue5 c) = o at *
  generalize cg (red5 c) (green5 c) (blue5 c) = g at *
  generalize greenLow c = l at *
  cases v
  · simp only [coPos, cgPos, yPos, Nat.reducePow]
    omega
  · simp only [coPos, cgPos, yPos, Nat.reducePow]
    omega
  · simp only [coPos, cgPos, yPos, Nat.reducePow]
    omega
  · exact absurd rfl hv

theorem co_brighter {r b r' b' k : Int} (hr : r' = (r + k) % 32) (hb : b' = (b + k) % 32) : co r' b' = co r b := by
  subst hr hb
  unfold co
  omega

theorem tt_brighter {r b r' b' k : Int} (hr : r' = (r + k) % 32) (hb : b' = (b + k) % 32) : tt r' b' = (tt r b + k) % 32 := by
  unfold tt
  rw [co_brighter hr hb]
  generalize co r b / 2 = o
  omega

theorem cg_brighter {r g b r' g' b' k : Int} (hr : r' = (r + k) % 32) (hg : g' = (g + k) % 32) (hb : b' = (b + k) % 32) :
    cg r' g' b' = cg r g b := by
  unfold cg
  rw [tt_brighter hr hb]
  generalize tt r b = t
  omega

theorem yy_brighter {r g b r' g' b' k : Int} (hr : r' = (r + k) % 32) (hg : g' = (g + k) % 32) (hb : b' = (b + k) % 32) :
    yy r' g' b' = (yy r g b + k) % 32 := by
  unfold yy
  rw [tt_brighter hr hb, cg_brighter hr hg hb]
  generalize tt r b = t
  generalize cg r g b / 2 = x
  omega

theorem red_of_co {r b r' b' : Int} (h : co r b = co r' b') (hr : 0 ≤ r') (hr' : r' < 32) : r' = (r + (b' - b)) % 32 := by
  unfold co at h
  omega

theorem green_of_cg {r g b r' g' b' : Int} (h : cg r g b = cg r' g' b') (ho : co r b = co r' b') (hg : 0 ≤ g') (hg' : g' < 32) :
    g' = (g + (b' - b)) % 32 := by
  unfold cg tt at h
  rw [ho] at h
  generalize co r' b' / 2 = x at h
  omega

theorem channels (c : Nat) : red5 c < 32 ∧ green5 c < 32 ∧ blue5 c < 32 := by
  unfold red5 green5 blue5
  omega

theorem brighter_iff {k c d : Nat} : BrighterBy k c d ↔
    red5 d = (red5 c + k) % 32 ∧ green5 d = (green5 c + k) % 32 ∧ blue5 d = (blue5 c + k) % 32 := Iff.rfl

theorem brighter_word {v : Variant} (hv : v ≠ .none) (c d : Nat) :
    (SameChroma v (decorrelate v c) (decorrelate v d) ↔ ∃ k, BrighterBy k c d) ∧
    ∀ k, BrighterBy k c d → luma v (decorrelate v d) = (luma v (decorrelate v c) + k) % 32 := by
  obtain ⟨c1, c2, c3⟩ := stored_values hv (c := c)
  obtain ⟨d1, d2, d3⟩ := stored_values hv (c := d)
  obtain ⟨cr, cg', cb⟩ := channels c
  obtain ⟨dr, dg, db⟩ := channels d
  have cast : ∀ {x y k : Nat}, x = (y + k) % 32 → (x : Int) = ((y : Int) + k) % 32 := fun h => by omega
  simp only [brighter_iff]
  generalize red5 c = r at *
  generalize green5 c = g at *
  generalize blue5 c = b at *
  generalize red5 d = r' at *
  generalize green5 d = g' at *
  generalize blue5 d = b' at *
  refine ⟨⟨fun ⟨h1, h2⟩ => ?_, fun ⟨k, hr, hg, hb⟩ => ⟨?_, ?_⟩⟩, fun k ⟨hr, hg, hb⟩ => ?_⟩
  · have e1 : co r b = co r' b' := by rw [← c1, ← d1, h1]
    have e2 : cg r g b = cg r' g' b' := by rw [← c2, ← d2, h2]
    have f1 := red_of_co e1 (by omega) (by omega)
    have f2 := green_of_cg e2 e1 (by omega) (by omega)
    clear c1 c2 c3 d1 d2 d3 e1 e2 h1 h2
    exact ⟨b' + 32 - b, by omega, by omega, by omega⟩
  · have := co_brighter (cast hr) (cast hb)
    rw [← c1, ← d1] at this
    exact (Int.ofNat.inj this).symm
  · have := cg_brighter (cast hr) (cast hg) (cast hb)
    rw [← c2, ← d2] at this
    exact (Int.ofNat.inj this).symm
  · have := yy_brighter (cast hr) (cast hg) (cast hb)
    rw [← c3, ← d3] at this
    omega

/-! ## Textures -/

/-- `o` is what becomes of `data`: `n` blocks of `B` bytes with colours at byte `c`. -/
def BrightnessKept (v : Variant) (split : Bool) (B c n : Nat) (data o : Buf) : Prop :=
  ∀ i q j r, i < n → q < 2 → j < n → r < 2 →
    (SameChroma v (num16 o (place c split n i q)) (num16 o (place c split n j r)) ↔
      ∃ k, BrighterBy k (num16 data (i * B + (c + 2 * q))) (num16 data (j * B + (c + 2 * r)))) ∧
    ∀ k, BrighterBy k (num16 data (i * B + (c + 2 * q))) (num16 data (j * B + (c + 2 * r))) →
      luma v (num16 o (place c split n j r)) = (luma v (num16 o (place c split n i q)) + k) % 32

theorem brightness_kept {v : Variant} (hv : v ≠ .none) {split : Bool} {B c n : Nat} {data o : Buf} (hB : c + 4 ≤ B)
    (hd : data.length = n * B) (ho : n * (c + 4) ≤ o.length)
    (h : ∀ i q, i < n → q < 2 → slice o (place c split n i q) 2 = encCol .little v (slice data (i * B + (c + 2 * q)) 2)) :
    BrightnessKept v split B c n data o := by
  have key := colours_at hB hd ho h
  intro i q j r hi hq hj hr
  rw [key i q hi hq, key j r hj hr]
  exact brighter_word hv _ _

/-- **C118** (BC1), on every little-endian machine. -/
theorem C118_bc1 (m : Machine) (hm : m.endian = .little) (s : ColourSettings) (hv : s.decorr ≠ .none) (n : Nat) (data out : Buf)
    (hd : data.length = n * 8) (ho : n * 8 ≤ out.length) :
    ∃ o, Bc1.transformWithSettings m data out data.length s = some o ∧ BrightnessKept s.decorr s.split 8 0 n data o := by
  obtain ⟨hl, e⟩ := Bc1.transform_impl m s data out (by omega) (by omega)
  refine ⟨_, e, brightness_kept hv (by omega) hd ?_ fun i q hi hq => ?_⟩
  · rw [List.length_append, hl]; omega
  · rw [hm]
    exact bc1_colour_at .little s _ hd hi hq

/-- **C118** (BC2). -/
theorem C118_bc2 (m : Machine) (hm : m.endian = .little) (s : ColourSettings) (hv : s.decorr ≠ .none) (n : Nat) (data out : Buf)
    (hd : data.length = n * 16) (ho : n * 16 ≤ out.length) :
    ∃ o, Bc2.transformWithSettings m data out data.length s = some o ∧ BrightnessKept s.decorr s.split 16 8 n data o := by
  obtain ⟨hl, e⟩ := Bc2.transform_impl m s data out (by omega) (by omega)
  refine ⟨_, e, brightness_kept hv (by omega) hd ?_ fun i q hi hq => ?_⟩
  · rw [List.length_append, hl]; omega
  · rw [hm]
    exact bc2_colour_at .little s _ hd hi hq

/-- **C118** (BC3). -/
theorem C118_bc3 (m : Machine) (hm : m.endian = .little) (s : Bc3.Settings) (hv : s.decorr ≠ .none) (n : Nat) (data out : Buf)
    (hd : data.length = n * 16) (ho : n * 16 ≤ out.length) :
    ∃ o, Bc3.transformWithSettings m data out data.length s = some o ∧ BrightnessKept s.decorr s.splitColour 16 8 n data o := by
  obtain ⟨hl, e⟩ := Bc3.transform_impl m s data out (by omega) (by omega)
  refine ⟨_, e, brightness_kept hv (by omega) hd ?_ fun i q hi hq => ?_⟩
  · rw [List.length_append, hl]; omega
  · rw [hm]
    exact bc3_colour_at .little s _ hd hi hq

/-! ## A concrete texture -/

/-- Two browns, (10, 6, 3) and (14, 10, 7), in one block. -/
def brownData : Buf := [0x83, 0x51, 0x87, 0x72, 1, 2, 3, 4]

/-- They have the same chroma, and their lumas differ by four. -/
example : BrighterBy 4 (num16 brownData 0) (num16 brownData 2) ∧ ¬ Grey (num16 brownData 0) ∧
    (Bc1.transformWithSettings (.other .little fun _ => 0) brownData (List.replicate 8 9) 8 ⟨.v2, false⟩).map (fun o =>
      [num16 o 0 / 2 ^ 5 % 32, num16 o 2 / 2 ^ 5 % 32, num16 o 0 % 32, num16 o 2 % 32, luma .v2 (num16 o 0), luma .v2 (num16 o 2)]) =
      some [7, 7, 0, 0, 6, 10] := by
  refine ⟨?_, ?_, ?_⟩
  · unfold BrighterBy; decide +kernel
  · unfold Grey; decide +kernel
  · decide +kernel

end Dlt.Props
