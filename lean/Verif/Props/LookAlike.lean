import Verif.Props.StoredAlike
import Verif.Props.NormCanon
import Verif.Props.NormTransform
/-!
# C122: with normalization, what looks the same is stored alike

For blocks that normalization applies to: transparent ones, and those of one RGB565 colour.
-/

namespace Dlt.Props
open Spec Norm

/-- **C122** (BC1): `transform_bc1_with_normalize_blocks`, on two textures or one, any CPUs of one byte order. -/
theorem C122_bc1 (m m' : Machine) (hm : m.endian = m'.endian) (d : Norm.Bc1.Details) (hn : d.norm ≠ .none) (n n' : Nat)
    (a b out out' work work' : Buf) (ha : a.length = n * 8) (hb : b.length = n' * 8) (ho : n * 8 ≤ out.length) (ho' : n' * 8 ≤ out'.length)
    (hw : n * 4 ≤ work.length) (hw' : n' * 4 ≤ work'.length) :
    ∃ x u y v, Norm.Bc1.transformNormalize m a out work a.length d = some (x, u) ∧
      Norm.Bc1.transformNormalize m' b out' work' b.length d = some (y, v) ∧
      ∀ i j, i < n → j < n' → (Transparent (block 8 a i) ∨ ∃ c, c < 65536 ∧ SolidColour (block 8 a i) c) →
        (StoredAlike (sections1 d.split) n i x n' j y ↔ ∀ k, k < 16 → bc1Pixel (block 8 a i) k = bc1Pixel (block 8 b j) k) := by
  obtain ⟨u, -, e1⟩ := Norm.Bc1.transformNormalize_eq m d ha ho hw
  obtain ⟨v, -, e2⟩ := Norm.Bc1.transformNormalize_eq m' d hb ho' hw'
  refine ⟨_, u, _, v, by rw [ha]; exact e1, by rw [hb]; exact e2, fun i j hi hj hr => ?_⟩
  have la := mapBlocks_length (Norm.Bc1.norm_length d.norm) (show n * 8 ≤ a.length by omega)
  have lb := mapBlocks_length (Norm.Bc1.norm_length d.norm) (show n' * 8 ≤ b.length by omega)
  have ea := Dlt.Bc1.encode_length m.endian d.untransformSettings (data := mapBlocks 8 (Norm.Bc1.norm d.norm) a n) (by omega)
  have eb := Dlt.Bc1.encode_length m'.endian d.untransformSettings (data := mapBlocks 8 (Norm.Bc1.norm d.norm) b n') (by omega)
  have h := alike1 d.untransformSettings m.endian (n := n) (n' := n') (i := i) (j := j)
    (a := Dlt.Bc1.encode m.endian d.untransformSettings (mapBlocks 8 (Norm.Bc1.norm d.norm) a n))
    (b := Dlt.Bc1.encode m'.endian d.untransformSettings (mapBlocks 8 (Norm.Bc1.norm d.norm) b n')) (by omega) (by omega) hi hj
  rw [Dlt.Bc1.decode_encode _ _ _ (by omega), hm, Dlt.Bc1.decode_encode _ _ _ (by omega), ← hm] at h
  rw [show d.split = d.untransformSettings.split from rfl,
    alike_tail (by rw [sections1_sum]; omega) (by rw [sections1_sum]; omega) hi hj, ← hm, h]
  have h1 := Norm.Bc1.normalizeBlocks_eq (some a) (List.replicate (n * 8) 0) n d.norm (by simp [ha]) (by simp)
  have h2 := Norm.Bc1.normalizeBlocks_eq (some b) (List.replicate (n' * 8) 0) n' d.norm (by simp [hb]) (by simp)
  rw [List.drop_of_length_le (by simp), List.append_nil] at h1 h2
  exact C96_bc1 (some a) (some b) _ _ _ _ n n' d.norm hn (by simp [ha]) (by simp) (by simp [hb]) (by simp) h1 h2 i j hi hj hr

/-- **C122** (BC1, automatic choice): whatever settings with normalization `transform_bc1_auto_with_normalization` chooses. -/
theorem C122_bc1_auto {σ E : Type} (heap : Norm.Bc1.Heap) (m : Machine) (est : Estimator σ E) (useAll : Bool) (n : Nat) (a out : Buf) (st : σ)
    (ha : a.length = n * 8) (ho : n * 8 ≤ out.length) :
    ∃ x st' r, Norm.Bc1.autoNormalize heap m est useAll a out a.length st = some (x, st', r) ∧
      ∀ d, r = .ok d → d.norm ≠ .none → ∀ i j, i < n → j < n →
        (Transparent (block 8 a i) ∨ ∃ c, c < 65536 ∧ SolidColour (block 8 a i) c) →
        (StoredAlike (sections1 d.split) n i x n j x ↔ ∀ k, k < 16 → bc1Pixel (block 8 a i) k = bc1Pixel (block 8 a j) k) := by
  obtain ⟨x, st', r, e, -, -, h⟩ := C50_auto_normalize heap m est useAll a out st (by omega) (by omega)
  refine ⟨x, st', r, e, fun d hr hn i j hi hj ht => ?_⟩
  have hx := (h d hr).1 (List.replicate (n * 4) 0) (by simp; omega)
  obtain ⟨y, u, z, v, e1, e2, k⟩ := C122_bc1 m m rfl d hn n n a a out out (List.replicate (n * 4) 0) (List.replicate (n * 4) 0) ha ha ho ho
    (by simp) (by simp)
  rw [e1] at hx e2
  simp only [Option.some.injEq, Prod.mk.injEq] at e2
  obtain ⟨rfl, rfl⟩ := e2
  simp only [Option.map_some, Option.some.injEq] at hx
  subst hx
  exact k i j hi hj ht

/-- **C122** (BC2): normalize the blocks, then transform. -/
theorem C122_bc2 (m m' : Machine) (hm : m.endian = m'.endian) (mode : Mode) (hn : mode ≠ .none) (s : ColourSettings) (n n' : Nat)
    (a b z z' out out' : Buf) (ha : a.length = n * 16) (hb : b.length = n' * 16) (hz : z.length = n * 16) (hz' : z'.length = n' * 16)
    (ho : n * 16 ≤ out.length) (ho' : n' * 16 ≤ out'.length) :
    ∃ p q x y, Norm.Bc2.normalizeBlocks (some a) z (n * 16) mode = some p ∧ Norm.Bc2.normalizeBlocks (some b) z' (n' * 16) mode = some q ∧
      Dlt.Bc2.transformWithSettings m p out p.length s = some x ∧ Dlt.Bc2.transformWithSettings m' q out' q.length s = some y ∧
      ∀ i j, i < n → j < n' → (∃ c, c < 65536 ∧ SolidRgb (block 16 a i) c) →
        (StoredAlike (sections2 s.split) n i x n' j y ↔ ∀ k, k < 16 → bc2Pixel (block 16 a i) k = bc2Pixel (block 16 b j) k) := by
  obtain ⟨p, h1, l1, -⟩ := C44_bc2_pixels (some a) z n mode (by simp [ha]) (by omega)
  obtain ⟨q, h2, l2, -⟩ := C44_bc2_pixels (some b) z' n' mode (by simp [hb]) (by omega)
  obtain ⟨⟨x, y, e1, e2, h⟩, -⟩ := C121_bc2 m m' hm s n n' p q out out' (by omega) (by omega) ho ho'
  refine ⟨p, q, x, y, h1, h2, e1, e2, fun i j hi hj hr => (h i j hi hj).trans ?_⟩
  exact C96_bc2 (some a) (some b) z z' p q n n' mode hn (by simp [ha]) (by omega) (by simp [hb]) (by omega) h1 h2 i j hi hj hr

/-- **C122** (BC3): normalize the blocks, then transform. -/
theorem C122_bc3 (m m' : Machine) (hm : m.endian = m'.endian) (am : Norm.Bc3.AlphaMode) (cm : Mode) (hna : am ≠ .none) (hnc : cm ≠ .none)
    (s : Dlt.Bc3.Settings) (n n' : Nat) (a b z z' out out' : Buf) (ha : a.length = n * 16) (hb : b.length = n' * 16) (hz : z.length = n * 16)
    (hz' : z'.length = n' * 16) (ho : n * 16 ≤ out.length) (ho' : n' * 16 ≤ out'.length) :
    ∃ p q x y, Norm.Bc3.normalizeBlocks (some a) z (n * 16) am cm = some p ∧ Norm.Bc3.normalizeBlocks (some b) z' (n' * 16) am cm = some q ∧
      Dlt.Bc3.transformWithSettings m p out p.length s = some x ∧ Dlt.Bc3.transformWithSettings m' q out' q.length s = some y ∧
      ∀ i j, i < n → j < n' → (∃ c, c < 65536 ∧ SolidRgb (block 16 a i) c) → (∃ v, UniformAlpha (block 16 a i) v) →
        (StoredAlike (sections3 s.splitAlpha s.splitColour) n i x n' j y ↔
          ∀ k, k < 16 → bc3Pixel (block 16 a i) k = bc3Pixel (block 16 b j) k) := by
  obtain ⟨p, h1, l1, -⟩ := C44_bc3_pixels (some a) z n am cm (by simp [ha]) (by omega)
  obtain ⟨q, h2, l2, -⟩ := C44_bc3_pixels (some b) z' n' am cm (by simp [hb]) (by omega)
  obtain ⟨⟨x, y, e1, e2, h⟩, -⟩ := C121_bc3 m m' hm s n n' p q out out' (by omega) (by omega) ho ho'
  refine ⟨p, q, x, y, h1, h2, e1, e2, fun i j hi hj hr hra => (h i j hi hj).trans ?_⟩
  exact C96_bc3 (some a) (some b) z z' p q n n' am cm hna hnc (by simp [ha]) (by omega) (by simp [hb]) (by omega) h1 h2 i j hi hj hr hra

/-! ## A concrete texture -/

/-- Two different blocks of one colour, one with equal end points and one with equal indices: with normalization they are stored alike,
without it they are not. -/
example :
    ([Mode.color0Only, .none].map fun mode =>
      (Norm.Bc1.transformNormalize (.other .little fun _ => 0)
        [0xA3, 0x51, 0xA3, 0x51, 0x44, 0x11, 0x05, 0x50, 0xA3, 0x51, 0x11, 0x22, 0, 0, 0, 0] (List.replicate 16 7) (List.replicate 8 7) 16
        ⟨mode, .v1, true⟩).map fun (x, _) => [0, 1].map fun i => storedOf (sections1 true) 2 i x) =
      [some [[[0xE0, 0x31], [0, 0], [0, 0, 0, 0]], [[0xE0, 0x31], [0, 0], [0, 0, 0, 0]]],
       some [[[0xE0, 0x31], [0xE0, 0x31], [0x44, 0x11, 0x05, 0x50]], [[0xE0, 0x31], [0xCE, 0x0C], [0, 0, 0, 0]]]] := by decide +kernel

/-- The same in BC2, with equal alpha values, and in BC3, where two encodings of the alpha value 200 become one as well. -/
example :
    ((Norm.Bc2.normalizeBlocks (some [1, 2, 3, 4, 5, 6, 7, 8, 0xA3, 0x51, 0xA3, 0x51, 0x44, 0x11, 0x05, 0x50,
        1, 2, 3, 4, 5, 6, 7, 8, 0xA3, 0x51, 0x11, 0x22, 0, 0, 0, 0]) (List.replicate 32 7) 32 .replicate).bind fun p =>
      (Dlt.Bc2.transformWithSettings (.other .little fun _ => 0) p (List.replicate 32 7) 32 ⟨.v1, true⟩).map fun x =>
        [0, 1].map fun i => storedOf (sections2 true) 2 i x) =
      some (List.replicate 2 [[1, 2, 3, 4, 5, 6, 7, 8], [0xE0, 0x31], [0xE0, 0x31], [0, 0, 0, 0]]) ∧
    ((Norm.Bc3.normalizeBlocks (some [200, 200, 0x49, 0x92, 0x24, 0x49, 0x92, 0x24, 0xA3, 0x51, 0xA3, 0x51, 0x44, 0x11, 0x05, 0x50,
        200, 17, 0, 0, 0, 0, 0, 0, 0xA3, 0x51, 0x11, 0x22, 0, 0, 0, 0]) (List.replicate 32 7) 32 .uniformAlphaZeroIndices .color0Only).bind fun p =>
      (Dlt.Bc3.transformWithSettings (.other .little fun _ => 0) p (List.replicate 32 7) 32 ⟨.v1, true, true⟩).map fun x =>
        [0, 1].map fun i => storedOf (sections3 true true) 2 i x) =
      some (List.replicate 2 [[200], [0], [0, 0, 0, 0, 0, 0], [0xE0, 0x31], [0, 0], [0, 0, 0, 0]]) := by decide +kernel

end Dlt.Props
