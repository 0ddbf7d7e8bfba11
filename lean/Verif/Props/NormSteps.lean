import Verif.Props.Normalize
import Verif.Props.ColourPart
/-!
# C112: normalizing again, and alpha and colours apart

A normalization after another one does what one normalization of the original would do, with the later mode unless that is none; BC3
has two modes, which count each on its own.  So the modes may be applied one after the other, in any order.  The colours of BC2 and BC3
are normalized alike, whatever the alpha.
-/

namespace Dlt.Norm
open Decode

/-! ## One block -/

theorem Bc1.norm_norm (m m' : Mode) (b : Buf) : norm m' (norm m b) = norm (if m' = .none then m else m') b := by
  by_cases h' : m' = .none
  · simp [norm, h']
  · rw [if_neg h']
    by_cases hm : m = .none
    · simp [norm, hm]
    · have hk := kind_congr fun k hk => norm_pix m b k hk
      have e0 : norm m' (norm m b) = write (kind (pix1 (norm m b))) m' false (norm m b) := by rw [norm, if_neg h']
      have e1 : norm m' b = write (kind (pix1 b)) m' false b := by rw [norm, if_neg h']
      rw [e0, e1, hk]
      rcases h : kind (pix1 b) with ⟨t, c⟩
      have e : norm m b = write (t, c) m false b := by rw [norm, if_neg hm, h]
      rw [e]
      cases t
      · rfl
      · cases m'
        · exact absurd rfl h'
        · rfl
        · rfl
      · rfl

theorem Bc2.colour_colour (t : Bool × U16) (m m' : Mode) (old : Buf) :
    colour t m' (colour t m old) = colour t (if m' = .none then m else m') old := by
  unfold colour
  by_cases h' : m' = .none
  · simp [h']
  · by_cases ht : t.1 = true
    · simp [h', ht]
    · simp [ht]

theorem Bc2.norm_norm (m m' : Mode) (b : Buf) (hb : b.length = 16) :
    norm m' (norm m b) = norm (if m' = .none then m else m') b := by
  have hk : kind (pix2 (norm m b)) = kind (pix2 b) :=
    kind_congr fun k hk => by rw [norm_pix m b hb k hk]
  have e : norm m' (norm m b) = write (kind (pix2 (norm m b))) m' (norm m b) := rfl
  have h8 : (b.take 8).length = 8 := by simp [hb]
  have e1 : (norm m b).take 8 = b.take 8 := List.take_left' h8
  have e2 : (norm m b).drop 8 = colour (kind (pix2 b)) m (b.drop 8) := List.drop_left' h8
  rw [e, hk, write, e1, e2, colour_colour]
  rfl

theorem Bc3.alpha_alpha (i : Info) (m m' : AlphaMode) (old : Buf) :
    alpha i m' (alpha i m old) = alpha i (if m' = .none then m else m') old := by
  unfold alpha
  by_cases h' : m' = .none
  · simp [h']
  · by_cases ht : i.uniformAlpha = true
    · simp [h', ht]
    · simp [ht]

theorem Bc3.norm_norm (am am' : AlphaMode) (cm cm' : Mode) (b : Buf) (hb : b.length = 16) :
    norm am' cm' (norm am cm b) = norm (if am' = .none then am else am') (if cm' = .none then cm else cm') b := by
  have hk : kind (pix3 (norm am cm b)) = kind (pix3 b) := kind_congr (norm_pix am cm b hb)
  have e : norm am' cm' (norm am cm b) = write (kind (pix3 (norm am cm b))) am' cm' (norm am cm b) := rfl
  have ha := alpha_length (kind (pix3 b)) am (b.take 8) (by simp [hb])
  have e1 : (norm am cm b).take 8 = alpha (kind (pix3 b)) am (b.take 8) := List.take_left' ha
  have e2 : (norm am cm b).drop 8 = Bc2.colour ((kind (pix3 b)).solid, (kind (pix3 b)).color) cm (b.drop 8) :=
    List.drop_left' ha
  rw [e, hk, write, e1, e2, alpha_alpha, Bc2.colour_colour]
  rfl

/-- The colour part of a BC3 block is written as BC2 does it. -/
theorem Bc3.colour_eq (f : Nat → Color8888) (cm : Mode) (old : Buf) :
    Bc2.colour ((kind f).solid, (kind f).color) cm old = Bc2.colour (Bc2.kind f) cm old := by
  by_cases h : (kind f).solid = true
  · rw [Bc3.kind_bc2 f h, h]
  · have h' : ¬ (Bc2.kind f).1 = true := by rw [kind_bc2_fst]; exact h
    simp [Bc2.colour, h, h']

theorem col4_of_drop {a b : Buf} (ha : a.length = 16) (hb : b.length = 16) (h : a.drop 8 = b.drop 8) (k : Nat) : col4 a k = col4 b k := by
  rw [← col4_halves k (halves ha).2.1 hb, ← h, (halves ha).1]

theorem norm_colours {a b : Buf} (ha : a.length = 16) (hb : b.length = 16) (h : a.drop 8 = b.drop 8) (am : Bc3.AlphaMode) (cm : Mode) :
    (Bc2.norm cm a).drop 8 = (Bc3.norm am cm b).drop 8 := by
  have e1 : (Bc2.norm cm a).drop 8 = Bc2.colour (Bc2.kind (pix2 a)) cm (a.drop 8) := List.drop_left' (by simp [ha])
  have e2 : (Bc3.norm am cm b).drop 8 = Bc2.colour ((Bc3.kind (pix3 b)).solid, (Bc3.kind (pix3 b)).color) cm (b.drop 8) :=
    List.drop_left' (Bc3.alpha_length _ am _ (by simp [hb]))
  have hk : Bc2.kind (pix2 a) = Bc2.kind (pix3 b) := Bc2.kind_congr fun k _ => by
    show (col4 a k).withoutAlpha = (col4 b k).withoutAlpha
    rw [col4_of_drop ha hb h]
  rw [e1, e2, Bc3.colour_eq, h, hk]

end Dlt.Norm

namespace Dlt.Props
open Decode Spec Norm

theorem mapBlocks_mapBlocks {B n : Nat} {F G H : Buf → Buf} {data tail : Buf}
    (hF : ∀ b : Buf, b.length = B → (F b).length = B) (hc : ∀ b : Buf, b.length = B → G (F b) = H b)
    (hd : n * B ≤ data.length) : mapBlocks B G (mapBlocks B F data n ++ tail) n = mapBlocks B H data n :=
  mapBlocks_congr fun i h => by rw [block_mapBlocks hF hd h, hc _ (block_len hd h)]

/-! ## C112 -/

/-- **C112.** BC1: the later mode counts, unless it is none. -/
theorem C112_bc1 (src : Option Buf) (out out' : Buf) (n : Nat) (m m' : Mode)
    (hs : n * 8 ≤ (src.getD out).length) (ho : n * 8 ≤ out.length)
    (h : Norm.Bc1.normalizeBlocks src out (n * 8) m = some out') :
    Norm.Bc1.normalizeBlocks none out' (n * 8) m' =
      Norm.Bc1.normalizeBlocks src out (n * 8) (if m' = .none then m else m') := by
  rw [Norm.Bc1.normalizeBlocks_eq src out n m hs ho] at h
  obtain rfl := Option.some.inj h
  obtain ⟨f1, f2⟩ := frame (Norm.Bc1.norm_length m) hs ho
  rw [Norm.Bc1.normalizeBlocks_eq none _ n m' (by simp only [Option.getD_none]; omega) (by omega), f2,
    Norm.Bc1.normalizeBlocks_eq src out n _ hs ho]
  simp only [Option.getD_none]
  rw [mapBlocks_mapBlocks (Norm.Bc1.norm_length m) (fun b _ => Norm.Bc1.norm_norm m m' b) hs]

/-- **C112.** BC2. -/
theorem C112_bc2 (src : Option Buf) (out out' : Buf) (n : Nat) (m m' : Mode)
    (hs : n * 16 ≤ (src.getD out).length) (ho : n * 16 ≤ out.length)
    (h : Norm.Bc2.normalizeBlocks src out (n * 16) m = some out') :
    Norm.Bc2.normalizeBlocks none out' (n * 16) m' =
      Norm.Bc2.normalizeBlocks src out (n * 16) (if m' = .none then m else m') := by
  rw [Norm.Bc2.normalizeBlocks_eq src out n m hs ho] at h
  obtain rfl := Option.some.inj h
  obtain ⟨f1, f2⟩ := frame (Norm.Bc2.norm_length m) hs ho
  rw [Norm.Bc2.normalizeBlocks_eq none _ n m' (by simp only [Option.getD_none]; omega) (by omega), f2,
    Norm.Bc2.normalizeBlocks_eq src out n _ hs ho]
  simp only [Option.getD_none]
  rw [mapBlocks_mapBlocks (Norm.Bc2.norm_length m) (Norm.Bc2.norm_norm m m') hs]

/-- **C112.** BC3: for the alpha and for the colours, each on its own. -/
theorem C112_bc3 (src : Option Buf) (out out' : Buf) (n : Nat) (am am' : Norm.Bc3.AlphaMode) (cm cm' : Mode)
    (hs : n * 16 ≤ (src.getD out).length) (ho : n * 16 ≤ out.length)
    (h : Norm.Bc3.normalizeBlocks src out (n * 16) am cm = some out') :
    Norm.Bc3.normalizeBlocks none out' (n * 16) am' cm' =
      Norm.Bc3.normalizeBlocks src out (n * 16) (if am' = .none then am else am') (if cm' = .none then cm else cm') := by
  rw [Norm.Bc3.normalizeBlocks_eq src out n am cm hs ho] at h
  obtain rfl := Option.some.inj h
  obtain ⟨f1, f2⟩ := frame (Norm.Bc3.norm_length am cm) hs ho
  rw [Norm.Bc3.normalizeBlocks_eq none _ n am' cm' (by simp only [Option.getD_none]; omega) (by omega), f2,
    Norm.Bc3.normalizeBlocks_eq src out n _ _ hs ho]
  simp only [Option.getD_none]
  rw [mapBlocks_mapBlocks (Norm.Bc3.norm_length am cm) (Norm.Bc3.norm_norm am am' cm cm') hs]

/-- **C112.** Textures of BC2 and BC3 with the same colour blocks, normalized with the same colour mode, whatever the alpha and its mode,
have the same colour blocks. -/
theorem C112_colours (src₂ src₃ : Option Buf) (out₂ out₃ r₂ r₃ : Buf) (n : Nat) (am : Norm.Bc3.AlphaMode) (cm : Mode)
    (h₂ : (src₂.getD out₂).length = n * 16) (h₃ : (src₃.getD out₃).length = n * 16)
    (ho₂ : out₂.length = n * 16) (ho₃ : out₃.length = n * 16)
    (hc : coloursOf (src₂.getD out₂) = coloursOf (src₃.getD out₃))
    (hr₂ : Norm.Bc2.normalizeBlocks src₂ out₂ (n * 16) cm = some r₂)
    (hr₃ : Norm.Bc3.normalizeBlocks src₃ out₃ (n * 16) am cm = some r₃) : coloursOf r₂ = coloursOf r₃ := by
  rw [Norm.Bc2.normalizeBlocks_eq src₂ out₂ n cm (by omega) (by omega)] at hr₂
  rw [Norm.Bc3.normalizeBlocks_eq src₃ out₃ n am cm (by omega) (by omega)] at hr₃
  obtain rfl := Option.some.inj hr₂
  obtain rfl := Option.some.inj hr₃
  have f₂ := (frame (Norm.Bc2.norm_length cm) (by omega : n * 16 ≤ (src₂.getD out₂).length) (by omega : n * 16 ≤ out₂.length)).1
  have f₃ := (frame (Norm.Bc3.norm_length am cm) (by omega : n * 16 ≤ (src₃.getD out₃).length) (by omega : n * 16 ≤ out₃.length)).1
  have e : ∀ b : Buf, b.length = 16 → slice b 8 8 = b.drop 8 := fun b hb => by
    rw [slice, List.take_of_length_le (by simp [hb])]
  unfold coloursOf column
  rw [f₂, f₃, ho₂, ho₃, Nat.mul_div_cancel n (by omega)]
  refine flatMap_congr_range fun i hi => ?_
  have l₂ := block_len (B := 16) (n := n) (i := i) (by omega : n * 16 ≤ (src₂.getD out₂).length) hi
  have l₃ := block_len (B := 16) (n := n) (i := i) (by omega : n * 16 ≤ (src₃.getD out₃).length) hi
  have c := block_coloursOf h₂ hi
  rw [hc, block_coloursOf h₃ hi, e _ l₂, e _ l₃] at c
  rw [block_mapBlocks (Norm.Bc2.norm_length cm) (by omega) hi, block_mapBlocks (Norm.Bc3.norm_length am cm) (by omega) hi]
  show slice _ 8 8 = slice _ 8 8
  rw [e _ (Norm.Bc2.norm_length cm _ l₂), e _ (Norm.Bc3.norm_length am cm _ l₃)]
  exact norm_colours l₂ l₃ c.symm am cm

/-- A block of one colour and one alpha value, normalized for the alpha and then for the colours, and for both at once; and a BC2 block with
the same colour bytes and other alpha. -/
example :
    (Norm.Bc3.normalizeBlocks none [7, 7, 0x49, 0x92, 0x24, 0x49, 0x92, 0x24, 0x34, 0x12, 0x34, 0x12, 0x44, 0x11, 0x05, 0x50] 16 .uniformAlphaZeroIndices .none
      = some [7, 0, 0, 0, 0, 0, 0, 0, 0x34, 0x12, 0x34, 0x12, 0x44, 0x11, 0x05, 0x50]) ∧
    (Norm.Bc3.normalizeBlocks none [7, 0, 0, 0, 0, 0, 0, 0, 0x34, 0x12, 0x34, 0x12, 0x44, 0x11, 0x05, 0x50] 16 .none .color0Only
      = some [7, 0, 0, 0, 0, 0, 0, 0, 0x34, 0x12, 0, 0, 0, 0, 0, 0]) ∧
    (Norm.Bc3.normalizeBlocks none [7, 7, 0x49, 0x92, 0x24, 0x49, 0x92, 0x24, 0x34, 0x12, 0x34, 0x12, 0x44, 0x11, 0x05, 0x50] 16 .uniformAlphaZeroIndices .color0Only
      = some [7, 0, 0, 0, 0, 0, 0, 0, 0x34, 0x12, 0, 0, 0, 0, 0, 0]) ∧
    (Norm.Bc2.normalizeBlocks none [9, 8, 7, 6, 5, 4, 3, 2, 0x34, 0x12, 0x34, 0x12, 0x44, 0x11, 0x05, 0x50] 16 .color0Only
      = some [9, 8, 7, 6, 5, 4, 3, 2, 0x34, 0x12, 0, 0, 0, 0, 0, 0]) := by decide +kernel

end Dlt.Props
