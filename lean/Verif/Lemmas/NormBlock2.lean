import Verif.Lemmas.NormBlock
/-! Normalization of one BC2 or BC3 block, and of all blocks. -/

namespace Dlt.Norm
open Decode

theorem dict4_alpha (c0 c1 : U16) {i : Nat} (h : i < 4) : ((dict4 c0 c1).getD i ⟨0, 0, 0, 0⟩).a = 255 := by
  match i, h with
  | 0, _ | 1, _ | 2, _ | 3, _ => rfl

theorem col4_alpha (b : Buf) (k : Nat) : (col4 b k).a = 255 := dict4_alpha _ _ (idx_lt _ _)

theorem eq_of_rgb {x y : Color8888} (h : x.withoutAlpha = y.withoutAlpha) (ha : x.a = y.a) : x = y := by
  cases x; cases y
  simp only [Color8888.withoutAlpha, Color8888.mk.injEq] at h ha ⊢
  exact ⟨h.1, h.2.1, h.2.2.1, ha⟩

/-- The two halves of a block. -/
theorem halves {b : Buf} (h : b.length = 16) : b.take 8 ++ b.drop 8 = b ∧ (b.take 8).length = 8 ∧
    (b.drop 8).length = 8 := by simp [h]

theorem col4_halves {b : Buf} (k : Nat) {a : Buf} (ha : a.length = 8) (hb : b.length = 16) :
    col4 (a ++ b.drop 8) k = col4 b k := by
  have e : ∀ o m, slice (a ++ b.drop 8) (8 + o) m = slice b (8 + o) m := by
    intro o m
    rw [slice_append_right _ _ _ o _ (by omega)]
    simp [slice, List.drop_drop]
  unfold col4
  rw [e 0 2, e 2 2, e 4 4]

/-- First half copied, then something stored behind it. -/
theorem copy_then {src : Option Buf} {dst X : Buf} {p : Nat} (hs : p + 8 ≤ (src.getD dst).length) :
    ((copy64 src p dst p).bind fun d => st d (p + 8) X) =
      st dst p (slice (src.getD dst) p 8 ++ X) := by
  rw [copy64_eq hs, ← st_st, slice_length_of_le hs]

/-- A store before `p` does not change what is copied from `p`. -/
theorem copy_behind {src : Option Buf} {dst A : Buf} {p : Nat} (hA : A.length = 8)
    (hs : p + 16 ≤ (src.getD dst).length) (hd : p + 16 ≤ dst.length) :
    ((st dst p A).bind fun d => copy64 src (p + 8) d (p + 8)) =
      st dst p (A ++ slice (src.getD dst) (p + 8) 8) := by
  rw [← st_st, st_put (by omega), Option.bind_some, Option.bind_some, hA]
  have hl : (put dst p A).length = dst.length := put_length (by omega)
  cases src with
  | some inp =>
    simp only [Option.getD_some] at hs
    rw [copy64_eq (by simp only [Option.getD_some]; omega)]
    rfl
  | none =>
    rw [copy64_eq (by simp only [Option.getD_none]; omega)]
    simp only [Option.getD_none]
    rw [slice_put_ne (by omega) (by omega)]

theorem slice_halves (b : Buf) (p : Nat) :
    (slice b p 16).take 8 = slice b p 8 ∧ (slice b p 16).drop 8 = slice b (p + 8) 8 := by
  constructor
  · simp [slice, List.take_take]
  · simp [slice, List.drop_take, List.drop_drop]

/-! ## BC2 -/

namespace Bc2

/-- The colour of a block by its pixels: whether it is solid and representable. -/
def kind (f : Nat → Color8888) : Bool × U16 :=
  if Const fun k => (f k).withoutAlpha then
    if (Color565.to8888Lossy (f 0).to565Lossy).withoutAlpha = (f 0).withoutAlpha then
      (true, (f 0).to565Lossy)
    else (false, (f 0).to565Lossy)
  else (false, 0)

theorem rgb_iff (x y : Color8888) : (⟨x.r, x.g, x.b, 255⟩ : Color8888) = ⟨y.r, y.g, y.b, 255⟩ ↔
    x.withoutAlpha = y.withoutAlpha := by simp [Color8888.withoutAlpha]

theorem classify_eq (f : Nat → Color8888) : classify ((List.range 16).map f) = some (kind f) := by
  unfold classify kind
  rw [identicalIgnoreAlpha_eq]
  simp only [Option.bind_eq_bind, Option.bind_some, first, Option.pure_def, decide_eq_true_eq, rgb_iff]
  split
  · split <;> rfl
  · rfl

theorem kind_solid {f : Nat → Color8888} {c : U16} (h : kind f = (true, c)) :
    ∀ k, k < 16 → (f k).withoutAlpha = (Color565.to8888Lossy c).withoutAlpha := by
  unfold kind at h
  split at h
  · rename_i hc
    split at h
    · rename_i hr
      cases h
      intro k hk
      rw [hr]; exact hc k hk
    · cases h
  · cases h

theorem kind_of_solid {f : Nat → Color8888} {c : U16}
    (h : ∀ k, k < 16 → (f k).withoutAlpha = (Color565.to8888Lossy c).withoutAlpha) : kind f = (true, c) := by
  have h0 := h 0 (by omega)
  have hc : Const fun k => (f k).withoutAlpha := fun k hk => by dsimp only; rw [h k hk, h0]
  have e : (f 0).to565Lossy = c := by
    have : (f 0).to565Lossy = (f 0).withoutAlpha.to565Lossy := rfl
    rw [this, h0]
    exact Color565.fromRgb_channels c
  unfold kind
  rw [if_pos hc, e, if_pos h0.symm]

theorem kind_congr {f g : Nat → Color8888} (h : ∀ k, k < 16 → (f k).withoutAlpha = (g k).withoutAlpha) :
    kind f = kind g := by
  have h0 := h 0 (by omega)
  have hc : (Const fun k => (f k).withoutAlpha) ↔ Const fun k => (g k).withoutAlpha :=
    ⟨fun c k hk => by have := c k hk; dsimp only at this ⊢; rw [← h k hk, ← h0, this],
     fun c k hk => by have := c k hk; dsimp only at this ⊢; rw [h k hk, h0, this]⟩
  have e : (f 0).to565Lossy = (g 0).to565Lossy := by
    have e1 : (f 0).to565Lossy = (f 0).withoutAlpha.to565Lossy := rfl
    rw [e1, h0]; rfl
  unfold kind
  rw [h0, e]
  simp only [hc]

/-- The colour half that is written. -/
def colour (t : Bool × U16) (mode : Mode) (old : Buf) : Buf :=
  if t.1 = true ∧ mode ≠ .none then solidBytes mode t.2 else old

theorem colour_length (t : Bool × U16) (mode : Mode) (old : Buf) (h : old.length = 8) :
    (colour t mode old).length = 8 := by
  unfold colour; split
  · exact solidBytes_length _ _
  · exact h

/-- What the handler writes for a block with contents `src`. -/
def write (t : Bool × U16) (mode : Mode) (src : Buf) : Buf := src.take 8 ++ colour t mode (src.drop 8)

theorem write_length (t : Bool × U16) (mode : Mode) (src : Buf) (h : src.length = 16) :
    (write t mode src).length = 16 := by
  rw [write, List.length_append, colour_length _ _ _ (by simp [h])]; simp [h]

/-- The normal form of a block. -/
def norm (mode : Mode) (b : Buf) : Buf := write (kind (pix2 b)) mode b

theorem norm_length (mode : Mode) (b : Buf) (h : b.length = 16) : (norm mode b).length = 16 :=
  write_length _ _ _ h

/-- Storing the normalized colours keeps the colours. -/
theorem colour_pix {f : Nat → Color8888} (hf : ∀ k, (f k).withoutAlpha = (col4 b k).withoutAlpha)
    {mode : Mode} (hb : b.length = 16) {a : Buf} (ha : a.length = 8) {k : Nat} (hk : k < 16) :
    col4 (a ++ colour (kind f) mode (b.drop 8)) k = col4 b k := by
  unfold colour
  split
  · rename_i h
    rcases e : kind f with ⟨t, c⟩
    rw [e] at h
    obtain rfl : t = true := h.1
    rw [col4_solid _ _ _ _ ha]
    have := kind_solid e k hk
    rw [hf] at this
    exact (eq_of_rgb this (col4_alpha b k)).symm
  · exact col4_halves k ha hb

theorem norm_pix (mode : Mode) (b : Buf) (hb : b.length = 16) (k : Nat) (hk : k < 16) :
    pix2 (norm mode b) k = pix2 b k := by
  have h8 : (b.take 8).length = 8 := by simp [hb]
  unfold pix2
  have e1 : col4 (norm mode b) k = col4 b k := colour_pix (fun k => rfl) hb h8 hk
  have e2 : slice (norm mode b) 0 8 = slice b 0 8 := by
    rw [norm, write, slice_append_left _ _ _ _ (by omega)]
    simp [slice, List.take_take]
  rw [e1, e2]

theorem write_write (t : Bool × U16) {m m' : Mode} (h : m' ≠ .none ∨ m = .none ∨ m = m') (b : Buf)
    (hb : b.length = 16) : write t m' (write t m b) = write t m' b := by
  have h8 : (b.take 8).length = 8 := by simp [hb]
  have e1 : (write t m b).take 8 = b.take 8 := List.take_left' h8
  have e2 : (write t m b).drop 8 = colour t m (b.drop 8) := List.drop_left' h8
  rw [write, e1, e2, write]
  congr 1
  unfold colour
  by_cases ht : t.1 = true
  · by_cases hm : m' = .none
    · have : m = .none := by
        rcases h with h | h | h
        · exact absurd hm h
        · exact h
        · rw [h, hm]
      simp [hm, this]
    · rw [if_pos ⟨ht, hm⟩, if_pos ⟨ht, hm⟩]
  · simp [ht]

theorem norm_idem (mode : Mode) (b : Buf) (hb : b.length = 16) : norm mode (norm mode b) = norm mode b := by
  have hk : kind (pix2 (norm mode b)) = kind (pix2 b) :=
    kind_congr fun k hk => by rw [norm_pix mode b hb k hk]
  have : norm mode (norm mode b) = write (kind (pix2 (norm mode b))) mode (norm mode b) := rfl
  rw [this, hk]
  exact write_write _ (Or.inr (Or.inr rfl)) b hb

theorem writeColour_eq (dst : Buf) (p : Nat) (c : U16) (mode : Mode) (hm : mode = .color0Only ∨ mode = .replicate) :
    (match mode with
      | .replicate => writeColour dst p c (lo c) (hi c)
      | _ => writeColour dst p c 0 0) = st dst p (solidBytes mode c) := by
  rcases hm with rfl | rfl
  · exact st8_eight dst p _ _ _ _ _ _ _ _
  · exact st8_eight dst p _ _ _ _ _ _ _ _

theorem writeBlock_eq (src : Option Buf) (dst : Buf) (p : Nat) (t : Bool × U16) (mode : Mode)
    (hs : p + 16 ≤ (src.getD dst).length) (hd : p + 16 ≤ dst.length) :
    writeBlock src p dst p t.1 t.2 mode = st dst p (write t mode (slice (src.getD dst) p 16)) := by
  obtain ⟨t, c⟩ := t
  have h8 : (slice (src.getD dst) p 8).length = 8 := slice_length_of_le (by omega)
  have hcopy : ((copy64 src p dst p).bind fun d => copy64 src (p + 8) d (p + 8)) =
      st dst p (slice (src.getD dst) p 8 ++ slice (src.getD dst) (p + 8) 8) := by
    rw [copy64_eq (by omega), copy_behind h8 hs hd]
  rw [write, (slice_halves _ _).1, (slice_halves _ _).2]
  cases t
  · exact hcopy
  · cases mode with
    | none => exact hcopy
    | color0Only =>
      rw [← copy_then (by omega)]
      show (copy64 src p dst p).bind (fun d => writeColour d (p + 8) c 0 0) = _
      congr 1; funext d
      exact writeColour_eq d (p + 8) c .color0Only (Or.inl rfl)
    | replicate =>
      rw [← copy_then (by omega)]
      show (copy64 src p dst p).bind (fun d => writeColour d (p + 8) c (lo c) (hi c)) = _
      congr 1; funext d
      exact writeColour_eq d (p + 8) c .replicate (Or.inr rfl)

/-- **`normalize_blocks` (BC2)** replaces every block by its normal form. -/
theorem normalizeBlocks_eq (src : Option Buf) (out : Buf) (n : Nat) (mode : Mode)
    (hs : n * 16 ≤ (src.getD out).length) (ho : n * 16 ≤ out.length) :
    normalizeBlocks src out (n * 16) mode =
      some (mapBlocks 16 (norm mode) (src.getD out) n ++ out.drop (n * 16)) := by
  unfold normalizeBlocks
  by_cases hm : mode = .none
  · rw [if_pos hm, Bc1.copyAll_eq _ _ _ hs ho]
    have : mapBlocks 16 (norm mode) (src.getD out) n = mapBlocks 16 id (src.getD out) n := by
      apply mapBlocks_congr
      intro i _
      simp [norm, write, colour, hm]
    rw [this, mapBlocks_id hs]
  · rw [if_neg hm]
    unfold impl
    rw [blockLoop (B := 16) (by omega) src out (norm mode) (norm_length mode) hs ho (fun p s => rfl)]
    · rfl
    · intro p o h1 h2
      simp only [Option.bind_eq_bind, Option.bind_some, bc2_at h1, classify_eq]
      rw [writeBlock_eq src o p _ mode h1 h2]
      exact Bc1.bind_twice _ _

/-- **`normalize_blocks_all_modes` (BC2)**: every buffer gets what `normalize_blocks` writes, wherever
the input is. -/
theorem allModes_eq (inp : Input) (outs : List Buf) (data : Buf) (n : Nat) (hN : outs.length = 3)
    (hr : inp.region outs = some data) (hd : n * 16 ≤ data.length)
    (ho : ∀ (x : Nat) (dst : Buf), outs[x]? = some dst → n * 16 ≤ dst.length) :
    ∃ outs', allModes inp outs (n * 16) = some outs' ∧
      AllInv 16 (fun x => norm (Mode.all.getD x .none)) data outs n outs' := by
  suffices h : Ok (allModes inp outs (n * 16)) (fun s =>
      AllInv 16 (fun x => norm (Mode.all.getD x .none)) data outs n s) by
    obtain ⟨o, h1, h3⟩ := h
    exact ⟨o, h1, h3⟩
  have hnl := fun (x : Nat) (b : Buf) (h : b.length = 16) => norm_length (Mode.all.getD x .none) b h
  unfold allModes impl
  simp only [Option.bind_eq_bind, Option.bind_assoc]
  refine Ok.bind' (Ok.whileM (fun i s => s.1 = i * 16 ∧ s.2.1 = i * 16 ∧
      AllInv 16 (fun x => norm (Mode.all.getD x .none)) data outs i s.2.2) n (by omega)
      ⟨by simp, by simp, AllInv.start ..⟩ ?_ ?_)
  · rintro i ⟨sp, dp, os⟩ hi ⟨h1, h2, h4⟩
    dsimp only at h1 h2 h4
    subst h1 h2
    refine ⟨by simpa using hi, ?_⟩
    obtain ⟨r, hr1, hr2, hr3⟩ := h4.region hnl (by omega) hr
    simp only [hr1, Option.bind_some, bc2_at hr3, classify_eq, hr2]
    have hbl : (Spec.block 16 data i).length = 16 := slice_length_of_le (by omega)
    obtain ⟨o, e1, e2⟩ := h4.step (N := 3) hnl (by omega) hr hN
      (fun x dst hx => by have := ho x dst hx; omega)
      (f := fun x src dst => (Mode.all[x]?).bind fun mode =>
        writeBlock src (i * 16) dst (i * 16) (kind (pix2 (Spec.block 16 data i))).1
          (kind (pix2 (Spec.block 16 data i))).2 mode)
      (G := fun x _ c => write (kind (pix2 (Spec.block 16 data i))) (Mode.all.getD x .none) c)
      (fun x src dst hx hs hd => by
        rw [Bc1.all_get hx]; exact writeBlock_eq src dst _ _ _ hs hd)
      (fun x a c => write_length _ _ _)
      (fun x hx => by
        unfold Input.effective
        cases inp with
        | separate _ => rfl
        | output k =>
          dsimp only
          split
          · rename_i h; subst h; rfl
          · split
            · rfl
            · rename_i h1 h2
              refine write_write _ (Or.inl ?_) _ hbl
              match x, hx with
              | 0, _ => omega
              | 1, _ => decide
              | 2, _ => decide)
    simp only [e1, Option.bind_some]
    exact ⟨_, rfl, by dsimp only; omega, by dsimp only; omega, e2⟩
  · rintro ⟨sp, dp, os⟩ ⟨h1, h2, h4⟩
    dsimp only at h1 h2 h4
    exact ⟨by subst h1; simp, _, rfl, h4⟩

end Bc2

/-! ## BC3 -/

namespace Bc3

/-- What the pixels say about a block. -/
def kind (f : Nat → Color8888) : Info :=
  ⟨decide (Const fun k => (f k).a), (decide (Const fun k => (f k).withoutAlpha)) &&
    decide ((Color565.to8888Lossy (f 0).to565Lossy).withoutAlpha = (f 0).withoutAlpha),
    (f 0).to565Lossy, (f 0).a⟩

theorem classify_eq (f : Nat → Color8888) : classify ((List.range 16).map f) = some (kind f) := by
  unfold classify kind
  rw [identicalIgnoreAlpha_eq, identicalAlpha_eq]
  simp only [Option.bind_eq_bind, Option.bind_some, first, Option.pure_def, Bc2.rgb_iff]

/-- The solid colour of the BC2 classification. -/
theorem kind_bc2 (f : Nat → Color8888) (h : (kind f).solid = true) : Bc2.kind f = (true, (kind f).color) := by
  simp only [kind, Bool.and_eq_true, decide_eq_true_eq] at h
  unfold Bc2.kind
  rw [if_pos h.1, if_pos h.2]
  rfl

theorem kind_bc2_fst (f : Nat → Color8888) : (Bc2.kind f).1 = (kind f).solid := by
  unfold Bc2.kind kind
  by_cases h1 : Const fun k => (f k).withoutAlpha
  · by_cases h2 : (Color565.to8888Lossy (f 0).to565Lossy).withoutAlpha = (f 0).withoutAlpha
    · simp [h1, h2]
    · simp [h1, h2]
  · simp [h1]

/-- The alpha half of a block with uniform alpha. -/
def alphaBytes (mode : AlphaMode) (a : Byte) : Buf :=
  match mode with
  | .opaqueFillAll => if a = 255 then List.replicate 8 0xFF else [a, 0, 0, 0, 0, 0, 0, 0]
  | .opaqueZeroAlphaMaxIndices =>
    if a = 255 then [0, 0, 0xFF, 0xFF, 0xFF, 0xFF, 0xFF, 0xFF] else [a, 0, 0, 0, 0, 0, 0, 0]
  | _ => [a, 0, 0, 0, 0, 0, 0, 0]

theorem alphaBytes_length (mode : AlphaMode) (a : Byte) : (alphaBytes mode a).length = 8 := by
  unfold alphaBytes; split <;> (try split) <;> rfl

/-- The alpha half that is written. -/
def alpha (i : Info) (mode : AlphaMode) (old : Buf) : Buf :=
  if i.uniformAlpha = true ∧ mode ≠ .none then alphaBytes mode i.alpha else old

theorem alpha_length (i : Info) (mode : AlphaMode) (old : Buf) (h : old.length = 8) :
    (alpha i mode old).length = 8 := by
  unfold alpha; split
  · exact alphaBytes_length _ _
  · exact h

/-- What the handler writes for a block with contents `src`. -/
def write (i : Info) (am : AlphaMode) (cm : Mode) (src : Buf) : Buf :=
  alpha i am (src.take 8) ++ Bc2.colour (i.solid, i.color) cm (src.drop 8)

theorem write_length (i : Info) (am : AlphaMode) (cm : Mode) (src : Buf) (h : src.length = 16) :
    (write i am cm src).length = 16 := by
  rw [write, List.length_append, Bc2.colour_length _ _ _ (by simp [h]), alpha_length _ _ _ (by simp [h])]

/-- The normal form of a block. -/
def norm (am : AlphaMode) (cm : Mode) (b : Buf) : Buf := write (kind (pix3 b)) am cm b

theorem norm_length (am : AlphaMode) (cm : Mode) (b : Buf) (h : b.length = 16) :
    (norm am cm b).length = 16 := write_length _ _ _ _ h

theorem alpha3_zero (k : Nat) (hk : k < 16) : alpha3 [0, 0, 0, 0, 0, 0] k = 0 := by revert k; decide
theorem alpha3_ff (k : Nat) (hk : k < 16) : alpha3 [0xFF, 0xFF, 0xFF, 0xFF, 0xFF, 0xFF] k = 7 := by
  revert k; decide

theorem al3_append {a x : Buf} (ha : a.length = 8) (k : Nat) : al3 (a ++ x) k = al3 a k := by
  unfold al3
  rw [slice_append_left _ _ _ _ (by omega), slice_append_left _ _ _ _ (by omega),
    slice_append_left _ _ _ _ (by omega)]

theorem al3_uniform (a : Byte) (k : Nat) (hk : k < 16) : al3 [a, 0, 0, 0, 0, 0, 0, 0] k = a := by
  have h : slice [a, 0, 0, 0, 0, 0, 0, 0] 2 6 = [0, 0, 0, 0, 0, 0] := rfl
  rw [al3, h, alpha3_zero k hk]
  show (alphaValues a 0).getD 0 0 = a
  unfold alphaValues; split <;> rfl

theorem al3_bytes (mode : AlphaMode) (a : Byte) (k : Nat) (hk : k < 16) : al3 (alphaBytes mode a) k = a := by
  cases mode with
  | none => exact al3_uniform a k hk
  | uniformAlphaZeroIndices => exact al3_uniform a k hk
  | opaqueFillAll =>
    unfold alphaBytes
    dsimp only
    split
    · rename_i h
      subst h
      have h : slice (List.replicate 8 (255 : Byte)) 2 6 = [0xFF, 0xFF, 0xFF, 0xFF, 0xFF, 0xFF] := rfl
      rw [al3, h, alpha3_ff k hk]
      decide
    · exact al3_uniform a k hk
  | opaqueZeroAlphaMaxIndices =>
    unfold alphaBytes
    dsimp only
    split
    · rename_i h
      subst h
      have h : slice [0, 0, 0xFF, 0xFF, 0xFF, 0xFF, 0xFF, (0xFF : Byte)] 2 6 =
        [0xFF, 0xFF, 0xFF, 0xFF, 0xFF, 0xFF] := rfl
      rw [al3, h, alpha3_ff k hk]
      decide
    · exact al3_uniform a k hk

theorem norm_pix (am : AlphaMode) (cm : Mode) (b : Buf) (hb : b.length = 16) (k : Nat) (hk : k < 16) :
    pix3 (norm am cm b) k = pix3 b k := by
  have h8 : (b.take 8).length = 8 := by simp [hb]
  have ha := alpha_length (kind (pix3 b)) am _ h8
  unfold pix3
  have e1 : col4 (norm am cm b) k = col4 b k := by
    rw [norm, write]
    by_cases hs : (kind (pix3 b)).solid = true
    · have := kind_bc2 (pix3 b) hs
      rw [hs, ← this]
      exact Bc2.colour_pix (fun k => rfl) hb ha hk
    · have : Bc2.colour ((kind (pix3 b)).solid, (kind (pix3 b)).color) cm (b.drop 8) = b.drop 8 := by
        simp [Bc2.colour, hs]
      rw [this]
      exact col4_halves k ha hb
  have e2 : al3 (norm am cm b) k = al3 b k := by
    have hbk : al3 (b.take 8) k = al3 b k := by
      conv => rhs; rw [← (halves hb).1]
      rw [al3_append h8]
    rw [norm, write, al3_append ha]
    unfold alpha
    split
    · rename_i h
      rw [al3_bytes _ _ _ hk]
      have : Const fun k => (pix3 b k).a := of_decide_eq_true h.1
      exact (this k hk).symm
    · exact hbk
  rw [e1, e2]

theorem kind_congr {f g : Nat → Color8888} (h : ∀ k, k < 16 → f k = g k) : kind f = kind g := by
  have h0 := h 0 (by omega)
  have hc : ∀ {α : Type} (p : Color8888 → α), (Const fun k => p (f k)) ↔ Const fun k => p (g k) :=
    fun p => ⟨fun c k hk => by have := c k hk; dsimp only at this ⊢; rw [← h k hk, ← h0, this],
     fun c k hk => by have := c k hk; dsimp only at this ⊢; rw [h k hk, h0, this]⟩
  unfold kind
  rw [h0]
  simp only [hc Color8888.a, hc Color8888.withoutAlpha]

theorem norm_idem (am : AlphaMode) (cm : Mode) (b : Buf) (hb : b.length = 16) :
    norm am cm (norm am cm b) = norm am cm b := by
  have hk : kind (pix3 (norm am cm b)) = kind (pix3 b) := kind_congr (norm_pix am cm b hb)
  have : norm am cm (norm am cm b) = write (kind (pix3 (norm am cm b))) am cm (norm am cm b) := rfl
  rw [this, hk]
  have h8 : (b.take 8).length = 8 := by simp [hb]
  have ha := alpha_length (kind (pix3 b)) am _ h8
  have e1 : (norm am cm b).take 8 = alpha (kind (pix3 b)) am (b.take 8) := List.take_left' ha
  have e2 : (norm am cm b).drop 8 = Bc2.colour ((kind (pix3 b)).solid, (kind (pix3 b)).color) cm (b.drop 8) :=
    List.drop_left' ha
  have e3 : ∀ old, alpha (kind (pix3 b)) am (alpha (kind (pix3 b)) am old) = alpha (kind (pix3 b)) am old := by
    intro old
    generalize kind (pix3 b) = i
    by_cases h : i.uniformAlpha = true ∧ am ≠ .none
    · rw [alpha, if_pos h, alpha, if_pos h]
    · rw [alpha, if_neg h]
  have e4 : ∀ t old, Bc2.colour t cm (Bc2.colour t cm old) = Bc2.colour t cm old := by
    intro t old
    by_cases h : t.1 = true ∧ cm ≠ .none
    · rw [Bc2.colour, if_pos h, Bc2.colour, if_pos h]
    · rw [Bc2.colour, if_neg h]
  rw [write, e1, e2, e3, e4, norm, write]

theorem writeUniform_eq (dst : Buf) (p : Nat) (a : Byte) :
    writeUniform dst p a = st dst p [a, 0, 0, 0, 0, 0, 0, 0] := by
  have h := st_st dst p [a, 0] [0, 0, 0, 0, 0, 0]
  have e : writeUniform dst p a = (st dst p [a, 0]).bind fun d => st d (p + 2) [0, 0, 0, 0, 0, 0] := by
    rw [← st8_two, Option.bind_assoc]; rfl
  rw [e]; exact h

theorem normalizeAlpha_eq (src : Option Buf) (dst : Buf) (p : Nat) (a : Byte) (mode : AlphaMode)
    (hm : mode ≠ .none) : normalizeAlpha src p dst p a mode = st dst p (alphaBytes mode a) := by
  cases mode with
  | none => exact absurd rfl hm
  | uniformAlphaZeroIndices => exact writeUniform_eq dst p a
  | opaqueFillAll =>
    unfold normalizeAlpha alphaBytes
    dsimp only
    split
    · rfl
    · exact writeUniform_eq dst p a
  | opaqueZeroAlphaMaxIndices =>
    unfold normalizeAlpha alphaBytes
    dsimp only
    split
    · have h := st_st dst p [0, 0] [0xFF, 0xFF, 0xFF, 0xFF, 0xFF, 0xFF]
      have e : (st8 dst p 0).bind (fun d => (st8 d (p + 1) 0).bind fun d => fill d (p + 2) 0xFF 6) =
          (st dst p [0, 0]).bind fun d => st d (p + 2) [0xFF, 0xFF, 0xFF, 0xFF, 0xFF, 0xFF] := by
        rw [← st8_two, Option.bind_assoc]; rfl
      exact e.trans h
    · exact writeUniform_eq dst p a

theorem writeBlock_eq (src : Option Buf) (dst : Buf) (p : Nat) (i : Info) (am : AlphaMode) (cm : Mode)
    (hs : p + 16 ≤ (src.getD dst).length) (hd : p + 16 ≤ dst.length) :
    writeBlock src p dst p i am cm = st dst p (write i am cm (slice (src.getD dst) p 16)) := by
  have h8 : (slice (src.getD dst) p 8).length = 8 := slice_length_of_le (by omega)
  rw [write, (slice_halves _ _).1, (slice_halves _ _).2]
  have ha := alpha_length i am _ h8
  have e1 : (if i.uniformAlpha = true then
      if am ≠ .none then normalizeAlpha src p dst p i.alpha am else copy64 src p dst p
      else copy64 src p dst p) = st dst p (alpha i am (slice (src.getD dst) p 8)) := by
    unfold alpha
    by_cases h1 : i.uniformAlpha = true
    · by_cases h2 : am = .none
      · simp only [h1, h2, ne_eq, not_true, if_false, and_false, if_true]; exact copy64_eq (by omega)
      · rw [if_pos h1, if_pos h2, if_pos ⟨h1, h2⟩, normalizeAlpha_eq _ _ _ _ _ h2]
    · rw [if_neg h1, if_neg (fun h => h1 h.1)]; exact copy64_eq (by omega)
  have e0 : writeBlock src p dst p i am cm =
      ((st dst p (alpha i am (slice (src.getD dst) p 8))).bind fun dst =>
        if i.solid = true then
          if cm ≠ .none then normalizeColor i.color dst p cm else copy64 src (p + 8) dst (p + 8)
        else copy64 src (p + 8) dst (p + 8)) := by
    rw [← e1, writeBlock]
    by_cases h1 : i.uniformAlpha = true
    · by_cases h2 : am = .none
      · simp only [h1, h2, ne_eq, not_true, if_false, if_true]; rfl
      · simp only [h1, h2, ne_eq, not_false_eq_true, if_true]; rfl
    · rw [if_neg h1, if_neg h1]; rfl
  rw [e0]
  unfold Bc2.colour
  by_cases h1 : i.solid = true
  · by_cases h2 : cm = .none
    · simp only [h1, h2, ne_eq, not_true, if_false, and_false, if_true]; exact copy_behind ha hs hd
    · simp only [h1, h2, ne_eq, not_false_eq_true, if_true, and_self]
      rw [← st_st, ha]
      congr 1; funext d
      cases cm with
      | none => exact absurd rfl h2
      | color0Only => exact Bc2.writeColour_eq d (p + 8) i.color .color0Only (Or.inl rfl)
      | replicate => exact Bc2.writeColour_eq d (p + 8) i.color .replicate (Or.inr rfl)
  · simp only [h1, false_and, if_false]; exact copy_behind ha hs hd

/-- **`normalize_blocks` (BC3)** replaces every block by its normal form. -/
theorem normalizeBlocks_eq (src : Option Buf) (out : Buf) (n : Nat) (am : AlphaMode) (cm : Mode)
    (hs : n * 16 ≤ (src.getD out).length) (ho : n * 16 ≤ out.length) :
    normalizeBlocks src out (n * 16) am cm =
      some (mapBlocks 16 (norm am cm) (src.getD out) n ++ out.drop (n * 16)) := by
  unfold normalizeBlocks
  by_cases hm : am = .none ∧ cm = .none
  · rw [if_pos hm, Bc1.copyAll_eq _ _ _ hs ho]
    have : mapBlocks 16 (norm am cm) (src.getD out) n = mapBlocks 16 id (src.getD out) n := by
      apply mapBlocks_congr
      intro i _
      simp [norm, write, alpha, Bc2.colour, hm]
    rw [this, mapBlocks_id hs]
  · rw [if_neg hm]
    unfold impl
    rw [blockLoop (B := 16) (by omega) src out (norm am cm) (norm_length am cm) hs ho (fun p s => rfl)]
    · rfl
    · intro p o h1 h2
      simp only [Option.bind_eq_bind, Option.bind_some, bc3_at h1, classify_eq]
      rw [writeBlock_eq src o p _ am cm h1 h2]
      exact Bc1.bind_twice _ _

/-- The modes of output number `x`. -/
def modes (x : Nat) : AlphaMode × Mode := (AlphaMode.all.getD (x / 3) .none, Mode.all.getD (x % 3) .none)

theorem alphaAll_get {x : Nat} (h : x < 4) : AlphaMode.all[x]? = some (AlphaMode.all.getD x .none) := by
  match x, h with
  | 0, _ | 1, _ | 2, _ | 3, _ => rfl

/-- The colour mode that decides about output number `x`: an output without colour normalization behind the one that is the input gets
the colours already written there. -/
def colourAt (inp : Input) (x : Nat) : Mode :=
  match inp with
  | .separate _ => (modes x).2
  | .output k => if k < x ∧ x % 3 = 0 then (modes k).2 else (modes x).2

theorem modes_none {x : Nat} (hx : x < 12) : ((modes x).1 = .none ↔ x < 3) ∧ ((modes x).2 = .none ↔ x % 3 = 0) := by
  revert x; decide

theorem write_write {i : Info} {am am' : AlphaMode} {cm cm' : Mode} (ha : am' = .none → am = .none) {b : Buf} (hb : b.length = 16) :
    write i am' cm' (write i am cm b) = write i am' (if cm' = .none then cm else cm') b := by
  have h8 : (b.take 8).length = 8 := by simp [hb]
  have hl := alpha_length i am _ h8
  have e1 : (write i am cm b).take 8 = alpha i am (b.take 8) := List.take_left' hl
  have e2 : (write i am cm b).drop 8 = Bc2.colour (i.solid, i.color) cm (b.drop 8) := List.drop_left' hl
  rw [write, e1, e2, write]
  congr 1
  · unfold alpha
    by_cases h1 : am' = .none
    · simp [h1, ha h1]
    · by_cases h2 : i.uniformAlpha = true
      · simp [h1, h2]
      · simp [h2]
  · unfold Bc2.colour
    by_cases h1 : cm' = .none
    · simp [h1]
    · by_cases h2 : i.solid = true
      · simp [h1, h2]
      · simp [h2]

/-- **`normalize_blocks_all_modes` (BC3)**: what every buffer gets, wherever the input is. -/
theorem allModes_at (inp : Input) (outs : List Buf) (data : Buf) (n : Nat) (hN : outs.length = 12)
    (hr : inp.region outs = some data) (hd : n * 16 ≤ data.length)
    (ho : ∀ (x : Nat) (dst : Buf), outs[x]? = some dst → n * 16 ≤ dst.length) :
    ∃ outs', allModes inp outs (n * 16) = some outs' ∧
      AllInv 16 (fun x => norm (modes x).1 (colourAt inp x)) data outs n outs' := by
  suffices h : Ok (allModes inp outs (n * 16)) (fun s =>
      AllInv 16 (fun x => norm (modes x).1 (colourAt inp x)) data outs n s) by
    obtain ⟨o, h1, h3⟩ := h
    exact ⟨o, h1, h3⟩
  have hnl := fun (x : Nat) (b : Buf) (h : b.length = 16) => norm_length (modes x).1 (colourAt inp x) b h
  unfold allModes impl
  simp only [Option.bind_eq_bind, Option.bind_assoc]
  refine Ok.bind' (Ok.whileM (fun i s => s.1 = i * 16 ∧ s.2.1 = i * 16 ∧
      AllInv 16 (fun x => norm (modes x).1 (colourAt inp x)) data outs i s.2.2) n (by omega)
      ⟨by simp, by simp, AllInv.start ..⟩ ?_ ?_)
  · rintro i ⟨sp, dp, os⟩ hi ⟨h1, h2, h4⟩
    dsimp only at h1 h2 h4
    subst h1 h2
    refine ⟨by simpa using hi, ?_⟩
    obtain ⟨r, hr1, hr2, hr3⟩ := h4.region hnl (by omega) hr
    simp only [hr1, Option.bind_some, bc3_at hr3, classify_eq, hr2]
    have hbl : (Spec.block 16 data i).length = 16 := slice_length_of_le (by omega)
    obtain ⟨o, e1, e2⟩ := h4.step (N := 12) hnl (by omega) hr hN
      (fun x dst hx => by have := ho x dst hx; omega)
      (f := fun x src dst => (AlphaMode.all[x / 3]?).bind fun am => (Mode.all[x % 3]?).bind fun cm =>
        writeBlock src (i * 16) dst (i * 16) (kind (pix3 (Spec.block 16 data i))) am cm)
      (G := fun x _ c => write (kind (pix3 (Spec.block 16 data i))) (modes x).1 (modes x).2 c)
      (fun x src dst hx hs hd => by
        rw [alphaAll_get (by omega), Bc1.all_get (Nat.mod_lt _ (by omega))]
        exact writeBlock_eq src dst _ _ _ _ hs hd)
      (fun x a c => write_length _ _ _ _)
      (fun x hx => by
        unfold Input.effective colourAt
        cases inp with
        | separate _ => rfl
        | output k =>
          dsimp only
          split
          · rename_i h
            subst h
            rw [if_neg (by omega)]
            rfl
          · split
            · rw [if_neg (by omega)]
              rfl
            · rename_i h1 h2
              have hk : k < 12 := by omega
              obtain ⟨n1, n2⟩ := modes_none hx
              obtain ⟨m1, _⟩ := modes_none hk
              rw [write_write (fun h => m1.2 (by have := n1.1 h; omega)) hbl]
              unfold norm
              congr 1
              by_cases hc : x % 3 = 0
              · rw [if_pos (n2.2 hc), if_pos ⟨by omega, hc⟩]
              · rw [if_neg (fun h => hc (n2.1 h)), if_neg (fun h => hc h.2)])
    simp only [e1, Option.bind_some]
    exact ⟨_, rfl, by dsimp only; omega, by dsimp only; omega, e2⟩
  · rintro ⟨sp, dp, os⟩ ⟨h1, h2, h4⟩
    dsimp only at h1 h2 h4
    exact ⟨by subst h1; simp, _, rfl, h4⟩

/-- The same for an input of its own: every buffer gets what `normalize_blocks` writes. -/
theorem allModes_eq (data : Buf) (outs : List Buf) (n : Nat) (hN : outs.length = 12)
    (hd : n * 16 ≤ data.length)
    (ho : ∀ (x : Nat) (dst : Buf), outs[x]? = some dst → n * 16 ≤ dst.length) :
    ∃ outs', allModes (.separate data) outs (n * 16) = some outs' ∧
      AllInv 16 (fun x => norm (modes x).1 (modes x).2) data outs n outs' :=
  allModes_at (.separate data) outs data n hN rfl hd ho

end Bc3
end Dlt.Norm
