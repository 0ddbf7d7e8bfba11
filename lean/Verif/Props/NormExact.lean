import Verif.Props.Normalize
/-!
# C45: what the buffers hold

The exact counterpart of `C45_bc1_all_modes_partial`: the buffer of mode `None` for all blocks and wherever the input is.  And BC3 with
the input in one of the twelve buffers.
-/

namespace Dlt.Props
open Decode Spec Norm

/-- What becomes of a block in the buffer of mode `None`; `here` says that the input is in that buffer. -/
structure NoneOut (here : Prop) (b b' : Buf) : Prop where
  /-- a transparent block becomes all ones -/
  transparent : Transparent b → b' = List.replicate 8 0xFF
  /-- in place, the first colour of a block of one colour becomes that colour, and the rest of the block stays -/
  solid : here → ∀ c, c < 65536 → SolidColour b c → le (slice b' 0 2) = c ∧ slice b' 2 6 = slice b 2 6
  /-- other blocks stay, and so do blocks of one colour if the input is elsewhere -/
  other : ¬ Transparent b → (¬ here ∨ ∀ c, c < 65536 → ¬ SolidColour b c) → b' = b

/-- The block stays. -/
def NoneKeeps (here : Prop) (b : Buf) : Prop :=
  (Transparent b → b = List.replicate 8 0xFF) ∧ (here → ∀ c, c < 65536 → SolidColour b c → le (slice b 0 2) = c)

theorem kind_cases {b : Buf} (hb : b.length = 8) :
    (Transparent b ∧ (Bc1.kind (pix1 b)).1 = .transparent) ∨
    (¬ Transparent b ∧ ∃ c : U16, SolidColour b c.toNat ∧ Bc1.kind (pix1 b) = (.solid, c)) ∨
    (¬ Transparent b ∧ (∀ c, c < 65536 → ¬ SolidColour b c) ∧ (Bc1.kind (pix1 b)).1 = .cannot) := by
  by_cases ht : Transparent b
  · exact .inl ⟨ht, by rw [Bc1.kind_of_transparent ((transparent_iff hb).1 ht)]⟩
  · refine .inr ?_
    by_cases hs : ∃ c, c < 65536 ∧ SolidColour b c
    · obtain ⟨c, hc, hs⟩ := hs
      have hcn : (BitVec.ofNat 16 c).toNat = c := by simp; omega
      rw [← hcn] at hs
      exact .inl ⟨ht, _, hs, Bc1.kind_of_solid ((solid_iff hb _).1 hs)⟩
    · refine .inr ⟨ht, fun c hc h => hs ⟨c, hc, h⟩, ?_⟩
      rcases hk : Bc1.kind (pix1 b) with ⟨t, c⟩
      cases t
      · exact absurd ((transparent_iff hb).2 (Bc1.kind_transparent hk)) ht
      · exact absurd ⟨c.toNat, c.isLt, (solid_iff hb c).2 (Bc1.kind_solid hk)⟩ hs
      · rfl

/-- A block has at most one colour. -/
theorem solid_unique {b : Buf} (hb : b.length = 8) {c : U16} {d : Nat} (hd : d < 65536) (h : SolidColour b c.toNat)
    (h' : SolidColour b d) : d = c.toNat := by
  have hdn : (BitVec.ofNat 16 d).toNat = d := by simp; omega
  rw [← hdn] at h' ⊢
  have e := Bc1.kind_of_solid ((solid_iff hb _).1 h)
  rw [Bc1.kind_of_solid ((solid_iff hb _).1 h')] at e
  rw [(Prod.mk.inj e).2]

theorem solid_not_transparent {b : Buf} {c : Nat} (h : SolidColour b c) : ¬ Transparent b := fun ht => by
  have := (h 0 (by omega)).symm.trans (ht 0 (by omega))
  simp [withAlpha] at this

theorem modesOut_here {b : Buf} : Bc1.modesOut (.output 0) 0 b = Bc1.write (Bc1.kind (pix1 b)) .none true b := by
  unfold Bc1.modesOut Input.effective
  rfl

theorem noneOut (inp : Input) {b : Buf} (hb : b.length = 8) : NoneOut (inp = .output 0) b (Bc1.modesOut inp 0 b) := by
  by_cases hh : inp = .output 0
  · subst hh
    rw [modesOut_here]
    rcases kind_cases hb with ⟨ht, hk⟩ | ⟨ht, c, hs, hk⟩ | ⟨ht, hs, hk⟩
    · refine ⟨fun _ => ?_, fun _ c _ h => absurd ht (solid_not_transparent h), fun h => absurd ht h⟩
      unfold Bc1.write; rw [hk]
    · refine ⟨fun h => absurd h ht, fun _ d hd h => ?_, fun _ h => ?_⟩
      · rw [solid_unique hb hd hs h, hk]
        match b, hb with
        | [_, _, _, _, _, _, _, _], _ => exact ⟨le_lohi c, rfl⟩
      · rcases h with h | h
        · exact absurd rfl h
        · exact absurd hs (h _ c.isLt)
    · refine ⟨fun h => absurd h ht, fun _ d hd h => absurd h (hs d hd), fun _ _ => ?_⟩
      unfold Bc1.write; rw [hk]
  · have hne : ∀ k, inp = .output k → k ≠ 0 := fun k hk h0 => hh (by rw [hk, h0])
    rw [Bc1.modesOut_none hne]
    refine ⟨fun ht => ?_, fun h => absurd h hh, fun ht _ => ?_⟩
    · rw [if_pos (by rw [Bc1.kind_of_transparent ((transparent_iff hb).1 ht)])]
    · rw [if_neg]
      intro h
      exact ht ((transparent_iff hb).2 (Bc1.kind_transparent (c := (Bc1.kind (pix1 b)).2) (Prod.ext h rfl)))

/-- A block is as before exactly under the condition of `NoneKeeps`. -/
theorem NoneOut.eq_iff {here : Prop} {b b' : Buf} (hb : b.length = 8) (hb' : b'.length = 8) (h : NoneOut here b b') :
    b' = b ↔ NoneKeeps here b := by
  refine ⟨fun e => ?_, fun hk => ?_⟩
  · subst e
    exact ⟨h.transparent, fun hh c hc hs => (h.solid hh c hc hs).1⟩
  · by_cases ht : Transparent b
    · rw [h.transparent ht, ← hk.1 ht]
    · by_cases hs : here ∧ ∃ c, c < 65536 ∧ SolidColour b c
      · obtain ⟨hh, c, hc, hs⟩ := hs
        obtain ⟨e1, e2⟩ := h.solid hh c hc hs
        have e3 := hk.2 hh c hc hs
        match b, hb, b', hb' with
        | [a0, a1, _, _, _, _, _, _], _, [b0, b1, _, _, _, _, _, _], _ =>
          have e : le [b0, b1] = le [a0, a1] := e1.trans e3.symm
          simp only [le] at e
          have h0 := a0.isLt
          have h1 := b0.isLt
          have e4 : b0 = a0 := BitVec.eq_of_toNat_eq (by omega)
          have e5 : b1 = a1 := BitVec.eq_of_toNat_eq (by omega)
          rw [e4, e5]
          exact congrArg (fun t => a0 :: a1 :: t) e2
      · refine h.other ht ?_
        by_cases hh : here
        · exact .inr fun c hc h' => hs ⟨hh, c, hc, h'⟩
        · exact .inl hh

/-- **C45, exact.** BC1, the buffer of mode `None`, wherever the input is: what becomes of every block, and that the buffer holds
what `normalize_blocks` with `None` writes exactly if every transparent block already was all ones and, if the input is in
that buffer, the first colour of every block of one colour already was that colour. -/
theorem C45_bc1_none_exact (inp : Input) (outs : List Buf) (data dst : Buf) (n : Nat) (hN : outs.length = 3)
    (hr : inp.region outs = some data) (hd : n * 8 ≤ data.length)
    (ho : ∀ (x : Nat) (dst : Buf), outs[x]? = some dst → n * 8 ≤ dst.length) (h0 : outs[0]? = some dst) :
    ∃ outs' any o, Norm.Bc1.allModes inp outs (n * 8) = some (outs', any) ∧ outs'[0]? = some o ∧ o.length = dst.length ∧
      o.drop (n * 8) = dst.drop (n * 8) ∧
      (∀ i, i < n → NoneOut (inp = .output 0) (block 8 data i) (block 8 o i)) ∧
      (Norm.Bc1.normalizeBlocks (some data) dst (n * 8) .none = some o ↔
        ∀ i, i < n → NoneKeeps (inp = .output 0) (block 8 data i)) := by
  obtain ⟨outs', h1, _, h3⟩ := Norm.Bc1.allModes_eq inp outs data n hN hr hd ho
  have hl := Norm.Bc1.modesOut_length inp 0
  have hod := ho 0 dst h0
  have hb : ∀ i, i < n → block 8 (mapBlocks 8 (Bc1.modesOut inp 0) data n ++ dst.drop (n * 8)) i =
      Bc1.modesOut inp 0 (block 8 data i) := fun i hi => block_mapBlocks hl hd hi
  refine ⟨outs', _, _, h1, h3 0 dst h0, (frame hl hd hod).1, (frame hl hd hod).2, fun i hi => ?_, ?_⟩
  · rw [hb i hi]
    exact noneOut inp (block_len hd hi)
  · have hid : Norm.Bc1.norm .none = id := by funext b; simp [Norm.Bc1.norm]
    rw [Norm.Bc1.normalizeBlocks_eq (some data) dst n .none hd hod, hid, Option.getD_some, Option.some.injEq]
    have key : ∀ i, i < n → (Bc1.modesOut inp 0 (block 8 data i) = block 8 data i ↔ NoneKeeps (inp = .output 0) (block 8 data i)) :=
      fun i hi => (noneOut inp (block_len hd hi)).eq_iff (block_len hd hi) (hl _ (block_len hd hi))
    refine ⟨fun e i hi => (key i hi).1 ?_, fun h => ?_⟩
    · rw [← hb i hi, ← e]
      exact block_mapBlocks (fun _ h => h) hd hi
    · congr 1
      exact mapBlocks_congr fun i hi => ((key i hi).2 (h i hi)).symm

/-- Two blocks in place: one is opaque but not of one colour and stays; the other is of one colour, which is not its first one. -/
example : (Norm.Bc1.allModes (.output 0) [[0x00, 0x18, 0, 0, 0xAA, 0xAA, 0xAA, 0xAA, 0x00, 0x18, 0, 0, 0xAB, 0xAA, 0xAA, 0xAA],
    List.replicate 16 0, List.replicate 16 0] 16).map (fun r => r.1[0]?) =
    some (some [0x00, 0x10, 0, 0, 0xAA, 0xAA, 0xAA, 0xAA, 0x00, 0x18, 0, 0, 0xAB, 0xAA, 0xAA, 0xAA]) := by decide +kernel

/-! ## BC3 in place -/

theorem le_inj : ∀ {x y : Buf}, x.length = y.length → le x = le y → x = y
  | [], [], _, _ => rfl
  | a :: x, b :: y, hl, h => by
    simp only [le] at h
    have ha := a.isLt
    have hb := b.isLt
    rw [le_inj (x := x) (y := y) (by simpa using hl) (by omega), BitVec.eq_of_toNat_eq (x := a) (y := b) (by omega)]

/-- The documented normal form of the colour half is unique. -/
theorem ColourNormal.unique {m : Mode} {b x y : Buf} (hx : x.length = 16) (hy : y.length = 16) (h : ColourNormal m b x)
    (h' : ColourNormal m b y) : slice x 8 8 = slice y 8 8 := by
  by_cases hm : m = .none
  · rw [h.other (.inl hm), h'.other (.inl hm)]
  · by_cases hs : ∃ c, c < 65536 ∧ SolidRgb b c
    · obtain ⟨c, hc, hs⟩ := hs
      obtain ⟨e1, e2, e3⟩ := h.solid hm c hc hs
      obtain ⟨f1, f2, f3⟩ := h'.solid hm c hc hs
      have g1 := le_inj (by simp [slice, hx, hy]) (e1.trans f1.symm)
      have g2 := le_inj (by simp [slice, hx, hy]) (e2.trans f2.symm)
      have g3 := le_inj (by simp [slice, hx, hy]) (e3.trans f3.symm)
      match x, hx, y, hy with
      | [_, _, _, _, _, _, _, _, _, _, _, _, _, _, _, _], _, [_, _, _, _, _, _, _, _, _, _, _, _, _, _, _, _], _ =>
        simp only [slice, List.drop_succ_cons, List.drop_zero, List.take_succ_cons, List.take_zero, List.cons.injEq, and_true] at g1 g2 g3 ⊢
        simp only [g1, g2, g3, and_self]
    · rw [h.other (.inr hs), h'.other (.inr hs)]

theorem norm3_colour (am : Norm.Bc3.AlphaMode) (cm : Mode) {b : Buf} (hb : b.length = 16) :
    ColourNormal cm b (Norm.Bc3.norm am cm b) := by
  have h8 : (b.take 8).length = 8 := by simp [hb]
  rw [Norm.Bc3.norm, Norm.Bc3.write]
  refine colourNormal_of hb (Norm.Bc3.alpha_length _ _ _ h8) (f := pix3 b) (fun k => rfl) _ ?_ ?_
  · exact (Norm.Bc3.kind_bc2_fst _).symm
  · intro ht; exact ((Norm.Bc3.kind_bc2 _ ht).trans (by rw [show (Norm.Bc3.kind (pix3 b)).solid = true from ht])).symm

/-- Normalizing the colours changes nothing exactly for blocks already in normal form. -/
theorem norm3_eq_none_iff (am : Norm.Bc3.AlphaMode) (cm : Mode) {b : Buf} (hb : b.length = 16) :
    Norm.Bc3.norm am cm b = Norm.Bc3.norm am .none b ↔ ColourNormal cm b b := by
  have hl := Norm.Bc3.norm_length am cm b hb
  have hn := (norm3_colour am .none hb).other (.inl rfl)
  constructor
  · intro h
    have hc := norm3_colour am cm hb
    have e : slice (Norm.Bc3.norm am cm b) 8 8 = slice b 8 8 := by rw [h, hn]
    have es : ∀ o m, o + m ≤ 8 → slice (Norm.Bc3.norm am cm b) (8 + o) m = slice b (8 + o) m := by
      intro o m hom
      rw [← slice_slice _ 8 8 o m hom, ← slice_slice _ 8 8 o m hom, e]
    refine ⟨fun hm c hlt hs => ?_, fun _ => rfl⟩
    have := hc.solid hm c hlt hs
    rw [es 0 2 (by omega), es 2 2 (by omega), es 4 4 (by omega)] at this
    exact this
  · intro h
    have e := (norm3_colour am cm hb).unique hl hb h
    have hs : ∀ x : Buf, x.length = 16 → x = x.take 8 ++ slice x 8 8 := fun x hx => by
      conv => lhs; rw [← List.take_append_drop 8 x]
      congr 1
      unfold slice
      rw [List.take_of_length_le (by simp [hx])]
    rw [hs _ hl, hs _ (Norm.Bc3.norm_length am .none b hb), e, hn]
    congr 1
    have h8 : (Norm.Bc3.alpha (Norm.Bc3.kind (pix3 b)) am (b.take 8)).length = 8 := Norm.Bc3.alpha_length _ _ _ (by simp [hb])
    rw [Norm.Bc3.norm, Norm.Bc3.norm, Norm.Bc3.write, Norm.Bc3.write, List.take_left' h8, List.take_left' h8]

/-- **C45, exact.** BC3 with the input in buffer number `k`, which the documentation allows and which is buffer `[k / 3][k % 3]`:
every buffer holds what `normalize_blocks` writes, except for those without colour normalization behind it.  They get the colours of
the input as already normalized for buffer `k`, so they are right exactly if all of these were in normal form from the start.  The pixels
are right in any case. -/
theorem C45_bc3_in_place_exact (k : Nat) (outs : List Buf) (data : Buf) (n : Nat) (hN : outs.length = 12)
    (hk : outs[k]? = some data) (ho : ∀ (x : Nat) (dst : Buf), outs[x]? = some dst → n * 16 ≤ dst.length) :
    ∃ outs', Norm.Bc3.allModes (.output k) outs (n * 16) = some outs' ∧ outs'.length = 12 ∧
      ∀ (a c : Nat) (dst : Buf) (am : Norm.Bc3.AlphaMode) (cm km : Mode), a < 4 → c < 3 →
        outs[a * 3 + c]? = some dst → Norm.Bc3.AlphaMode.all[a]? = some am → Mode.all[c]? = some cm → Mode.all[k % 3]? = some km →
        (¬ (cm = .none ∧ k / 3 < a) → outs'[a * 3 + c]? = Norm.Bc3.normalizeBlocks (some data) dst (n * 16) am cm) ∧
        (cm = .none → k / 3 < a → outs'[a * 3 + c]? = Norm.Bc3.normalizeBlocks (some data) dst (n * 16) am km ∧
          (outs'[a * 3 + c]? = Norm.Bc3.normalizeBlocks (some data) dst (n * 16) am cm ↔
            ∀ i, i < n → ColourNormal km (block 16 data i) (block 16 data i))) ∧
        ∃ o, outs'[a * 3 + c]? = some o ∧ o.length = dst.length ∧ o.drop (n * 16) = dst.drop (n * 16) ∧
          ∀ i, i < n → ∀ p, p < 16 → bc3Pixel (block 16 o i) p = bc3Pixel (block 16 data i) p := by
  have hd := ho k data hk
  obtain ⟨outs', h1, h2, h3⟩ := Norm.Bc3.allModes_at (.output k) outs data n hN hk hd ho
  refine ⟨outs', h1, by omega, fun a c dst am cm km ha hc hx ham hcm hkm => ?_⟩
  have hod := ho _ dst hx
  have e1 : (a * 3 + c) / 3 = a := by omega
  have e2 : (a * 3 + c) % 3 = c := by omega
  have hk12 : k < 12 := by have := (List.getElem?_eq_some_iff.1 hk).1; omega
  have hcn : cm = .none ↔ c = 0 := by
    match c, hc with
    | 0, _ => obtain rfl := Option.some.inj hcm; simp
    | 1, _ => obtain rfl := Option.some.inj hcm; simp
    | 2, _ => obtain rfl := Option.some.inj hcm; simp
  have hm1 : (Norm.Bc3.modes (a * 3 + c)).1 = am := by simp only [Norm.Bc3.modes, e1, List.getD_eq_getElem?_getD, ham, Option.getD_some]
  have hm2 : (Norm.Bc3.modes (a * 3 + c)).2 = cm := by simp only [Norm.Bc3.modes, e2, List.getD_eq_getElem?_getD, hcm, Option.getD_some]
  have hm3 : (Norm.Bc3.modes k).2 = km := by simp only [Norm.Bc3.modes, List.getD_eq_getElem?_getD, hkm, Option.getD_some]
  have hat := h3 _ dst hx
  simp only [hm1, Norm.Bc3.colourAt, hm2, hm3, e2] at hat
  have hcond : (k < a * 3 + c ∧ c = 0) ↔ (cm = .none ∧ k / 3 < a) := by rw [hcn]; omega
  have pick : ∀ m, outs'[a * 3 + c]? = Norm.Bc3.normalizeBlocks (some data) dst (n * 16) am m → ∃ o, outs'[a * 3 + c]? = some o ∧
      o.length = dst.length ∧ o.drop (n * 16) = dst.drop (n * 16) ∧
      ∀ i, i < n → ∀ p, p < 16 → bc3Pixel (block 16 o i) p = bc3Pixel (block 16 data i) p := by
    intro m hm
    obtain ⟨o, h1, h2, h3, h4⟩ := C44_bc3_pixels (some data) dst n am m hd hod
    exact ⟨o, hm.trans h1, h2, h3, h4⟩
  by_cases hb : cm = .none ∧ k / 3 < a
  · rw [if_pos (hcond.2 hb)] at hat
    have hv : outs'[a * 3 + c]? = Norm.Bc3.normalizeBlocks (some data) dst (n * 16) am km := by
      rw [hat, Norm.Bc3.normalizeBlocks_eq (some data) dst n am km hd hod]; rfl
    refine ⟨fun h => absurd hb h, fun hc0 _ => ⟨hv, ?_⟩, pick _ hv⟩
    subst hc0
    rw [hat, Norm.Bc3.normalizeBlocks_eq (some data) dst n am .none hd hod, Option.getD_some, Option.some.injEq]
    refine ⟨fun e i hi => ?_, fun h => ?_⟩
    · have hbl := block_len hd hi
      refine (norm3_eq_none_iff am km hbl).1 ?_
      rw [← block_mapBlocks (tail := dst.drop (n * 16)) (Norm.Bc3.norm_length am km) hd hi, e]
      exact block_mapBlocks (Norm.Bc3.norm_length am .none) hd hi
    · congr 1
      exact mapBlocks_congr fun i hi => (norm3_eq_none_iff am km (block_len hd hi)).2 (h i hi)
  · rw [if_neg (fun h => hb (hcond.1 h))] at hat
    have hv : outs'[a * 3 + c]? = Norm.Bc3.normalizeBlocks (some data) dst (n * 16) am cm := by
      rw [hat, Norm.Bc3.normalizeBlocks_eq (some data) dst n am cm hd hod]; rfl
    exact ⟨fun _ => hv, fun h1 h2 => absurd ⟨h1, h2⟩ hb, pick _ hv⟩

/-- **C45, negation.** BC3 with the input in the buffer `[0][1]` (no alpha normalization, `Color0Only`): the buffer `[1][0]` (uniform
alpha, no colour normalization) does not hold what `normalize_blocks` writes. -/
theorem C45_bc3_in_place_differs :
    let b : Buf := [3, 9, 1, 2, 3, 4, 5, 6, 0x34, 0x12, 0x34, 0x12, 0x44, 0x11, 0x05, 0x50]
    let z : Buf := List.replicate 16 0
    (Norm.Bc3.allModes (.output 1) [z, b, z, z, z, z, z, z, z, z, z, z] 16).map (fun r => r[3]?) =
      some (some [3, 9, 1, 2, 3, 4, 5, 6, 0x34, 0x12, 0, 0, 0, 0, 0, 0]) ∧
    Norm.Bc3.normalizeBlocks (some b) z 16 .uniformAlphaZeroIndices .none = some b := by decide +kernel

end Dlt.Props
