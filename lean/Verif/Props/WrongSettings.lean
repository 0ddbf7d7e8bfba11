import Verif.Props.Pieces
/-!
# C98: which settings can stand for others

A texture is restored with other settings than it was transformed with.  For which pairs of settings does that give back every texture of
`n` blocks?  Only if the decorrelation is the same and so are the splits, except that a split makes no difference to a single block.
-/

namespace Dlt.Props

open Dlt.Spec

/-- `n` times the same block. -/
def uniform (n : Nat) (blk : Buf) : Buf := (List.replicate n blk).flatten

theorem uniform_length (n : Nat) (blk : Buf) : (uniform n blk).length = n * blk.length := by
  unfold uniform
  simp

theorem uniform_block {n B i : Nat} {blk : Buf} (hb : blk.length = B) (hi : i < n) : block B (uniform n blk) i = blk := by
  subst hb
  obtain ⟨k, rfl⟩ : ∃ k, n = i + (1 + k) := ⟨n - i - 1, by omega⟩
  unfold block uniform slice
  rw [List.replicate_add, List.flatten_append, List.drop_left' (by simp), List.replicate_add, List.flatten_append]
  have : (List.replicate 1 blk).flatten = blk := by simp
  rw [this, List.take_left' rfl]

/-- The field of every block of a uniform texture. -/
theorem uniform_section {B n i k w : Nat} {blk : Buf} {fs : List (Buf → Buf)} {ws : List Nat} {f : Buf → Buf} (hB : 0 < B)
    (hb : blk.length = B) (hfit : Fits B fs ws) (hi : i < n) (hf : fs[k]? = some f) (hw : ws[k]? = some w) :
    slice (columns B fs (uniform n blk)) (n * start ws k + i * w) w = f blk := by
  have := section_is hB (by rw [uniform_length, hb]) hfit [] hi hf hw
  rw [List.append_nil, uniform_block hb hi] at this
  exact this

/-- A texture of one block. -/
theorem columns_one {B : Nat} (fs : List (Buf → Buf)) {data : Buf} (hB : 0 < B) (h : data.length = B) :
    columns B fs data = fs.flatMap fun f => f data := by
  unfold columns column
  have e : block B data 0 = data := by
    unfold block slice
    rw [Nat.zero_mul, List.drop_zero, List.take_of_length_le (by omega)]
  rw [h, Nat.div_self hB]
  simp [e]

theorem columns_zero {B : Nat} (fs : List (Buf → Buf)) : columns B fs [] = [] := by
  unfold columns column
  simp

/-- Restoring with other settings succeeds if the other settings would have written the same. -/
theorem restores_iff {B : Nat} {enc enc' dec' : Buf → Buf} (hl : ∀ x : Buf, x.length % B = 0 → (enc x).length = x.length)
    (hde : ∀ x : Buf, x.length % B = 0 → dec' (enc' x) = x) (hed : ∀ x : Buf, x.length % B = 0 → enc' (dec' x) = x) {x : Buf}
    (hx : x.length % B = 0) : dec' (enc x) = x ↔ enc x = enc' x := by
  constructor
  · intro h
    have := hed (enc x) (by rw [hl x hx]; exact hx)
    rw [h] at this
    exact this.symm
  · intro h
    rw [h, hde x hx]

theorem colours_tell (e : Endian) (v v' : Variant) : encCol e v [3, 1] = encCol e v' [3, 1] → v = v' := by
  cases e <;> cases v <;> cases v' <;> decide

theorem colours_tell2 (e : Endian) (v : Variant) : encCol e v [3, 1] ≠ encCol e v [0, 0] := by
  cases e <;> cases v <;> decide

theorem slice_append_take {x : Buf} {a b : Buf} {p w : Nat} (ha : a.length = 2) (h : slice x p w = a ++ b) (hw : 2 ≤ w) : slice x p 2 = a := by
  have : slice x p 2 = (slice x p w).take 2 := by
    unfold slice
    rw [List.take_take, Nat.min_eq_left hw]
  rw [this, h, List.take_left' ha]

theorem slice_append_drop {x : Buf} {a b : Buf} {p : Nat} (ha : a.length = 2) (h : slice x p 4 = a ++ b) : slice x (p + 2) 2 = b := by
  have : slice x (p + 2) 2 = (slice x p 4).drop 2 := by
    unfold slice
    rw [List.drop_take, List.drop_drop]
  rw [this, h, List.drop_left' ha]

theorem enc1_same (e : Endian) (s s' : ColourSettings) (n : Nat) :
    (∀ data : Buf, data.length = n * 8 → Bc1.encode e s data = Bc1.encode e s' data) ↔
      n = 0 ∨ (s.decorr = s'.decorr ∧ (s.split = s'.split ∨ n = 1)) := by
  have fit := fun (v : Variant) split => Bc1.fits (col := encCol e v) (fun bs _ => encCol_length _ _ _) split
  obtain ⟨v, c⟩ := s
  obtain ⟨v', c'⟩ := s'
  dsimp only
  constructor
  · intro h
    by_cases hn : n = 0
    · exact .inl hn
    right
    have hv : v = v' := by
      have h1 := h (uniform n [3, 1, 3, 1, 0, 0, 0, 0]) (uniform_length _ _)
      have key : ∀ v c, slice (Bc1.encode e ⟨v, c⟩ (uniform n [3, 1, 3, 1, 0, 0, 0, 0])) 0 2 = encCol e v [3, 1] := by
        intro v c
        cases c
        · have := uniform_section (B := 8) (i := 0) (k := 0) (n := n) (blk := [3, 1, 3, 1, 0, 0, 0, 0]) (by omega) rfl (fit v false) (by omega) rfl rfl
          simp only [start, List.take_zero, List.sum_nil, Nat.mul_zero, Nat.zero_mul, Nat.add_zero] at this
          exact slice_append_take (encCol_length _ _ _) this (by omega)
        · have := uniform_section (B := 8) (i := 0) (k := 0) (n := n) (blk := [3, 1, 3, 1, 0, 0, 0, 0]) (by omega) rfl (fit v true) (by omega) rfl rfl
          simp only [start, List.take_zero, List.sum_nil, Nat.mul_zero, Nat.zero_mul, Nat.add_zero] at this
          exact this
      exact colours_tell e v v' (by rw [← key v c, h1, key v' c'])
    refine ⟨hv, ?_⟩
    subst hv
    by_cases h1 : n = 1
    · exact .inr h1
    left
    have hd := h (uniform n [3, 1, 0, 0, 0, 0, 0, 0]) (uniform_length _ _)
    have k0 : slice (Bc1.encode e ⟨v, false⟩ (uniform n [3, 1, 0, 0, 0, 0, 0, 0])) 2 2 = encCol e v [0, 0] := by
      have := uniform_section (B := 8) (i := 0) (k := 0) (n := n) (blk := [3, 1, 0, 0, 0, 0, 0, 0]) (by omega) rfl (fit v false) (by omega) rfl rfl
      simp only [start, List.take_zero, List.sum_nil, Nat.mul_zero, Nat.zero_mul, Nat.add_zero] at this
      exact slice_append_drop (encCol_length _ _ _) this
    have k1 : slice (Bc1.encode e ⟨v, true⟩ (uniform n [3, 1, 0, 0, 0, 0, 0, 0])) 2 2 = encCol e v [3, 1] := by
      have := uniform_section (B := 8) (i := 1) (k := 0) (n := n) (blk := [3, 1, 0, 0, 0, 0, 0, 0]) (by omega) rfl (fit v true) (by omega) rfl rfl
      simp only [start, List.take_zero, List.sum_nil, Nat.mul_zero, Nat.one_mul, Nat.zero_add] at this
      exact this
    cases c <;> cases c'
    · rfl
    · rw [hd, k1] at k0; exact absurd k0 (colours_tell2 e v)
    · rw [← hd, k1] at k0; exact absurd k0 (colours_tell2 e v)
    · rfl
  · rintro (rfl | ⟨rfl, rfl | rfl⟩) data hd
    · have : data = [] := List.length_eq_zero_iff.1 (by omega)
      subst this
      unfold Bc1.encode
      rw [columns_zero, columns_zero]
    · rfl
    · unfold Bc1.encode
      rw [columns_one _ (by omega) (by omega), columns_one _ (by omega) (by omega)]
      cases c <;> cases c' <;> simp [bc1Fields]

theorem enc2_same (e : Endian) (s s' : ColourSettings) (n : Nat) :
    (∀ data : Buf, data.length = n * 16 → Bc2.encode e s data = Bc2.encode e s' data) ↔
      n = 0 ∨ (s.decorr = s'.decorr ∧ (s.split = s'.split ∨ n = 1)) := by
  have fit := fun (v : Variant) split => Bc2.fits (col := encCol e v) (fun bs _ => encCol_length _ _ _) split
  obtain ⟨v, c⟩ := s
  obtain ⟨v', c'⟩ := s'
  dsimp only
  constructor
  · intro h
    by_cases hn : n = 0
    · exact .inl hn
    right
    have hv : v = v' := by
      have h1 := h (uniform n [0, 0, 0, 0, 0, 0, 0, 0, 3, 1, 3, 1, 0, 0, 0, 0]) (uniform_length _ _)
      have key : ∀ v c, slice (Bc2.encode e ⟨v, c⟩ (uniform n [0, 0, 0, 0, 0, 0, 0, 0, 3, 1, 3, 1, 0, 0, 0, 0])) (n * 8) 2 = encCol e v [3, 1] := by
        intro v c
        cases c
        · have := uniform_section (B := 16) (i := 0) (k := 1) (n := n) (blk := [0, 0, 0, 0, 0, 0, 0, 0, 3, 1, 3, 1, 0, 0, 0, 0]) (by omega) rfl (fit v false) (by omega) rfl rfl
          rw [show start (Bc2.widths _) 1 = 8 from rfl, Nat.zero_mul, Nat.add_zero] at this
          exact slice_append_take (encCol_length _ _ _) this (by omega)
        · have := uniform_section (B := 16) (i := 0) (k := 1) (n := n) (blk := [0, 0, 0, 0, 0, 0, 0, 0, 3, 1, 3, 1, 0, 0, 0, 0]) (by omega) rfl (fit v true) (by omega) rfl rfl
          rw [show start (Bc2.widths _) 1 = 8 from rfl, Nat.zero_mul, Nat.add_zero] at this
          exact this
      exact colours_tell e v v' (by rw [← key v c, h1, key v' c'])
    refine ⟨hv, ?_⟩
    subst hv
    by_cases h1 : n = 1
    · exact .inr h1
    left
    have hd := h (uniform n [0, 0, 0, 0, 0, 0, 0, 0, 3, 1, 0, 0, 0, 0, 0, 0]) (uniform_length _ _)
    have k0 : slice (Bc2.encode e ⟨v, false⟩ (uniform n [0, 0, 0, 0, 0, 0, 0, 0, 3, 1, 0, 0, 0, 0, 0, 0])) (n * 8 + 2) 2 = encCol e v [0, 0] := by
      have := uniform_section (B := 16) (i := 0) (k := 1) (n := n) (blk := [0, 0, 0, 0, 0, 0, 0, 0, 3, 1, 0, 0, 0, 0, 0, 0]) (by omega) rfl (fit v false) (by omega) rfl rfl
      rw [show start (Bc2.widths _) 1 = 8 from rfl, Nat.zero_mul, Nat.add_zero] at this
      exact slice_append_drop (encCol_length _ _ _) this
    have k1 : slice (Bc2.encode e ⟨v, true⟩ (uniform n [0, 0, 0, 0, 0, 0, 0, 0, 3, 1, 0, 0, 0, 0, 0, 0])) (n * 8 + 2) 2 = encCol e v [3, 1] := by
      have := uniform_section (B := 16) (i := 1) (k := 1) (n := n) (blk := [0, 0, 0, 0, 0, 0, 0, 0, 3, 1, 0, 0, 0, 0, 0, 0]) (by omega) rfl (fit v true) (by omega) rfl rfl
      rw [show start (Bc2.widths _) 1 = 8 from rfl, Nat.one_mul] at this
      exact this
    cases c <;> cases c'
    · rfl
    · rw [hd, k1] at k0; exact absurd k0 (colours_tell2 e v)
    · rw [← hd, k1] at k0; exact absurd k0 (colours_tell2 e v)
    · rfl
  · rintro (rfl | ⟨rfl, rfl | rfl⟩) data hd
    · have : data = [] := List.length_eq_zero_iff.1 (by omega)
      subst this
      unfold Bc2.encode
      rw [columns_zero, columns_zero]
    · rfl
    · unfold Bc2.encode
      rw [columns_one _ (by omega) (by omega), columns_one _ (by omega) (by omega)]
      cases c <;> cases c' <;> simp [bc2Fields]

theorem enc3_same (e : Endian) (s s' : Bc3.Settings) (n : Nat) :
    (∀ data : Buf, data.length = n * 16 → Bc3.encode e s data = Bc3.encode e s' data) ↔
      n = 0 ∨ (s.decorr = s'.decorr ∧ ((s.splitAlpha = s'.splitAlpha ∧ s.splitColour = s'.splitColour) ∨ n = 1)) := by
  have fit := fun (v : Variant) sa sc => Bc3.fits (col := encCol e v) (fun bs _ => encCol_length _ _ _) sa sc
  have w2 : ∀ sa sc, start (Bc3.widths sa sc) (if sa then 3 else 2) = 8 := by
    intro sa sc; cases sa <;> cases sc <;> rfl
  have fs : ∀ (col : Buf → Buf) sa, (bc3Fields col sa false)[if sa then 3 else 2]? = some fun b => col (slice b 8 2) ++ col (slice b 10 2) := by
    intro col sa; cases sa <;> rfl
  have ft : ∀ (col : Buf → Buf) sa, (bc3Fields col sa true)[if sa then 3 else 2]? = some fun b => col (slice b 8 2) := by
    intro col sa; cases sa <;> rfl
  have ws : ∀ sa, (Bc3.widths sa false)[if sa then 3 else 2]? = some 4 := by intro sa; cases sa <;> rfl
  have wt : ∀ sa, (Bc3.widths sa true)[if sa then 3 else 2]? = some 2 := by intro sa; cases sa <;> rfl
  obtain ⟨v, a, c⟩ := s
  obtain ⟨v', a', c'⟩ := s'
  dsimp only
  constructor
  · intro h
    by_cases hn : n = 0
    · exact .inl hn
    right
    have hv : v = v' := by
      have h1 := h (uniform n [0, 0, 0, 0, 0, 0, 0, 0, 3, 1, 3, 1, 0, 0, 0, 0]) (uniform_length _ _)
      have key : ∀ v a c, slice (Bc3.encode e ⟨v, a, c⟩ (uniform n [0, 0, 0, 0, 0, 0, 0, 0, 3, 1, 3, 1, 0, 0, 0, 0])) (n * 8) 2 =
          encCol e v [3, 1] := by
        intro v a c
        cases c
        · have := uniform_section (B := 16) (i := 0) (n := n) (blk := [0, 0, 0, 0, 0, 0, 0, 0, 3, 1, 3, 1, 0, 0, 0, 0]) (by omega) rfl
            (fit v a false) (by omega) (fs _ a) (ws a)
          rw [w2, Nat.zero_mul, Nat.add_zero] at this
          exact slice_append_take (encCol_length _ _ _) this (by omega)
        · have := uniform_section (B := 16) (i := 0) (n := n) (blk := [0, 0, 0, 0, 0, 0, 0, 0, 3, 1, 3, 1, 0, 0, 0, 0]) (by omega) rfl
            (fit v a true) (by omega) (ft _ a) (wt a)
          rw [w2, Nat.zero_mul, Nat.add_zero] at this
          exact this
      exact colours_tell e v v' (by rw [← key v a c, h1, key v' a' c'])
    refine ⟨hv, ?_⟩
    subst hv
    by_cases h1 : n = 1
    · exact .inr h1
    refine .inl ⟨?_, ?_⟩
    · have hd := h (uniform n [1, 0, 0, 0, 0, 0, 0, 0, 0, 0, 0, 0, 0, 0, 0, 0]) (uniform_length _ _)
      have k0 : ∀ c, slice (Bc3.encode e ⟨v, false, c⟩ (uniform n [1, 0, 0, 0, 0, 0, 0, 0, 0, 0, 0, 0, 0, 0, 0, 0])) 0 2 = [1, 0] := by
        intro c
        have := uniform_section (B := 16) (i := 0) (k := 0) (n := n) (blk := [1, 0, 0, 0, 0, 0, 0, 0, 0, 0, 0, 0, 0, 0, 0, 0]) (by omega)
          rfl (fit v false c) (by omega) (by cases c <;> rfl) (by cases c <;> rfl)
        rw [show start (Bc3.widths _ _) 0 = 0 from rfl, Nat.zero_mul, Nat.mul_zero, Nat.add_zero] at this
        exact this
      have k1 : ∀ c i, i < n →
          slice (Bc3.encode e ⟨v, true, c⟩ (uniform n [1, 0, 0, 0, 0, 0, 0, 0, 0, 0, 0, 0, 0, 0, 0, 0])) i 1 = [1] := by
        intro c i hi
        have := uniform_section (B := 16) (i := i) (k := 0) (n := n) (w := 1) (f := fun b => slice b 0 1)
          (blk := [1, 0, 0, 0, 0, 0, 0, 0, 0, 0, 0, 0, 0, 0, 0, 0]) (by omega) rfl (fit v true c) hi (by cases c <;> rfl) (by cases c <;> rfl)
        rw [show start (Bc3.widths _ _) 0 = 0 from rfl, Nat.mul_zero, Nat.mul_one, Nat.zero_add] at this
        exact this
      have hne : ∀ x : Buf, slice x 0 2 = [1, 0] → slice x 1 1 ≠ [1] := by
        intro x h
        have : slice x 1 1 = (slice x 0 2).drop 1 := by
          unfold slice
          rw [List.drop_take, List.drop_drop]
        rw [this, h]
        decide
      cases a <;> cases a'
      · rfl
      · exact absurd (k1 c' 1 (by omega)) (by rw [← hd]; exact hne _ (k0 c))
      · exact absurd (k1 c 1 (by omega)) (by rw [hd]; exact hne _ (k0 c'))
      · rfl
    · have hd := h (uniform n [0, 0, 0, 0, 0, 0, 0, 0, 3, 1, 0, 0, 0, 0, 0, 0]) (uniform_length _ _)
      have k0 : ∀ a, slice (Bc3.encode e ⟨v, a, false⟩ (uniform n [0, 0, 0, 0, 0, 0, 0, 0, 3, 1, 0, 0, 0, 0, 0, 0])) (n * 8 + 2) 2 =
          encCol e v [0, 0] := by
        intro a
        have := uniform_section (B := 16) (i := 0) (n := n) (blk := [0, 0, 0, 0, 0, 0, 0, 0, 3, 1, 0, 0, 0, 0, 0, 0]) (by omega) rfl
          (fit v a false) (by omega) (fs _ a) (ws a)
        rw [w2, Nat.zero_mul, Nat.add_zero] at this
        exact slice_append_drop (encCol_length _ _ _) this
      have k1 : ∀ a, slice (Bc3.encode e ⟨v, a, true⟩ (uniform n [0, 0, 0, 0, 0, 0, 0, 0, 3, 1, 0, 0, 0, 0, 0, 0])) (n * 8 + 2) 2 =
          encCol e v [3, 1] := by
        intro a
        have := uniform_section (B := 16) (i := 1) (n := n) (blk := [0, 0, 0, 0, 0, 0, 0, 0, 3, 1, 0, 0, 0, 0, 0, 0]) (by omega) rfl
          (fit v a true) (by omega) (ft _ a) (wt a)
        rw [w2, Nat.one_mul] at this
        exact this
      cases c <;> cases c'
      · rfl
      · have := k0 a; rw [hd, k1 a'] at this; exact absurd this (colours_tell2 e v)
      · have := k0 a'; rw [← hd, k1 a] at this; exact absurd this (colours_tell2 e v)
      · rfl
  · rintro (rfl | ⟨rfl, ⟨rfl, rfl⟩ | rfl⟩) data hd
    · have : data = [] := List.length_eq_zero_iff.1 (by omega)
      subst this
      unfold Bc3.encode
      rw [columns_zero, columns_zero]
    · rfl
    · unfold Bc3.encode
      rw [columns_one _ (by omega) (by omega), columns_one _ (by omega) (by omega)]
      have hj : slice data 0 1 ++ slice data 1 1 = slice data 0 2 := slices_join
      cases a <;> cases c <;> cases a' <;> cases c' <;> simp [bc3Fields, ← hj]

/-- **C98** (BC1): `untransform` with settings `s'` restores every texture of `n` blocks that was transformed with `s` exactly if there is nothing
to restore, or the decorrelation is the same and also the split, which may differ for a single block. Any output buffers, machines of one
byte order. -/
theorem C98_bc1 (m m' : Machine) (hm : m'.endian = m.endian) (s s' : ColourSettings) (n : Nat) :
    (∀ data out buf : Buf, data.length = n * 8 → out.length = n * 8 → buf.length = n * 8 →
      ∃ t, Bc1.transformWithSettings m data out (n * 8) s = some t ∧ Bc1.untransformWithSettings m' t buf (n * 8) s' = some data) ↔
    n = 0 ∨ (s.decorr = s'.decorr ∧ (s.split = s'.split ∨ n = 1)) := by
  rw [← enc1_same m.endian s s' n]
  have key : ∀ data out buf : Buf, data.length = n * 8 → out.length = n * 8 → buf.length = n * 8 →
      ((∃ t, Bc1.transformWithSettings m data out (n * 8) s = some t ∧ Bc1.untransformWithSettings m' t buf (n * 8) s' = some data) ↔
        Bc1.encode m.endian s data = Bc1.encode m.endian s' data) := by
    intro data out buf hd ho hb
    have h8 : data.length % 8 = 0 := by omega
    obtain ⟨l1, e1⟩ := Bc1.transform_impl m s data out h8 (by omega)
    simp only [] at l1 e1
    obtain ⟨l2, e2⟩ := Bc1.untransform_impl m' s' (Bc1.encode m.endian s data) buf (by omega) (by omega)
    simp only [] at l2 e2
    rw [List.drop_eq_nil_of_le (by omega), List.append_nil, hd] at e1
    rw [List.drop_eq_nil_of_le (by omega), List.append_nil, l1, hd, hm] at e2
    rw [← restores_iff (B := 8) (fun x hx => Bc1.encode_length _ _ hx) (fun x hx => Bc1.decode_encode m.endian s' x hx)
      (fun x hx => Bc1.encode_decode m.endian s' x hx) h8]
    constructor
    · rintro ⟨t, h1, h2⟩
      rw [e1] at h1
      cases h1
      rw [e2] at h2
      exact Option.some.inj h2
    · intro h
      exact ⟨_, e1, by rw [e2, h]⟩
  constructor
  · intro h data hd
    exact (key data data data hd hd hd).1 (h data data data hd hd hd)
  · intro h data out buf hd ho hb
    exact (key data out buf hd ho hb).2 (h data hd)

/-- **C98** (BC2). -/
theorem C98_bc2 (m m' : Machine) (hm : m'.endian = m.endian) (s s' : ColourSettings) (n : Nat) :
    (∀ data out buf : Buf, data.length = n * 16 → out.length = n * 16 → buf.length = n * 16 →
      ∃ t, Bc2.transformWithSettings m data out (n * 16) s = some t ∧ Bc2.untransformWithSettings m' t buf (n * 16) s' = some data) ↔
    n = 0 ∨ (s.decorr = s'.decorr ∧ (s.split = s'.split ∨ n = 1)) := by
  rw [← enc2_same m.endian s s' n]
  have key : ∀ data out buf : Buf, data.length = n * 16 → out.length = n * 16 → buf.length = n * 16 →
      ((∃ t, Bc2.transformWithSettings m data out (n * 16) s = some t ∧ Bc2.untransformWithSettings m' t buf (n * 16) s' = some data) ↔
        Bc2.encode m.endian s data = Bc2.encode m.endian s' data) := by
    intro data out buf hd ho hb
    have h8 : data.length % 16 = 0 := by omega
    obtain ⟨l1, e1⟩ := Bc2.transform_impl m s data out h8 (by omega)
    simp only [] at l1 e1
    obtain ⟨l2, e2⟩ := Bc2.untransform_impl m' s' (Bc2.encode m.endian s data) buf (by omega) (by omega)
    simp only [] at l2 e2
    rw [List.drop_eq_nil_of_le (by omega), List.append_nil, hd] at e1
    rw [List.drop_eq_nil_of_le (by omega), List.append_nil, l1, hd, hm] at e2
    rw [← restores_iff (B := 16) (fun x hx => Bc2.encode_length _ _ hx) (fun x hx => Bc2.decode_encode m.endian s' x hx)
      (fun x hx => Bc2.encode_decode m.endian s' x hx) h8]
    constructor
    · rintro ⟨t, h1, h2⟩
      rw [e1] at h1
      cases h1
      rw [e2] at h2
      exact Option.some.inj h2
    · intro h
      exact ⟨_, e1, by rw [e2, h]⟩
  constructor
  · intro h data hd
    exact (key data data data hd hd hd).1 (h data data data hd hd hd)
  · intro h data out buf hd ho hb
    exact (key data out buf hd ho hb).2 (h data hd)

/-- **C98** (BC3). -/
theorem C98_bc3 (m m' : Machine) (hm : m'.endian = m.endian) (s s' : Bc3.Settings) (n : Nat) :
    (∀ data out buf : Buf, data.length = n * 16 → out.length = n * 16 → buf.length = n * 16 →
      ∃ t, Bc3.transformWithSettings m data out (n * 16) s = some t ∧ Bc3.untransformWithSettings m' t buf (n * 16) s' = some data) ↔
    n = 0 ∨ (s.decorr = s'.decorr ∧ ((s.splitAlpha = s'.splitAlpha ∧ s.splitColour = s'.splitColour) ∨ n = 1)) := by
  rw [← enc3_same m.endian s s' n]
  have key : ∀ data out buf : Buf, data.length = n * 16 → out.length = n * 16 → buf.length = n * 16 →
      ((∃ t, Bc3.transformWithSettings m data out (n * 16) s = some t ∧ Bc3.untransformWithSettings m' t buf (n * 16) s' = some data) ↔
        Bc3.encode m.endian s data = Bc3.encode m.endian s' data) := by
    intro data out buf hd ho hb
    have h8 : data.length % 16 = 0 := by omega
    obtain ⟨l1, e1⟩ := Bc3.transform_impl m s data out h8 (by omega)
    simp only [] at l1 e1
    obtain ⟨l2, e2⟩ := Bc3.untransform_impl m' s' (Bc3.encode m.endian s data) buf (by omega) (by omega)
    simp only [] at l2 e2
    rw [List.drop_eq_nil_of_le (by omega), List.append_nil, hd] at e1
    rw [List.drop_eq_nil_of_le (by omega), List.append_nil, l1, hd, hm] at e2
    rw [← restores_iff (B := 16) (fun x hx => Bc3.encode_length _ _ hx) (fun x hx => Bc3.decode_encode m.endian s' x hx)
      (fun x hx => Bc3.encode_decode m.endian s' x hx) h8]
    constructor
    · rintro ⟨t, h1, h2⟩
      rw [e1] at h1
      cases h1
      rw [e2] at h2
      exact Option.some.inj h2
    · intro h
      exact ⟨_, e1, by rw [e2, h]⟩
  constructor
  · intro h data hd
    exact (key data data data hd hd hd).1 (h data data data hd hd hd)
  · intro h data out buf hd ho hb
    exact (key data out buf hd ho hb).2 (h data hd)

/-- Cases of both kinds: a single block does not tell the splits apart, two blocks do. -/
example : (Bc1.transformWithSettings (.other .little 0) [1, 2, 3, 4, 5, 6, 7, 8] (List.replicate 8 0) 8 ⟨.none, true⟩).bind
      (fun t => Bc1.untransformWithSettings (.other .little 0) t (List.replicate 8 0) 8 ⟨.none, false⟩) = some [1, 2, 3, 4, 5, 6, 7, 8] ∧
    (Bc1.transformWithSettings (.other .little 0) [1, 2, 3, 4, 5, 6, 7, 8, 1, 2, 3, 4, 5, 6, 7, 8] (List.replicate 16 0) 16 ⟨.none, true⟩).bind
      (fun t => Bc1.untransformWithSettings (.other .little 0) t (List.replicate 16 0) 16 ⟨.none, false⟩) =
      some [1, 2, 1, 2, 5, 6, 7, 8, 3, 4, 3, 4, 5, 6, 7, 8] := by
  refine ⟨by decide +kernel, by decide +kernel⟩

end Dlt.Props
