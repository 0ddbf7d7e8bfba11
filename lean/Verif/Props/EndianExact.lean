import Verif.Props.Endian
import Verif.Lemmas.SpecCol
import Verif.Lemmas.Normalize
/-!
# What a host of the other byte order restores: C49

Complements `Props/Endian`: with decorrelation, alphas and indices are restored and the colours are not, in general.  A file
is restored exactly if both hosts store every colour of it in the same way.
-/

namespace Dlt.Props
open Spec Norm

/-- The two bytes of a colour after decorrelation as a host of that byte order stores them. -/
def hostColour (e : Endian) (v : Variant) (bs : Buf) : Buf :=
  match e with
  | .little => colour v bs
  | .big => (colour v bs.reverse).reverse

/-- A block `b` with its colours at `o` and `o + 2`, and the block `b'` restored from it: all bytes but those of the colours are the
same, and the second host stores the restored colours as the first one has stored the original ones. -/
structure Crossed (e e' : Endian) (v : Variant) (o : Nat) (b b' : Buf) : Prop where
  before : slice b' 0 o = slice b 0 o
  first : hostColour e' v (slice b' o 2) = hostColour e v (slice b o 2)
  second : hostColour e' v (slice b' (o + 2) 2) = hostColour e v (slice b (o + 2) 2)
  after : slice b' (o + 4) 4 = slice b (o + 4) 4

/-- Both hosts store the colours of the block in the same way. -/
def SameColours (e e' : Endian) (v : Variant) (o : Nat) (b : Buf) : Prop :=
  hostColour e' v (slice b o 2) = hostColour e v (slice b o 2) ∧
    hostColour e' v (slice b (o + 2) 2) = hostColour e v (slice b (o + 2) 2)

instance (e e' : Endian) (v : Variant) (o : Nat) (b : Buf) : Decidable (SameColours e e' v o b) := by
  unfold SameColours; infer_instance

theorem hostColour_eq (e : Endian) (v : Variant) {bs : Buf} (h : bs.length = 2) : hostColour e v bs = encCol e v bs := by
  match bs, h with
  | [a, b], _ =>
    cases e with
    | little => exact (encCol_little v [a, b] rfl).symm
    | big =>
      show (colour v [b, a]).reverse = _
      rw [← encCol_little v [b, a] rfl]
      rfl

/-- The block with other colours. -/
def recolour (X : Buf → Buf) (o : Nat) (b : Buf) : Buf :=
  slice b 0 o ++ (X (slice b o 2) ++ (X (slice b (o + 2) 2) ++ slice b (o + 4) 4))

theorem two_bytes {l : Buf} (h : l.length = 2) : ∃ a b, l = [a, b] := by
  match l, h with
  | [a, b], _ => exact ⟨a, b, rfl⟩

theorem columns_map {B n : Nat} {data : Buf} (hB : 0 < B) (hd : data.length = n * B) {F : Buf → Buf}
    (hF : ∀ b : Buf, b.length = B → (F b).length = B) {fs gs : List (Buf → Buf)}
    (h : ∀ b : Buf, b.length = B → fs.map (fun f => f (F b)) = gs.map (fun f => f b)) :
    columns B fs (mapBlocks B F data n) = columns B gs data := by
  induction fs generalizing gs with
  | nil =>
    cases gs with
    | nil => rfl
    | cons g gs => exact absurd (h (List.replicate B 0) (by simp)) (by simp)
  | cons f fs ih =>
    cases gs with
    | nil => exact absurd (h (List.replicate B 0) (by simp)) (by simp)
    | cons g gs =>
      have ih := ih (gs := gs) (fun b hb => (List.cons.injEq _ _ _ _ ▸ h b hb).2)
      unfold columns at ih ⊢
      rw [List.flatMap_cons, List.flatMap_cons, ih]
      congr 1
      unfold column
      rw [length_div hB (mapBlocks_length hF (by omega)), length_div hB hd]
      apply flatMap_congr_range
      intro i hi
      have := block_mapBlocks (tail := []) hF (show n * B ≤ data.length by omega) hi
      rw [List.append_nil] at this
      rw [this]
      exact (List.cons.injEq _ _ _ _ ▸ h _ (block_length hd hi)).1

/-- The colour that the second host makes of what the first one stores. -/
def crossCol (e e' : Endian) (v : Variant) (c : Buf) : Buf := decCol e' v (encCol e v c)

theorem encCol_crossCol (e e' : Endian) (v : Variant) (c : Buf) : encCol e' v (crossCol e e' v c) = encCol e v c :=
  encCol_decCol e' v (encCol_length _ _ _)

theorem crossCol_eq {e e' : Endian} {v : Variant} {c : Buf} (hc : c.length = 2)
    (h : hostColour e' v c = hostColour e v c) : crossCol e e' v c = c := by
  rw [hostColour_eq _ _ hc, hostColour_eq _ _ hc] at h
  rw [crossCol, ← h, decCol_encCol _ _ hc]

section
variable {e e' : Endian} {v : Variant} {o : Nat} {b : Buf}

theorem recolour_length {X : Buf → Buf} (hX : ∀ c, (X c).length = 2) (hb : b.length = o + 8) :
    (recolour X o b).length = o + 8 := by
  simp only [recolour, List.length_append, hX]
  rw [slice_length_of_le (by omega), slice_length_of_le (by omega)]

theorem slice_recolour_before {X : Buf → Buf} (hb : b.length = o + 8) {k w : Nat} (h : k + w ≤ o) :
    slice (recolour X o b) k w = slice b k w := by
  have hl : (slice b 0 o).length = o := slice_length_of_le (by omega)
  rw [recolour, slice_append_left _ _ _ _ (by omega)]
  simp only [slice, List.drop_zero]
  rw [List.drop_take, List.take_take, Nat.min_eq_left (by omega)]

theorem slice_recolour_first {X : Buf → Buf} (hX : ∀ c, (X c).length = 2) (hb : b.length = o + 8) :
    slice (recolour X o b) o 2 = X (slice b o 2) := by
  have hl : (slice b 0 o).length = o := slice_length_of_le (by omega)
  rw [recolour, slice, List.drop_left' hl, List.take_left' (hX _)]

theorem slice_recolour_second {X : Buf → Buf} (hX : ∀ c, (X c).length = 2) (hb : b.length = o + 8) :
    slice (recolour X o b) (o + 2) 2 = X (slice b (o + 2) 2) := by
  have hl : (slice b 0 o).length = o := slice_length_of_le (by omega)
  rw [recolour, slice, ← List.drop_drop, List.drop_left' hl, List.drop_left' (hX _), List.take_left' (hX _)]

theorem slice_recolour_after {X : Buf → Buf} (hX : ∀ c, (X c).length = 2) (hb : b.length = o + 8) :
    slice (recolour X o b) (o + 4) 4 = slice b (o + 4) 4 := by
  have hl : (slice b 0 o).length = o := slice_length_of_le (by omega)
  rw [recolour, slice, show o + 4 = o + 2 + 2 by omega, ← List.drop_drop, ← List.drop_drop, List.drop_left' hl,
    List.drop_left' (hX _), List.drop_left' (hX _), List.take_of_length_le]
  rw [slice_length_of_le (by omega)]

theorem crossed_recolour (hb : b.length = o + 8) : Crossed e e' v o b (recolour (crossCol e e' v) o b) := by
  have hX : ∀ c, (crossCol e e' v c).length = 2 := fun c => decCol_length _ _ _
  have h1 : (slice b o 2).length = 2 := slice_length_of_le (by omega)
  have h2 : (slice b (o + 2) 2).length = 2 := slice_length_of_le (by omega)
  refine ⟨slice_recolour_before hb (by omega), ?_, ?_, slice_recolour_after hX hb⟩
  · rw [slice_recolour_first hX hb, hostColour_eq _ _ (hX _), encCol_crossCol, hostColour_eq _ _ h1]
  · rw [slice_recolour_second hX hb, hostColour_eq _ _ (hX _), encCol_crossCol, hostColour_eq _ _ h2]

theorem recolour_same (hb : b.length = o + 8) (h : SameColours e e' v o b) : recolour (crossCol e e' v) o b = b := by
  rw [recolour, crossCol_eq (slice_length_of_le (by omega)) h.1, crossCol_eq (slice_length_of_le (by omega)) h.2]
  simp only [slice, List.drop_zero]
  rw [show o + 4 = o + 2 + 2 by omega, ← List.drop_drop (l := b) (i := 2) (j := o + 2),
    List.take_of_length_le (l := (b.drop (o + 2)).drop 2) (by simp only [List.length_drop]; omega), List.take_append_drop,
    ← List.drop_drop, List.take_append_drop, List.take_append_drop]

end

/-- The claim from the equation for the whole data. -/
theorem crossed_of {B o : Nat} (hB : B = o + 8) {F G : Buf → Buf → Nat → Option Buf} {f g : Buf → Buf}
    (hF : Implements B F f) (hG : Implements B G g) {e e' : Endian} {v : Variant} {data out out' : Buf} {n : Nat}
    (hd : data.length = n * B) (hgf : g (f data) = mapBlocks B (recolour (crossCol e e' v) o) data n)
    (ho : data.length ≤ out.length) (ho' : data.length ≤ out'.length) :
    ∃ t r, F data out data.length = some t ∧ G (t.take data.length) out' data.length = some r ∧
      (∀ i, i < data.length / B → Crossed e e' v o (block B data i) (block B r i)) ∧
      (r.take data.length = data ↔ ∀ i, i < data.length / B → SameColours e e' v o (block B data i)) := by
  have hB0 : 0 < B := by omega
  have hX : ∀ c, (crossCol e e' v c).length = 2 := fun c => decCol_length _ _ _
  have hR : ∀ b : Buf, b.length = B → (recolour (crossCol e e' v) o b).length = B := fun b hb => by
    rw [hB] at hb ⊢; exact recolour_length hX hb
  have hmod : data.length % B = 0 := by rw [hd]; exact Nat.mul_mod_left _ _
  obtain ⟨hl, hf⟩ := hF data out hmod ho
  have hg := (hG (f data) out' (by rw [hl]; exact hmod) (by rw [hl]; exact ho')).2
  rw [hgf, hl] at hg
  have hml := mapBlocks_length hR (show n * B ≤ data.length by omega)
  have hn := length_div hB0 hd
  refine ⟨_, _, hf, by rw [List.take_left' hl]; exact hg, fun i hi => ?_, fun h i hi => ?_, fun h => ?_⟩
  · rw [block_mapBlocks hR (by omega) (by omega)]
    exact crossed_recolour (by rw [← hB]; exact block_length hd (by omega))
  · rw [List.take_left' (by omega)] at h
    have hc := crossed_recolour (e := e) (e' := e') (v := v) (b := block B data i)
      (by rw [← hB]; exact block_length hd (by omega : i < n))
    have hbk := block_mapBlocks (tail := []) hR (show n * B ≤ data.length by omega) (by omega : i < n)
    rw [List.append_nil, h] at hbk
    rw [← hbk] at hc
    exact ⟨hc.first, hc.second⟩
  · rw [List.take_left' (by omega)]
    have : mapBlocks B (recolour (crossCol e e' v) o) data n = mapBlocks B id data n :=
      mapBlocks_congr fun i hi => recolour_same (by rw [← hB]; exact block_length hd hi) (h i (by omega))
    rw [this, mapBlocks_id (by omega), ← hd, List.take_length]

/-- **C49**, exact for BC1: what the second host restores, and when that is the original data. -/
theorem C49_bc1_exact (m m' : Machine) (s : ColourSettings) (data out out' : Buf)
    (h8 : data.length % 8 = 0) (ho : data.length ≤ out.length) (ho' : data.length ≤ out'.length) :
    ∃ t r, Bc1.transformWithSettings m data out data.length s = some t ∧
      Bc1.untransformWithSettings m' (t.take data.length) out' data.length s = some r ∧
      (∀ i, i < data.length / 8 → Crossed m.endian m'.endian s.decorr 0 (block 8 data i) (block 8 r i)) ∧
      (r.take data.length = data ↔
        ∀ i, i < data.length / 8 → SameColours m.endian m'.endian s.decorr 0 (block 8 data i)) := by
  obtain ⟨n, hd⟩ : ∃ n, data.length = n * 8 := ⟨data.length / 8, by omega⟩
  have hX : ∀ c, (crossCol m.endian m'.endian s.decorr c).length = 2 := fun c => decCol_length _ _ _
  have hR : ∀ b : Buf, b.length = 8 → (recolour (crossCol m.endian m'.endian s.decorr) 0 b).length = 8 :=
    fun b hb => recolour_length (o := 0) hX hb
  refine crossed_of (o := 0) rfl (Bc1.transform_impl m s) (Bc1.untransform_impl m' s) hd ?_ ho ho'
  have hml := mapBlocks_length hR (show n * 8 ≤ data.length by omega)
  rw [← Bc1.decode_encode m'.endian s (mapBlocks 8 (recolour (crossCol m.endian m'.endian s.decorr) 0) data n) (by omega)]
  congr 1
  refine (columns_map (by omega) hd hR fun b hb => ?_).symm
  have h0 := slice_recolour_first (o := 0) hX hb
  have h1 := slice_recolour_second (o := 0) hX hb
  have h2 := slice_recolour_after (o := 0) hX hb
  simp only [Nat.zero_add] at h1 h2
  cases s.split <;> simp [bc1Fields, h0, h1, h2, encCol_crossCol]

/-- **C49**, exact for BC2. -/
theorem C49_bc2_exact (m m' : Machine) (s : ColourSettings) (data out out' : Buf)
    (h16 : data.length % 16 = 0) (ho : data.length ≤ out.length) (ho' : data.length ≤ out'.length) :
    ∃ t r, Bc2.transformWithSettings m data out data.length s = some t ∧
      Bc2.untransformWithSettings m' (t.take data.length) out' data.length s = some r ∧
      (∀ i, i < data.length / 16 → Crossed m.endian m'.endian s.decorr 8 (block 16 data i) (block 16 r i)) ∧
      (r.take data.length = data ↔
        ∀ i, i < data.length / 16 → SameColours m.endian m'.endian s.decorr 8 (block 16 data i)) := by
  obtain ⟨n, hd⟩ : ∃ n, data.length = n * 16 := ⟨data.length / 16, by omega⟩
  have hX : ∀ c, (crossCol m.endian m'.endian s.decorr c).length = 2 := fun c => decCol_length _ _ _
  have hR : ∀ b : Buf, b.length = 16 → (recolour (crossCol m.endian m'.endian s.decorr) 8 b).length = 16 :=
    fun b hb => recolour_length (o := 8) hX hb
  refine crossed_of (o := 8) rfl (Bc2.transform_impl m s) (Bc2.untransform_impl m' s) hd ?_ ho ho'
  have hml := mapBlocks_length hR (show n * 16 ≤ data.length by omega)
  rw [← Bc2.decode_encode m'.endian s (mapBlocks 16 (recolour (crossCol m.endian m'.endian s.decorr) 8) data n) (by omega)]
  congr 1
  refine (columns_map (by omega) hd hR fun b hb => ?_).symm
  have h0 := slice_recolour_first (o := 8) hX hb
  have h1 := slice_recolour_second (o := 8) hX hb
  have h2 := slice_recolour_after (o := 8) hX hb
  have h3 := slice_recolour_before (X := crossCol m.endian m'.endian s.decorr) (o := 8) hb (k := 0) (w := 8) (by omega)
  simp only [Nat.reduceAdd] at h1 h2
  cases s.split <;> simp [bc2Fields, h0, h1, h2, h3, encCol_crossCol]

/-- **C49**, exact for BC3. -/
theorem C49_bc3_exact (m m' : Machine) (s : Bc3.Settings) (data out out' : Buf)
    (h16 : data.length % 16 = 0) (ho : data.length ≤ out.length) (ho' : data.length ≤ out'.length) :
    ∃ t r, Bc3.transformWithSettings m data out data.length s = some t ∧
      Bc3.untransformWithSettings m' (t.take data.length) out' data.length s = some r ∧
      (∀ i, i < data.length / 16 → Crossed m.endian m'.endian s.decorr 8 (block 16 data i) (block 16 r i)) ∧
      (r.take data.length = data ↔
        ∀ i, i < data.length / 16 → SameColours m.endian m'.endian s.decorr 8 (block 16 data i)) := by
  obtain ⟨n, hd⟩ : ∃ n, data.length = n * 16 := ⟨data.length / 16, by omega⟩
  have hX : ∀ c, (crossCol m.endian m'.endian s.decorr c).length = 2 := fun c => decCol_length _ _ _
  have hR : ∀ b : Buf, b.length = 16 → (recolour (crossCol m.endian m'.endian s.decorr) 8 b).length = 16 :=
    fun b hb => recolour_length (o := 8) hX hb
  refine crossed_of (o := 8) rfl (Bc3.transform_impl m s) (Bc3.untransform_impl m' s) hd ?_ ho ho'
  have hml := mapBlocks_length hR (show n * 16 ≤ data.length by omega)
  rw [← Bc3.decode_encode m'.endian s (mapBlocks 16 (recolour (crossCol m.endian m'.endian s.decorr) 8) data n) (by omega)]
  congr 1
  refine (columns_map (by omega) hd hR fun b hb => ?_).symm
  have h0 := slice_recolour_first (o := 8) hX hb
  have h1 := slice_recolour_second (o := 8) hX hb
  have h2 := slice_recolour_after (o := 8) hX hb
  have hb' : ∀ k w, k + w ≤ 8 → slice (recolour (crossCol m.endian m'.endian s.decorr) 8 b) k w = slice b k w :=
    fun k w h => slice_recolour_before hb h
  have h3 := hb' 0 1 (by omega)
  have h4 := hb' 1 1 (by omega)
  have h5 := hb' 0 2 (by omega)
  have h6 := hb' 2 6 (by omega)
  simp only [Nat.reduceAdd] at h1 h2
  cases s.splitAlpha <;> cases s.splitColour <;> simp [bc3Fields, h0, h1, h2, h3, h4, h5, h6, encCol_crossCol]

/-- Black is stored in the same way by both kinds of host, a colour with blue only is not. -/
example : SameColours .little .big .v1 0 [0, 0, 0, 0, 1, 2, 3, 4] ∧
    ¬ SameColours .little .big .v1 0 [0x1F, 0, 0, 0, 4, 5, 6, 7] := by decide

/-! ## The layout on hosts of either byte order -/

/-- **C05** on every host: the layout with the colours as the host stores them. -/
theorem C05_bc1_layout_host (m : Machine) (s : ColourSettings) (data out : Buf) (h8 : data.length % 8 = 0)
    (ho : data.length ≤ out.length) :
    Bc1.transformWithSettings m data out data.length s =
      some (columns 8 (bc1Fields (hostColour m.endian s.decorr) s.split) data ++ out.drop data.length) := by
  obtain ⟨n, hn⟩ : ∃ n, data.length = n * 8 := ⟨data.length / 8, by omega⟩
  rw [hn, Bc1.transform_eq m s hn (by omega)]
  congr 2
  apply columns_congr (by omega) hn
  intro b hb
  have h0 := hostColour_eq m.endian s.decorr (bs := slice b 0 2) (slice_length_of_le (by omega))
  have h1 := hostColour_eq m.endian s.decorr (bs := slice b 2 2) (slice_length_of_le (by omega))
  cases s.split <;> simp [bc1Fields, h0, h1]

/-- **C06** on every host. -/
theorem C06_bc2_layout_host (m : Machine) (s : ColourSettings) (data out : Buf) (h16 : data.length % 16 = 0)
    (ho : data.length ≤ out.length) :
    Bc2.transformWithSettings m data out data.length s =
      some (columns 16 (bc2Fields (hostColour m.endian s.decorr) s.split) data ++ out.drop data.length) := by
  obtain ⟨n, hn⟩ : ∃ n, data.length = n * 16 := ⟨data.length / 16, by omega⟩
  rw [hn, Bc2.transform_eq m s hn (by omega)]
  congr 2
  exact Bc2.columns_col (fun bs h => (hostColour_eq m.endian s.decorr h).symm) s.split hn

/-- **C07** on every host. -/
theorem C07_bc3_layout_host (m : Machine) (s : Bc3.Settings) (data out : Buf) (h16 : data.length % 16 = 0)
    (ho : data.length ≤ out.length) :
    Bc3.transformWithSettings m data out data.length s =
      some (columns 16 (bc3Fields (hostColour m.endian s.decorr) s.splitAlpha s.splitColour) data ++ out.drop data.length) := by
  obtain ⟨n, hn⟩ : ∃ n, data.length = n * 16 := ⟨data.length / 16, by omega⟩
  rw [hn, Bc3.transform_eq m s hn (by omega)]
  congr 2
  exact Bc3.columns_col (fun bs h => (hostColour_eq m.endian s.decorr h).symm) s.splitAlpha s.splitColour hn

/-- The same block on the two kinds of host. -/
example : columns 8 (bc1Fields (hostColour .little .v1) false) [0x1F, 0, 0, 0, 4, 5, 6, 7] = [0x41, 0xF8, 0, 0, 4, 5, 6, 7] ∧
    columns 8 (bc1Fields (hostColour .big .v1) false) [0, 0x1F, 0, 0, 4, 5, 6, 7] = [0xF8, 0x41, 0, 0, 4, 5, 6, 7] := by decide

end Dlt.Props
