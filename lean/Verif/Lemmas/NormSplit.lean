import Verif.Lemmas.NormBlock2
/-! Normalization of blocks whose fields are already separated (BC2 and BC3). -/

namespace Dlt.Norm
open Decode

/-- One section: the field at `o`, `w` bytes wide, of `n` blocks. -/
def sect (n o w : Nat) (blk : Nat → Buf) : Buf := (List.range n).flatMap fun i => slice (blk i) o w

theorem sect_length {B n o w : Nat} {blk : Nat → Buf} (hb : ∀ i, i < n → (blk i).length = B)
    (h : o + w ≤ B) : (sect n o w blk).length = n * w :=
  flatMap_range_length _ _ _ fun i hi => slice_length_of_le (by rw [hb i hi]; exact h)

theorem sect_succ (n o w : Nat) (blk : Nat → Buf) :
    sect (n + 1) o w blk = sect n o w blk ++ slice (blk n) o w := by simp [sect, List.range_succ]

theorem sect_get {B n o w i : Nat} {blk : Nat → Buf} {rest : Buf} (hb : ∀ i, i < n → (blk i).length = B)
    (h : o + w ≤ B) (hi : i < n) : slice (sect n o w blk ++ rest) (i * w) w = slice (blk i) o w := by
  have hl := sect_length hb h
  have h1 : (i + 1) * w ≤ n * w := Nat.mul_le_mul_right _ hi
  rw [Nat.succ_mul] at h1
  rw [slice_append_left _ _ _ _ (by omega)]
  have := flatMap_range_slice n w i 1 (fun i => slice (blk i) o w) (fun j hj =>
    slice_length_of_le (by rw [hb j hj]; exact h)) (by omega)
  rw [Nat.one_mul] at this
  rw [sect, this]
  simp

/-- The section while the first `m` fields are replaced. -/
def part (n m o w : Nat) (old new : Nat → Buf) (rest : Buf) : Buf :=
  put (sect n o w old ++ rest) 0 (sect m o w new)

section
variable {B n m o w : Nat} {old new : Nat → Buf} {rest : Buf}

theorem part_zero : part n 0 o w old new rest = sect n o w old ++ rest := by simp [part, sect, put_nil]

theorem part_full (ho : ∀ i, i < n → (old i).length = B) (hn : ∀ i, i < n → (new i).length = B)
    (h : o + w ≤ B) : part n n o w old new rest = sect n o w new ++ rest := by
  have h1 := sect_length ho h
  have h2 := sect_length hn h
  rw [part, put, List.take_zero, List.nil_append, Nat.zero_add, List.drop_left' (by omega)]

theorem part_length (ho : ∀ i, i < n → (old i).length = B) (hn : ∀ i, i < n → (new i).length = B)
    (h : o + w ≤ B) (hm : m ≤ n) : (part n m o w old new rest).length = n * w + rest.length := by
  have h1 := sect_length ho h
  have h2 := sect_length (n := m) (fun i hi => hn i (by omega)) h
  have h3 : m * w ≤ n * w := Nat.mul_le_mul_right _ hm
  rw [part, put_length (by rw [List.length_append]; omega), List.length_append, h1]

theorem part_get (ho : ∀ i, i < n → (old i).length = B) (hn : ∀ i, i < n → (new i).length = B)
    (h : o + w ≤ B) (hm : m < n) : slice (part n m o w old new rest) (m * w) w = slice (old m) o w := by
  have h1 := sect_length ho h
  have h2 := sect_length (n := m) (fun i hi => hn i (by omega)) h
  have h3 : m * w ≤ n * w := Nat.mul_le_mul_right _ (by omega)
  rw [part, slice_put_ne (by rw [List.length_append]; omega) (by omega), sect_get ho h hm]

theorem part_put (ho : ∀ i, i < n → (old i).length = B) (hn : ∀ i, i < n → (new i).length = B)
    (h : o + w ≤ B) (hm : m < n) :
    put (part n m o w old new rest) (m * w) (slice (new m) o w) = part n (m + 1) o w old new rest := by
  have h1 := sect_length ho h
  have h2 := sect_length (n := m) (fun i hi => hn i (by omega)) h
  have h3 : (m + 1) * w ≤ n * w := Nat.mul_le_mul_right _ hm
  rw [Nat.succ_mul] at h3
  rw [part, put_behind (by omega) (by
    rw [List.length_append, slice_length_of_le (by rw [hn m hm]; exact h)]; omega), ← sect_succ]
  rfl

/-- Keeping a field is storing it. -/
theorem part_keep (ho : ∀ i, i < n → (old i).length = B) (hn : ∀ i, i < n → (new i).length = B)
    (h : o + w ≤ B) (hm : m < n) (he : slice (new m) o w = slice (old m) o w) :
    part n m o w old new rest = part n (m + 1) o w old new rest := by
  rw [← part_put ho hn h hm, he, ← part_get ho hn h hm, put_self]
  have h3 : (m + 1) * w ≤ n * w := Nat.mul_le_mul_right _ hm
  rw [Nat.succ_mul] at h3
  rw [part_length ho hn h (by omega)]
  omega

end

theorem st8_four_k {β : Type} (b : Buf) (p : Nat) (x0 x1 x2 x3 : Byte) (k : Buf → Option β) :
    ((st8 b p x0).bind fun d => (st8 d (p + 1) x1).bind fun d => (st8 d (p + 2) x2).bind fun d =>
      (st8 d (p + 3) x3).bind k) = (st b p [x0, x1, x2, x3]).bind k := by
  rw [← st8_four]
  simp only [Option.bind_assoc]

/-- The eight single stores of a normalized colour block, in two sections. -/
theorem eight_sep {β : Type} (c : Buf) (cp : Nat) (x : Buf) (xp : Nat) (a0 a1 a2 a3 : Byte)
    (k : Buf → Buf → Option β) (hc : cp + 4 ≤ c.length) (hx : xp + 4 ≤ x.length) :
    ((st8 c cp a0).bind fun c => (st8 c (cp + 1) a1).bind fun c => (st8 c (cp + 2) a2).bind fun c =>
      (st8 c (cp + 3) a3).bind fun c =>
      (st8 x xp 0).bind fun x => (st8 x (xp + 1) 0).bind fun x => (st8 x (xp + 2) 0).bind fun x =>
      (st8 x (xp + 3) 0).bind fun x => k c x) =
      k (put c cp [a0, a1, a2, a3]) (put x xp [0, 0, 0, 0]) := by
  rw [st8_four_k, st_put (by simpa using hc), Option.bind_some, st8_four_k,
    st_put (by simpa using hx), Option.bind_some]

theorem solid_parts (mode : Mode) (c : U16) : (solidBytes mode c).drop 4 = [0, 0, 0, 0] := by
  cases mode <;> rfl

/-! ## BC2 -/

namespace Bc2

theorem splitBody_eq {mode : Mode} (hm : mode ≠ .none) {alpha colors indices b : Buf} {ap cp xp : Nat}
    (ha : ap + 8 ≤ alpha.length) (hc : cp + 4 ≤ colors.length) (hx : xp + 4 ≤ indices.length)
    (hb : b = slice alpha ap 8 ++ slice colors cp 4 ++ slice indices xp 4) :
    splitBody mode alpha ap colors cp indices xp =
      some (put colors cp (slice (norm mode b) 8 4), put indices xp (slice (norm mode b) 12 4)) := by
  have la : (slice alpha ap 8).length = 8 := slice_length_of_le ha
  have lc : (slice colors cp 4).length = 4 := slice_length_of_le hc
  have lx : (slice indices xp 4).length = 4 := slice_length_of_le hx
  have lb : b.length = 16 := by rw [hb]; simp [la, lc, lx]
  have e1 : st (List.replicate 16 (0 : Byte)) 0 (slice alpha ap 8) =
      some (slice alpha ap 8 ++ List.replicate 8 0) := by
    rw [st_put (by simp [la]), put, la]; rfl
  have e2 : st (slice alpha ap 8 ++ List.replicate 8 (0 : Byte)) 8 (slice colors cp 4) =
      some (slice alpha ap 8 ++ slice colors cp 4 ++ List.replicate 4 0) := by
    rw [st_put (by simp [la, lc]), put_append la.symm, lc]; rfl
  have e3 : st (slice alpha ap 8 ++ slice colors cp 4 ++ List.replicate 4 (0 : Byte)) 12
      (slice indices xp 4) = some b := by
    rw [st_put (by simp [la, lc, lx]), put_append (by simp [la, lc]), lx, hb]; simp
  have e4 := bc2_at (b := b) (p := 0) (by omega)
  rw [slice_all lb] at e4
  have h8 : (b.take 8).length = 8 := by simp [lb]
  have n8 : slice (norm mode b) 8 4 = (colour (kind (pix2 b)) mode (b.drop 8)).take 4 := by
    rw [norm, write, slice_append_right _ _ _ 0 _ (by omega)]; simp [slice]
  have n12 : slice (norm mode b) 12 4 = (colour (kind (pix2 b)) mode (b.drop 8)).drop 4 := by
    have := colour_length (kind (pix2 b)) mode (b.drop 8) (by simp [lb])
    rw [norm, write, slice_append_right _ _ _ 4 _ (by omega), slice, List.take_of_length_le (by simp [this])]
  have b8 : (b.drop 8).take 4 = slice colors cp 4 := by
    rw [hb, List.append_assoc, List.drop_left' la, List.take_left' lc]
  have b12 : (b.drop 8).drop 4 = slice indices xp 4 := by
    rw [hb, List.append_assoc, List.drop_left' la, List.drop_left' lc]
  unfold splitBody
  rw [ld_some ha, ld_some hc, ld_some hx]
  simp only [Option.bind_eq_bind, Option.bind_some, e1, e2, e3, e4, classify_eq]
  rw [n8, n12]
  rcases kind (pix2 b) with ⟨t, c⟩
  cases t
  · have e : colour (false, c) mode (b.drop 8) = b.drop 8 := by simp [colour]
    rw [e, b8, b12, put_self hc, put_self hx]
    rfl
  · have e : colour (true, c) mode (b.drop 8) = solidBytes mode c := by simp [colour, hm]
    rw [e]
    cases mode with
    | none => exact absurd rfl hm
    | color0Only => exact eight_sep colors cp indices xp _ _ _ _ (fun c x => some (c, x)) hc hx
    | replicate => exact eight_sep colors cp indices xp _ _ _ _ (fun c x => some (c, x)) hc hx

/-- **`normalize_split_blocks_in_place` (BC2)**: the separated fields of the normalized blocks. -/
theorem normalizeSplit_eq (mode : Mode) (n : Nat) (blk : Nat → Buf) (hb : ∀ i, i < n → (blk i).length = 16)
    (ra rc rx : Buf) :
    normalizeSplit mode (sect n 0 8 blk ++ ra) n (sect n 8 4 blk ++ rc) (sect n 12 4 blk ++ rx) =
      some (sect n 8 4 (fun i => norm mode (blk i)) ++ rc, sect n 12 4 (fun i => norm mode (blk i)) ++ rx) := by
  have hn : ∀ i, i < n → (norm mode (blk i)).length = 16 := fun i hi => norm_length mode _ (hb i hi)
  by_cases hm : mode = .none
  · have e : ∀ i, i < n → norm mode (blk i) = blk i := fun i _ => by simp [norm, write, colour, hm]
    have e8 : ∀ o w, sect n o w (fun i => norm mode (blk i)) = sect n o w blk := fun o w =>
      flatMap_congr_range fun i hi => by dsimp only; rw [e i hi]
    rw [e8, e8]
    cases n with
    | zero => rfl
    | succ n => rw [normalizeSplit, if_pos hm]
  · have H : ∀ m, m ≤ n → normalizeSplit mode (sect n 0 8 blk ++ ra) m (sect n 8 4 blk ++ rc)
        (sect n 12 4 blk ++ rx) =
        some (part n m 8 4 blk (fun i => norm mode (blk i)) rc,
          part n m 12 4 blk (fun i => norm mode (blk i)) rx) := by
      intro m
      induction m with
      | zero => intro _; rw [normalizeSplit, part_zero, part_zero]
      | succ m ih =>
        intro hmn
        have l1 := part_length (rest := rc) (o := 8) (w := 4) (m := m) hb hn (by omega) (by omega)
        have l2 := part_length (rest := rx) (o := 12) (w := 4) (m := m) hb hn (by omega) (by omega)
        have l3 : (sect n 0 8 blk ++ ra).length = n * 8 + ra.length := by
          rw [List.length_append, sect_length hb (by omega)]
        rw [normalizeSplit, if_neg hm, ih (by omega)]
        simp only [Option.bind_eq_bind, Option.bind_some]
        rw [splitBody_eq hm (b := blk m) (by omega) (by omega) (by omega),
          part_put hb hn (by omega) (by omega), part_put hb hn (by omega) (by omega)]
        rw [sect_get hb (by omega) (by omega), part_get hb hn (by omega) (by omega),
          part_get hb hn (by omega) (by omega), slice_append_slice, slice_append_slice,
          slice_all (hb m (by omega))]
    rw [H n (Nat.le_refl _), part_full hb hn (by omega), part_full hb hn (by omega)]

end Bc2

/-! ## BC3 -/

namespace Bc3

theorem alphaInPlace_eq {am : AlphaMode} (hm : am ≠ .none) {ae ai : Buf} {ep ip : Nat} (a : Byte)
    (he : ep + 2 ≤ ae.length) (hi : ip + 6 ≤ ai.length) :
    alphaInPlace am ae ep ai ip a =
      some (put ae ep ((alphaBytes am a).take 2), put ai ip ((alphaBytes am a).drop 2)) := by
  have hu : uniformInPlace ae ep ai ip a = some (put ae ep [a, 0], put ai ip [0, 0, 0, 0, 0, 0]) := by
    have e : uniformInPlace ae ep ai ip a = (st ae ep [a, 0]).bind fun ae =>
        (fill ai ip 0 6).bind fun ai => some (ae, ai) := by
      rw [← st8_two, Option.bind_assoc]; rfl
    rw [e, st_put (by simpa using he), Option.bind_some, fill, st_put (by simpa using hi)]
    rfl
  cases am with
  | none => exact absurd rfl hm
  | uniformAlphaZeroIndices => exact hu
  | opaqueFillAll =>
    unfold alphaInPlace alphaBytes
    dsimp only
    split
    · rw [fill, st_put (by simpa using he), fill, st_put (by simpa using hi)]
      rfl
    · exact hu
  | opaqueZeroAlphaMaxIndices =>
    unfold alphaInPlace alphaBytes
    dsimp only
    split
    · have e : (st8 ae ep 0).bind (fun ae => (st8 ae (ep + 1) 0).bind fun ae =>
          (fill ai ip 0xFF 6).bind fun ai => some (ae, ai)) = (st ae ep [0, 0]).bind fun ae =>
        (fill ai ip 0xFF 6).bind fun ai => some (ae, ai) := by
        rw [← st8_two, Option.bind_assoc]
      refine e.trans ?_
      rw [st_put (by simpa using he), Option.bind_some, fill, st_put (by simpa using hi)]
      rfl
    · exact hu

theorem colourInPlace_eq {cm : Mode} (hm : cm ≠ .none) {ce ci : Buf} {cp xp : Nat} (c : U16)
    (hc : cp + 4 ≤ ce.length) (hx : xp + 4 ≤ ci.length) :
    colourInPlace cm ce cp ci xp c =
      some (put ce cp ((solidBytes cm c).take 4), put ci xp ((solidBytes cm c).drop 4)) := by
  cases cm with
  | none => exact absurd rfl hm
  | color0Only => exact eight_sep ce cp ci xp _ _ _ _ (fun c x => some (c, x)) hc hx
  | replicate => exact eight_sep ce cp ci xp _ _ _ _ (fun c x => some (c, x)) hc hx

/-- The block made up of the fields number `i`. -/
def Sections.block (t : Sections) (i : Nat) : Buf :=
  slice t.ae (i * 2) 2 ++ slice t.ai (i * 6) 6 ++ slice t.ce (i * 4) 4 ++ slice t.ci (i * 4) 4

theorem to565_opaque (p : Color8888) : (⟨p.r, p.g, p.b, 255⟩ : Color8888).to565Lossy = p.to565Lossy := rfl

theorem lossy_opaque (c : U16) (p : Color8888) : Color565.to8888Lossy c = ⟨p.r, p.g, p.b, 255⟩ ↔
    (Color565.to8888Lossy c).withoutAlpha = p.withoutAlpha := by
  simp [Color565.to8888Lossy, Color8888.withoutAlpha]

theorem splitBody_eq (am : AlphaMode) (cm : Mode) {i : Nat} {t : Sections}
    (h1 : i * 2 + 2 ≤ t.ae.length) (h2 : i * 6 + 6 ≤ t.ai.length) (h3 : i * 4 + 4 ≤ t.ce.length)
    (h4 : i * 4 + 4 ≤ t.ci.length) :
    splitBody am cm i t = some
      ⟨put t.ae (i * 2) (slice (norm am cm (t.block i)) 0 2), put t.ai (i * 6) (slice (norm am cm (t.block i)) 2 6),
       put t.ce (i * 4) (slice (norm am cm (t.block i)) 8 4), put t.ci (i * 4) (slice (norm am cm (t.block i)) 12 4)⟩ := by
  have l1 : (slice t.ae (i * 2) 2).length = 2 := slice_length_of_le h1
  have l2 : (slice t.ai (i * 6) 6).length = 6 := slice_length_of_le h2
  have l3 : (slice t.ce (i * 4) 4).length = 4 := slice_length_of_le h3
  have l4 : (slice t.ci (i * 4) 4).length = 4 := slice_length_of_le h4
  have lb : (t.block i).length = 16 := by simp [Sections.block, l1, l2, l3, l4]
  have e1 : st (List.replicate 16 (0 : Byte)) 0 (slice t.ae (i * 2) 2) =
      some (slice t.ae (i * 2) 2 ++ List.replicate 14 0) := by
    rw [st_put (by simp [l1]), put, l1]; rfl
  have e2 : st (slice t.ae (i * 2) 2 ++ List.replicate 14 (0 : Byte)) 2 (slice t.ai (i * 6) 6) =
      some (slice t.ae (i * 2) 2 ++ slice t.ai (i * 6) 6 ++ List.replicate 8 0) := by
    rw [st_put (by simp [l1, l2]), put_append l1.symm, l2]; rfl
  have e3 : st (slice t.ae (i * 2) 2 ++ slice t.ai (i * 6) 6 ++ List.replicate 8 (0 : Byte)) 8
      (slice t.ce (i * 4) 4) = some (slice t.ae (i * 2) 2 ++ slice t.ai (i * 6) 6 ++ slice t.ce (i * 4) 4 ++
        List.replicate 4 0) := by
    rw [st_put (by simp [l1, l2, l3]), put_append (by simp [l1, l2]), l3]; rfl
  have e4 : st (slice t.ae (i * 2) 2 ++ slice t.ai (i * 6) 6 ++ slice t.ce (i * 4) 4 ++
        List.replicate 4 (0 : Byte)) 12 (slice t.ci (i * 4) 4) = some (t.block i) := by
    rw [st_put (by simp [l1, l2, l3, l4]), put_append (by simp [l1, l2, l3]), l4, Sections.block]; simp
  have e5 := bc3_at (b := t.block i) (p := 0) (by omega)
  rw [slice_all lb] at e5
  have h8 : ((t.block i).take 8).length = 8 := by simp [lb]
  have hal := alpha_length (kind (pix3 (t.block i))) am _ h8
  have n0 : slice (norm am cm (t.block i)) 0 2 = (alpha (kind (pix3 (t.block i))) am ((t.block i).take 8)).take 2 := by
    rw [norm, write, slice_append_left _ _ _ _ (by omega)]; simp [slice]
  have n2 : slice (norm am cm (t.block i)) 2 6 = (alpha (kind (pix3 (t.block i))) am ((t.block i).take 8)).drop 2 := by
    rw [norm, write, slice_append_left _ _ _ _ (by omega), slice, List.take_of_length_le (by simp [hal])]
  have n8 : slice (norm am cm (t.block i)) 8 4 = (Bc2.colour ((kind (pix3 (t.block i))).solid,
      (kind (pix3 (t.block i))).color) cm ((t.block i).drop 8)).take 4 := by
    rw [norm, write, slice_append_right _ _ _ 0 _ (by omega)]; simp [slice]
  have n12 : slice (norm am cm (t.block i)) 12 4 = (Bc2.colour ((kind (pix3 (t.block i))).solid,
      (kind (pix3 (t.block i))).color) cm ((t.block i).drop 8)).drop 4 := by
    have := Bc2.colour_length ((kind (pix3 (t.block i))).solid, (kind (pix3 (t.block i))).color) cm
      ((t.block i).drop 8) (by simp [lb])
    rw [norm, write, slice_append_right _ _ _ 4 _ (by omega), slice, List.take_of_length_le (by simp [this])]
  have b0 : ((t.block i).take 8).take 2 = slice t.ae (i * 2) 2 := by
    rw [List.take_take, Sections.block, List.append_assoc, List.append_assoc]; exact List.take_left' l1
  have b2 : ((t.block i).take 8).drop 2 = slice t.ai (i * 6) 6 := by
    have : (t.block i).take 8 = slice t.ae (i * 2) 2 ++ slice t.ai (i * 6) 6 := by
      rw [Sections.block, List.append_assoc]; exact List.take_left' (by simp [l1, l2])
    rw [this]; exact List.drop_left' l1
  have bd : (t.block i).drop 8 = slice t.ce (i * 4) 4 ++ slice t.ci (i * 4) 4 := by
    rw [Sections.block, List.append_assoc]; exact List.drop_left' (by simp [l1, l2])
  have b8 : ((t.block i).drop 8).take 4 = slice t.ce (i * 4) 4 := by rw [bd]; exact List.take_left' l3
  have b12 : ((t.block i).drop 8).drop 4 = slice t.ci (i * 4) 4 := by rw [bd]; exact List.drop_left' l3
  rw [n0, n2, n8, n12]
  -- the two steps
  have ea : ∀ (k : Sections → Option Sections), (if am ≠ .none ∧ Const (fun k => (pix3 (t.block i) k).a) then
      (alphaInPlace am t.ae (i * 2) t.ai (i * 6) (pix3 (t.block i) 0).a).bind fun x =>
        k { t with ae := x.1, ai := x.2 } else k t) =
      k { t with ae := put t.ae (i * 2) ((alpha (kind (pix3 (t.block i))) am ((t.block i).take 8)).take 2),
                 ai := put t.ai (i * 6) ((alpha (kind (pix3 (t.block i))) am ((t.block i).take 8)).drop 2) } := by
    intro k
    by_cases hu : Const (fun k => (pix3 (t.block i) k).a)
    · by_cases ham : am = .none
      · have e : alpha (kind (pix3 (t.block i))) am ((t.block i).take 8) = (t.block i).take 8 := by
          simp [alpha, ham]
        rw [if_neg (fun h => h.1 ham), e, b0, b2, put_self h1, put_self h2]
      · have e : alpha (kind (pix3 (t.block i))) am ((t.block i).take 8) =
            alphaBytes am (pix3 (t.block i) 0).a := by
          rw [alpha, if_pos ⟨decide_eq_true hu, ham⟩]; rfl
        rw [if_pos ⟨ham, hu⟩, alphaInPlace_eq ham _ h1 h2, e]; rfl
    · have e : alpha (kind (pix3 (t.block i))) am ((t.block i).take 8) = (t.block i).take 8 := by
        rw [alpha, if_neg (fun h => hu (of_decide_eq_true h.1))]
      rw [if_neg (fun h => hu h.2), e, b0, b2, put_self h1, put_self h2]
  have ec : ∀ t' : Sections, t'.ce = t.ce → t'.ci = t.ci →
      (if cm ≠ .none ∧ Const (fun k => (pix3 (t.block i) k).withoutAlpha) then
        if (Color565.to8888Lossy (pix3 (t.block i) 0).to565Lossy).withoutAlpha =
          (pix3 (t.block i) 0).withoutAlpha then
          (colourInPlace cm t'.ce (i * 4) t'.ci (i * 4) (pix3 (t.block i) 0).to565Lossy).bind fun x =>
            some { t' with ce := x.1, ci := x.2 }
        else some t'
      else some t') = some { t' with
        ce := put t.ce (i * 4) ((Bc2.colour ((kind (pix3 (t.block i))).solid,
          (kind (pix3 (t.block i))).color) cm ((t.block i).drop 8)).take 4)
        ci := put t.ci (i * 4) ((Bc2.colour ((kind (pix3 (t.block i))).solid,
          (kind (pix3 (t.block i))).color) cm ((t.block i).drop 8)).drop 4) } := by
    intro t' g1 g2
    have keep : ¬ ((kind (pix3 (t.block i))).solid = true ∧ cm ≠ .none) → (some t' = some { t' with
        ce := put t.ce (i * 4) ((Bc2.colour ((kind (pix3 (t.block i))).solid,
          (kind (pix3 (t.block i))).color) cm ((t.block i).drop 8)).take 4)
        ci := put t.ci (i * 4) ((Bc2.colour ((kind (pix3 (t.block i))).solid,
          (kind (pix3 (t.block i))).color) cm ((t.block i).drop 8)).drop 4) }) := by
      intro h
      rw [Bc2.colour, if_neg h, b8, b12, put_self h3, put_self h4, ← g1, ← g2]
    by_cases hcm : cm = .none
    · rw [if_neg (fun h => h.1 hcm)]; exact keep (fun h => h.2 hcm)
    · by_cases hs : Const (fun k => (pix3 (t.block i) k).withoutAlpha)
      · rw [if_pos ⟨hcm, hs⟩]
        by_cases hr : (Color565.to8888Lossy (pix3 (t.block i) 0).to565Lossy).withoutAlpha =
          (pix3 (t.block i) 0).withoutAlpha
        · have hsol : (kind (pix3 (t.block i))).solid = true := by simp [kind, hs, hr]
          rw [if_pos hr, g1, g2, colourInPlace_eq hcm _ h3 h4, Bc2.colour, if_pos ⟨hsol, hcm⟩]
          rfl
        · rw [if_neg hr]
          exact keep (fun h => by simp [kind, hr] at h)
      · rw [if_neg (fun h => hs h.2)]
        exact keep (fun h => by simp [kind, hs] at h)
  unfold splitBody
  rw [ld_some h1, ld_some h2, ld_some h3, ld_some h4]
  simp only [Option.bind_eq_bind, Option.bind_some, e1, e2, e3, e4, e5, first, identicalAlpha_eq,
    identicalIgnoreAlpha_eq, decide_eq_true_eq, to565_opaque, lossy_opaque, Option.pure_def]
  have hfin := ec { t with
    ae := put t.ae (i * 2) ((alpha (kind (pix3 (t.block i))) am ((t.block i).take 8)).take 2),
    ai := put t.ai (i * 6) ((alpha (kind (pix3 (t.block i))) am ((t.block i).take 8)).drop 2) } rfl rfl
  rw [← hfin]
  exact ea (fun t' => if cm ≠ .none ∧ Const (fun k => (pix3 (t.block i) k).withoutAlpha) then
        if (Color565.to8888Lossy (pix3 (t.block i) 0).to565Lossy).withoutAlpha =
          (pix3 (t.block i) 0).withoutAlpha then
          (colourInPlace cm t'.ce (i * 4) t'.ci (i * 4) (pix3 (t.block i) 0).to565Lossy).bind fun x =>
            some { t' with ce := x.1, ci := x.2 }
        else some t'
      else some t')

/-- The sections of `n` blocks. -/
def sections (n : Nat) (blk : Nat → Buf) (r1 r2 r3 r4 : Buf) : Sections :=
  ⟨sect n 0 2 blk ++ r1, sect n 2 6 blk ++ r2, sect n 8 4 blk ++ r3, sect n 12 4 blk ++ r4⟩

/-- **`normalize_split_blocks_in_place` (BC3)**: the separated fields of the normalized blocks. -/
theorem normalizeSplit_eq (am : AlphaMode) (cm : Mode) (n : Nat) (blk : Nat → Buf)
    (hb : ∀ i, i < n → (blk i).length = 16) (r1 r2 r3 r4 : Buf) :
    normalizeSplit am cm n (sections n blk r1 r2 r3 r4) =
      some (sections n (fun i => norm am cm (blk i)) r1 r2 r3 r4) := by
  have hn : ∀ i, i < n → (norm am cm (blk i)).length = 16 := fun i hi => norm_length am cm _ (hb i hi)
  by_cases hm : am = .none ∧ cm = .none
  · have e : ∀ i, i < n → norm am cm (blk i) = blk i := fun i _ => by
      simp [norm, write, alpha, Bc2.colour, hm]
    have e8 : ∀ o w, sect n o w (fun i => norm am cm (blk i)) = sect n o w blk := fun o w =>
      flatMap_congr_range fun i hi => by dsimp only; rw [e i hi]
    rw [sections, sections, e8, e8, e8, e8]
    cases n with
    | zero => rfl
    | succ n => rw [normalizeSplit, if_pos hm]
  · have H : ∀ m, m ≤ n → normalizeSplit am cm m (sections n blk r1 r2 r3 r4) =
        some ⟨part n m 0 2 blk (fun i => norm am cm (blk i)) r1, part n m 2 6 blk (fun i => norm am cm (blk i)) r2,
          part n m 8 4 blk (fun i => norm am cm (blk i)) r3, part n m 12 4 blk (fun i => norm am cm (blk i)) r4⟩ := by
      intro m
      induction m with
      | zero => intro _; rw [normalizeSplit, part_zero, part_zero, part_zero, part_zero]; rfl
      | succ m ih =>
        intro hmn
        have l1 := part_length (rest := r1) (o := 0) (w := 2) (m := m) hb hn (by omega) (by omega)
        have l2 := part_length (rest := r2) (o := 2) (w := 6) (m := m) hb hn (by omega) (by omega)
        have l3 := part_length (rest := r3) (o := 8) (w := 4) (m := m) hb hn (by omega) (by omega)
        have l4 := part_length (rest := r4) (o := 12) (w := 4) (m := m) hb hn (by omega) (by omega)
        rw [normalizeSplit, if_neg hm, ih (by omega)]
        simp only [Option.bind_eq_bind, Option.bind_some]
        rw [splitBody_eq am cm (by dsimp only; omega) (by dsimp only; omega) (by dsimp only; omega)
          (by dsimp only; omega)]
        have hblk : Sections.block ⟨part n m 0 2 blk (fun i => norm am cm (blk i)) r1,
          part n m 2 6 blk (fun i => norm am cm (blk i)) r2, part n m 8 4 blk (fun i => norm am cm (blk i)) r3,
          part n m 12 4 blk (fun i => norm am cm (blk i)) r4⟩ m = blk m := by
          rw [Sections.block]
          dsimp only
          rw [part_get hb hn (by omega) (by omega), part_get hb hn (by omega) (by omega),
            part_get hb hn (by omega) (by omega), part_get hb hn (by omega) (by omega),
            slice_append_slice, slice_append_slice, slice_append_slice, slice_all (hb m (by omega))]
        rw [hblk]
        dsimp only
        rw [part_put hb hn (by omega) (by omega), part_put hb hn (by omega) (by omega),
          part_put hb hn (by omega) (by omega), part_put hb hn (by omega) (by omega)]
    rw [H n (Nat.le_refl _), part_full hb hn (by omega), part_full hb hn (by omega),
      part_full hb hn (by omega), part_full hb hn (by omega)]
    rfl

end Bc3

namespace Bc1

theorem normC_sect (mode : Mode) {C X : Buf} {xp n : Nat} {blk : Nat → Buf}
    (hb : ∀ i, i < n → (blk i).length = 8) (h : ∀ i, i < n → pairBlock C X xp i = blk i) :
    normC mode C X xp n = sect n 0 4 (fun i => norm mode (blk i)) ∧
    normX mode C X xp n = sect n 4 4 (fun i => norm mode (blk i)) := by
  constructor <;> apply flatMap_congr_range <;> intro i hi <;> dsimp only <;> rw [h i hi]
  · simp [slice]
  · have := norm_length mode _ (hb i hi)
    rw [slice, List.take_of_length_le (by simp [this])]

/-- `normalize_split_blocks_in_place`, the sections in separate regions. -/
theorem normalizeSplit_sep (mode : Mode) (n : Nat) (blk : Nat → Buf) (hb : ∀ i, i < n → (blk i).length = 8)
    (rc pre rx : Buf) :
    normalizeSplit mode 0 pre.length n ⟨sect n 0 4 blk ++ rc, some (pre ++ (sect n 4 4 blk ++ rx))⟩ =
      some ⟨sect n 0 4 (fun i => norm mode (blk i)) ++ rc,
        some (pre ++ (sect n 4 4 (fun i => norm mode (blk i)) ++ rx))⟩ := by
  have hn : ∀ i, i < n → (norm mode (blk i)).length = 8 := fun i hi => norm_length mode _ (hb i hi)
  by_cases hm : mode = .none
  · have e : (fun i => norm mode (blk i)) = blk := by
      funext i; simp [norm, hm]
    rw [e, normalizeSplit, if_pos hm]
  · have lc := sect_length (o := 0) (w := 4) hb (by omega)
    have lx := sect_length (o := 4) (w := 4) hb (by omega)
    have lc' := sect_length (o := 0) (w := 4) hn (by omega)
    have lx' := sect_length (o := 4) (w := 4) hn (by omega)
    have hp : ∀ i, i < n → pairBlock (sect n 0 4 blk ++ rc)
        (pre ++ (sect n 4 4 blk ++ rx)) pre.length i = blk i := by
      intro i hi
      rw [pairBlock, sect_get hb (by omega) hi,
        slice_append_right _ _ _ (i * 4) _ (by omega), sect_get hb (by omega) hi, slice_append_slice,
        slice_all (hb i hi)]
    obtain ⟨q1, q2⟩ := normC_sect mode hb hp
    rw [normalizeSplit, if_neg hm, splitLoop_sep hm n
      (by rw [List.length_append]; omega) (by simp only [List.length_append]; omega), q1, q2]
    rw [put, put_append rfl, lx', List.drop_left' lx, lc', Nat.zero_add, List.drop_left' lc]
    simp [List.append_assoc]

/-- `normalize_split_blocks_in_place`, the indices right behind the colours. -/
theorem normalizeSplit_same (mode : Mode) (n : Nat) (blk : Nat → Buf) (hb : ∀ i, i < n → (blk i).length = 8)
    (rx : Buf) :
    normalizeSplit mode 0 (n * 4) n ⟨sect n 0 4 blk ++ (sect n 4 4 blk ++ rx), none⟩ =
      some ⟨sect n 0 4 (fun i => norm mode (blk i)) ++ (sect n 4 4 (fun i => norm mode (blk i)) ++ rx), none⟩ := by
  have hn : ∀ i, i < n → (norm mode (blk i)).length = 8 := fun i hi => norm_length mode _ (hb i hi)
  by_cases hm : mode = .none
  · have e : (fun i => norm mode (blk i)) = blk := by
      funext i; simp [norm, hm]
    rw [e, normalizeSplit, if_pos hm]
  · have lc := sect_length (o := 0) (w := 4) hb (by omega)
    have lx := sect_length (o := 4) (w := 4) hb (by omega)
    have lc' := sect_length (o := 0) (w := 4) hn (by omega)
    have lx' := sect_length (o := 4) (w := 4) hn (by omega)
    have hp : ∀ i, i < n → pairBlock (sect n 0 4 blk ++ (sect n 4 4 blk ++ rx))
        (sect n 0 4 blk ++ (sect n 4 4 blk ++ rx)) (n * 4) i = blk i := by
      intro i hi
      rw [pairBlock, sect_get hb (by omega) hi,
        slice_append_right _ _ _ (i * 4) _ (by omega), sect_get hb (by omega) hi, slice_append_slice,
        slice_all (hb i hi)]
    obtain ⟨q1, q2⟩ := normC_sect mode hb hp
    rw [normalizeSplit, if_neg hm, splitLoop_same hm n (Nat.le_refl _)
      (by simp only [List.length_append]; omega), q1, q2]
    have p1 : put (sect n 0 4 blk ++ (sect n 4 4 blk ++ rx)) 0
        (sect n 0 4 fun i => norm mode (blk i)) =
        (sect n 0 4 fun i => norm mode (blk i)) ++ (sect n 4 4 blk ++ rx) := by
      rw [put, lc', Nat.zero_add, List.drop_left' lc]; rfl
    rw [p1, put_append lc'.symm, lx', List.drop_left' lx, List.append_assoc]

end Bc1

end Dlt.Norm
