import Verif.Lemmas.Normalize
/-! Normalization of one block: what is written, and that the pixels stay. -/

namespace Dlt.Norm
open Decode

/-! ## Pixels of a block -/

/-- Pixel `k` of a BC1 block. -/
def pix1 (b : Buf) (k : Nat) : Color8888 :=
  pick (bc1Dict (of16 .little (slice b 0 2)) (of16 .little (slice b 2 2))) (of32 .little (slice b 4 4)) (2 * k)

/-- The colour of pixel `k` of a BC2 or BC3 block. -/
def col4 (b : Buf) (k : Nat) : Color8888 :=
  pick (dict4 (of16 .little (slice b 8 2)) (of16 .little (slice b 10 2))) (of32 .little (slice b 12 4)) (2 * k)

/-- Pixel `k` of a BC2 block. -/
def pix2 (b : Buf) (k : Nat) : Color8888 := { col4 b k with a := alpha4 (slice b 0 8) k }

/-- Alpha of pixel `k` of a BC3 block. -/
def al3 (b : Buf) (k : Nat) : Byte :=
  (alphaValues ((slice b 0 1).headD 0) ((slice b 1 1).headD 0)).getD (alpha3 (slice b 2 6) k).toNat 0

/-- Pixel `k` of a BC3 block. -/
def pix3 (b : Buf) (k : Nat) : Color8888 := { col4 b k with a := al3 b k }

theorem bc1_at {b : Buf} {p : Nat} (h : p + 8 ≤ b.length) :
    Decode.bc1 b p = some ((List.range 16).map (pix1 (slice b p 8))) := by
  rw [bc1_eq h]
  congr 2
  funext k
  rw [pix1, slice_slice _ _ _ _ _ (by omega), slice_slice _ _ _ _ _ (by omega),
    slice_slice _ _ _ _ _ (by omega)]
  rfl

theorem bc2_at {b : Buf} {p : Nat} (h : p + 16 ≤ b.length) :
    Decode.bc2 b p = some ((List.range 16).map (pix2 (slice b p 16))) := by
  rw [bc2_eq h]
  congr 2
  funext k
  rw [pix2, col4, slice_slice _ _ _ _ _ (by omega), slice_slice _ _ _ _ _ (by omega),
    slice_slice _ _ _ _ _ (by omega), slice_slice _ _ _ _ _ (by omega)]
  rfl

theorem bc3_at {b : Buf} {p : Nat} (h : p + 16 ≤ b.length) :
    Decode.bc3 b p = some ((List.range 16).map (pix3 (slice b p 16))) := by
  rw [bc3_eq h]
  congr 2
  funext k
  rw [pix3, col4, al3, slice_slice _ _ _ _ _ (by omega), slice_slice _ _ _ _ _ (by omega),
    slice_slice _ _ _ _ _ (by omega), slice_slice _ _ _ _ _ (by omega),
    slice_slice _ _ _ _ _ (by omega), slice_slice _ _ _ _ _ (by omega)]
  rfl

/-- All sixteen values are the first one. -/
def Const {α : Type} (f : Nat → α) : Prop := ∀ k, k < 16 → f k = f 0

instance {α : Type} [DecidableEq α] (f : Nat → α) : Decidable (Const f) :=
  inferInstanceAs (Decidable (∀ k, k < 16 → f k = f 0))

theorem all_const {α : Type} [DecidableEq α] (f : Nat → Color8888) (g : Color8888 → α) :
    ((List.range 16).map f).all (fun p => g p = g (f 0)) = decide (Const fun k => g (f k)) := by
  rw [Bool.eq_iff_iff, List.all_eq_true, decide_eq_true_iff]
  simp only [List.mem_map, List.mem_range, decide_eq_true_iff, Const]
  exact ⟨fun h k hk => h _ ⟨k, hk, rfl⟩, fun h p ⟨k, hk, e⟩ => e ▸ h k hk⟩

theorem first (f : Nat → Color8888) : ((List.range 16).map f)[0]? = some (f 0) := rfl

theorem identical_eq (f : Nat → Color8888) :
    Pixels.identical ((List.range 16).map f) = some (decide (Const f)) := by
  rw [Pixels.identical, first]
  exact congrArg some (all_const f id)

theorem identicalIgnoreAlpha_eq (f : Nat → Color8888) :
    Pixels.identicalIgnoreAlpha ((List.range 16).map f) =
      some (decide (Const fun k => (f k).withoutAlpha)) := by
  rw [Pixels.identicalIgnoreAlpha, first]
  exact congrArg some (all_const f Color8888.withoutAlpha)

theorem identicalAlpha_eq (f : Nat → Color8888) :
    Pixels.identicalAlpha ((List.range 16).map f) = some (decide (Const fun k => (f k).a)) := by
  rw [Pixels.identicalAlpha, first]
  exact congrArg some (all_const f Color8888.a)

/-! ## Patterns -/

theorem of16_lohi (c : U16) : of16 .little [lo c, hi c] = c := by
  apply BitVec.eq_of_toNat_eq
  rw [of16_little_toNat]
  simp only [lo, hi, BitVec.extractLsb'_toNat, Nat.shiftRight_eq_div_pow]
  have := c.isLt
  omega

theorem pick_zero (dict : List Color8888) (k : Nat) : pick dict 0 (2 * k) = dict.getD 0 ⟨0, 0, 0, 0⟩ := by
  simp [pick]

theorem of32_zero : of32 .little [0, 0, 0, 0] = 0 := by decide

/-- The colour block of a solid colour. -/
def solidBytes (mode : Mode) (c : U16) : Buf :=
  match mode with
  | .replicate => [lo c, hi c, lo c, hi c, 0, 0, 0, 0]
  | _ => [lo c, hi c, 0, 0, 0, 0, 0, 0]

theorem solidBytes_length (mode : Mode) (c : U16) : (solidBytes mode c).length = 8 := by
  cases mode <;> rfl

theorem bc1Dict_zero (c0 c1 : U16) : (bc1Dict c0 c1).getD 0 ⟨0, 0, 0, 0⟩ = Color565.to8888Lossy c0 := by
  unfold bc1Dict; split <;> rfl

theorem pix1_solid (mode : Mode) (c : U16) (k : Nat) : pix1 (solidBytes mode c) k = Color565.to8888Lossy c := by
  have h0 : slice (solidBytes mode c) 0 2 = [lo c, hi c] := by cases mode <;> rfl
  have h4 : slice (solidBytes mode c) 4 4 = [0, 0, 0, 0] := by cases mode <;> rfl
  rw [pix1, h0, h4, of16_lohi, of32_zero, pick_zero, bc1Dict_zero]

theorem pix1_ff (k : Nat) (hk : k < 16) : pix1 (List.replicate 8 0xFF#8) k = ⟨0, 0, 0, 0⟩ := by
  revert k; decide

theorem col4_solid (mode : Mode) (c : U16) (k : Nat) (a : Buf) (ha : a.length = 8) :
    col4 (a ++ solidBytes mode c) k = Color565.to8888Lossy c := by
  have h0 : slice (a ++ solidBytes mode c) 8 2 = [lo c, hi c] := by
    rw [slice_append_right _ _ _ 0 _ (by omega)]; cases mode <;> rfl
  have h4 : slice (a ++ solidBytes mode c) 12 4 = [0, 0, 0, 0] := by
    rw [slice_append_right _ _ _ 4 _ (by omega)]; cases mode <;> rfl
  rw [col4, h0, h4, of16_lohi, of32_zero, pick_zero]
  rfl

/-! ## BC1 -/

namespace Bc1

/-- The classification of a block by its pixels. -/
def kind (f : Nat → Color8888) : Case × U16 :=
  if Const f then
    if (f 0).a = 0 then (.transparent, 0)
    else if Color565.to8888Lossy (f 0).to565Lossy = f 0 then (.solid, (f 0).to565Lossy)
    else (.cannot, (f 0).to565Lossy)
  else (.cannot, 0)

theorem classify_eq (f : Nat → Color8888) : classify ((List.range 16).map f) = some (kind f) := by
  unfold classify kind
  rw [identical_eq]
  simp only [Option.bind_eq_bind, Option.bind_some, first, Option.pure_def, decide_eq_true_eq]
  split
  · split
    · rfl
    · split <;> rfl
  · rfl

theorem kind_solid {f : Nat → Color8888} {c : U16} (h : kind f = (.solid, c)) :
    ∀ k, k < 16 → f k = Color565.to8888Lossy c := by
  unfold kind at h
  split at h
  · rename_i hc
    split at h
    · cases h
    · split at h
      · rename_i hr
        cases h
        intro k hk
        rw [hr, hc k hk]
      · cases h
  · cases h

theorem kind_of_solid {f : Nat → Color8888} {c : U16} (h : ∀ k, k < 16 → f k = Color565.to8888Lossy c) :
    kind f = (.solid, c) := by
  have h0 := h 0 (by omega)
  have hc : Const f := fun k hk => by rw [h k hk, h0]
  have e : (Color565.to8888Lossy c).to565Lossy = c := Color565.fromRgb_channels c
  unfold kind
  rw [if_pos hc, h0, if_neg (show ¬ ((Color565.to8888Lossy c).a = 0) from (show ¬ (255#8 = 0) by decide)), e,
    if_pos rfl]

theorem kind_of_transparent {f : Nat → Color8888} (h : ∀ k, k < 16 → f k = ⟨0, 0, 0, 0⟩) :
    kind f = (.transparent, 0) := by
  have h0 := h 0 (by omega)
  have hc : Const f := fun k hk => by rw [h k hk, h0]
  unfold kind
  rw [if_pos hc, h0, if_pos rfl]

/-- The only palette entry with alpha 0 is transparent black. -/
theorem pix1_alpha {b : Buf} {k : Nat} (h : (pix1 b k).a = 0) : pix1 b k = ⟨0, 0, 0, 0⟩ := by
  unfold pix1 pick at h ⊢
  generalize hd : bc1Dict (of16 .little (slice b 0 2)) (of16 .little (slice b 2 2)) = d at h ⊢
  have hi := idx_lt (of32 .little (slice b 4 4)) (2 * k)
  generalize ((of32 .little (slice b 4 4) >>> (2 * k)) &&& 3#32).toNat = i at hi h ⊢
  subst hd
  unfold bc1Dict at h ⊢
  split at h
  · exfalso
    match i, hi with
    | 0, _ | 1, _ | 2, _ | 3, _ => exact absurd h (show ¬ (255#8 = 0) by decide)
  · rename_i hg
    rw [if_neg hg]
    match i, hi with
    | 0, _ | 1, _ | 2, _ => exact absurd h (show ¬ (255#8 = 0) by decide)
    | 3, _ => rfl

theorem kind_transparent {b : Buf} {c : U16} (h : kind (pix1 b) = (.transparent, c)) :
    ∀ k, k < 16 → pix1 b k = ⟨0, 0, 0, 0⟩ := by
  unfold kind at h
  split at h
  · rename_i hc
    split at h
    · rename_i ha
      intro k hk
      rw [hc k hk]; exact pix1_alpha ha
    · split at h <;> cases h
  · cases h

/-- What the handler writes for a block with contents `src`; `aliased` says that source and
destination are the same memory. -/
def write (t : Case × U16) (mode : Mode) (aliased : Bool) (src : Buf) : Buf :=
  match t.1 with
  | .transparent => List.replicate 8 0xFF
  | .cannot => src
  | .solid => match mode with
    | .none => if aliased then [lo t.2, hi t.2] ++ src.drop 2 else src
    | m => solidBytes m t.2

theorem write_length (t : Case × U16) (mode : Mode) (a : Bool) (src : Buf) (h : src.length = 8) :
    (write t mode a src).length = 8 := by
  obtain ⟨t, c⟩ := t
  cases t
  · rfl
  · cases mode
    · cases a <;> simp [write, h]
    · rfl
    · rfl
  · exact h

/-- The normal form of a block. -/
def norm (mode : Mode) (b : Buf) : Buf :=
  if mode = .none then b else write (kind (pix1 b)) mode false b

theorem norm_length (mode : Mode) (b : Buf) (h : b.length = 8) : (norm mode b).length = 8 := by
  unfold norm; split
  · exact h
  · exact write_length _ _ _ _ h

/-- Normalization keeps the pixels. -/
theorem norm_pix (mode : Mode) (b : Buf) (k : Nat) (hk : k < 16) : pix1 (norm mode b) k = pix1 b k := by
  unfold norm
  split
  · rfl
  · rename_i hm
    rcases h : kind (pix1 b) with ⟨t, c⟩
    cases t
    · exact (pix1_ff k hk).trans (kind_transparent h k hk).symm
    · have e := kind_solid h k hk
      cases mode
      · exact absurd rfl hm
      · exact (pix1_solid .color0Only c k).trans e.symm
      · exact (pix1_solid .replicate c k).trans e.symm
    · rfl

theorem kind_congr {f g : Nat → Color8888} (h : ∀ k, k < 16 → f k = g k) : kind f = kind g := by
  have h0 := h 0 (by omega)
  have hc : Const f ↔ Const g :=
    ⟨fun c k hk => by rw [← h k hk, ← h0, c k hk], fun c k hk => by rw [h k hk, h0, c k hk]⟩
  unfold kind
  rw [h0]
  simp only [hc]

theorem norm_idem (mode : Mode) (b : Buf) : norm mode (norm mode b) = norm mode b := by
  by_cases hm : mode = .none
  · simp [norm, hm]
  · have hk := kind_congr fun k hk => norm_pix mode b k hk
    have e0 : norm mode (norm mode b) = write (kind (pix1 (norm mode b))) mode false (norm mode b) := by
      rw [norm, if_neg hm]
    rw [e0, hk]
    rcases h : kind (pix1 b) with ⟨t, c⟩
    have e : norm mode b = write (t, c) mode false b := by rw [norm, if_neg hm, h]
    rw [e]
    cases t
    · rfl
    · cases mode
      · exact absurd rfl hm
      · rfl
      · rfl
    · rfl

end Bc1

/-! ## Copies and fixed patterns -/

theorem copy64_eq {src : Option Buf} {sp : Nat} {dst : Buf} {dp : Nat} (h : sp + 8 ≤ (src.getD dst).length) :
    copy64 src sp dst dp = st dst dp (slice (src.getD dst) sp 8) := by
  rw [copy64, ld_some h]; rfl

theorem put_put {b xs ys : Buf} {p : Nat} (h : xs.length ≤ ys.length) (hb : p + ys.length ≤ b.length) :
    put (put b p xs) p ys = put b p ys := by
  have e : (b.take p).length = p := by simp; omega
  have h1 : (put b p xs).take p = b.take p := by
    unfold put; rw [List.append_assoc, List.take_left' e]
  have h2 : (put b p xs).drop (p + ys.length) = b.drop (p + ys.length) := by
    obtain ⟨m, hm⟩ := Nat.exists_eq_add_of_le h
    have e2 : (b.take p ++ xs).length = p + xs.length := by simp; omega
    rw [hm, ← Nat.add_assoc, ← List.drop_drop]
    unfold put
    rw [List.drop_left' e2, List.drop_drop]
  rw [put.eq_def (put b p xs), h1, h2]; rfl

/-- Writing `xs` and behind it what is there anyway. -/
theorem st_extend {b xs : Buf} {p m : Nat} (h : p + xs.length + m ≤ b.length) :
    st b p (xs ++ slice b (p + xs.length) m) = st b p xs := by
  rw [← st_st, st_put (by omega), Option.bind_some]
  have e : slice b (p + xs.length) m = slice (put b p xs) (p + xs.length) m := by
    have e2 : (b.take p ++ xs).length = p + xs.length := by simp; omega
    unfold put
    rw [slice_append_right _ _ _ 0 _ (by omega)]
    simp [slice]
  rw [e]
  have hl : (put b p xs).length = b.length := put_length (by omega)
  rw [st_put (by rw [slice_length_of_le (by omega)]; omega), put_self (by omega)]

namespace Bc1

theorem fill_eq (dst : Buf) (p : Nat) : fill dst p 0xFF 8 = st dst p (List.replicate 8 0xFF) := rfl

theorem writeSolid_eq (src : Option Buf) (dst : Buf) (p : Nat) (c : U16) (mode : Mode)
    (hs : p + 8 ≤ (src.getD dst).length) (hd : p + 8 ≤ dst.length) :
    writeSolid src p dst p c mode =
      st dst p (write (.solid, c) mode src.isNone (slice (src.getD dst) p 8)) := by
  cases mode with
  | color0Only => exact st8_eight dst p _ _ _ _ _ _ _ _
  | replicate => exact st8_eight dst p _ _ _ _ _ _ _ _
  | none =>
    have e : writeSolid src p dst p c .none = (st dst p [lo c, hi c]).bind fun d => copy64 src p d p := by
      rw [← st8_two, Option.bind_assoc]; rfl
    rw [e, st_put (by simp; omega), Option.bind_some]
    have hl : (put dst p [lo c, hi c]).length = dst.length := put_length (by simp; omega)
    cases src with
    | some inp =>
      simp only [Option.getD_some] at hs
      rw [copy64_eq hs]
      simp only [Option.getD_some, Option.isNone_some]
      have h8 : (slice inp p 8).length = 8 := slice_length_of_le hs
      show st _ _ _ = st dst p (slice inp p 8)
      rw [st_put (by omega), st_put (by omega), put_put (by simp [h8]) (by omega)]
    | none =>
      rw [copy64_eq (by simp only [Option.getD_none]; omega)]
      simp only [Option.getD_none, Option.isNone_none]
      rw [st_put (by rw [slice_length_of_le (by omega)]; omega), put_self (by omega)]
      show _ = st dst p ([lo c, hi c] ++ (slice dst p 8).drop 2)
      have : (slice dst p 8).drop 2 = slice dst (p + [lo c, hi c].length) 6 := by
        simp [slice, List.drop_take, List.drop_drop]
      rw [this, st_extend (by simp; omega), st_put (by simp; omega)]

/-- The handler of `normalize_blocks` / `normalize_blocks_all_modes` for one output. -/
theorem handler_eq (t : Case × U16) (src : Option Buf) (dst : Buf) (p : Nat) (mode : Mode)
    (hs : p + 8 ≤ (src.getD dst).length) (hd : p + 8 ≤ dst.length) :
    (match t.1 with
      | .transparent => fill dst p 0xFF 8
      | .solid => writeSolid src p dst p t.2 mode
      | .cannot => copy64 src p dst p) =
      st dst p (write t mode src.isNone (slice (src.getD dst) p 8)) := by
  obtain ⟨t, c⟩ := t
  cases t
  · rfl
  · exact writeSolid_eq src dst p c mode hs hd
  · exact copy64_eq hs

theorem write_none (t : Case × U16) {mode : Mode} (hm : mode ≠ .none) (a : Bool) (src : Buf) :
    write t mode a src = write t mode false src := by
  obtain ⟨t, c⟩ := t
  cases t
  · rfl
  · cases mode
    · exact absurd rfl hm
    · rfl
    · rfl
  · rfl

/-- `copyAll` is the block map of the identity. -/
theorem copyAll_eq (src : Option Buf) (out : Buf) (n : Nat) (hs : n ≤ (src.getD out).length)
    (ho : n ≤ out.length) : copyAll src out n = some ((src.getD out).take n ++ out.drop n) := by
  cases src with
  | none => simp [copyAll]
  | some inp =>
    simp only [Option.getD_some] at hs
    have e : (slice inp 0 n).length = n := slice_length_of_le (by omega)
    simp only [copyAll, Option.bind_eq_bind, Option.getD_some]
    rw [ld_some (by omega), Option.bind_some, st_put (by omega), put, e]
    simp [slice]

theorem bind_twice (m : Option Buf) (p : Nat) :
    ((m.bind fun out => pure (p, out)).bind fun s => pure (p, s)) = m.map fun o => (p, p, o) := by
  cases m <;> rfl

/-- **`normalize_blocks` (BC1)** replaces every block by its normal form. -/
theorem normalizeBlocks_eq (src : Option Buf) (out : Buf) (n : Nat) (mode : Mode)
    (hs : n * 8 ≤ (src.getD out).length) (ho : n * 8 ≤ out.length) :
    normalizeBlocks src out (n * 8) mode =
      some (mapBlocks 8 (norm mode) (src.getD out) n ++ out.drop (n * 8)) := by
  unfold normalizeBlocks
  by_cases hm : mode = .none
  · rw [if_pos hm, copyAll_eq _ _ _ hs ho]
    have : norm mode = id := by funext b; simp [norm, hm]
    rw [this, mapBlocks_id hs]
  · rw [if_neg hm]
    unfold impl
    rw [blockLoop (B := 8) (by omega) src out (norm mode) (norm_length mode) hs ho (fun p s => rfl)]
    · rfl
    · intro p o h1 h2
      simp only [Option.bind_eq_bind, Option.bind_some, bc1_at h1, classify_eq]
      have hh := handler_eq (kind (pix1 (slice (src.getD o) p 8))) src o p mode h1 h2
      rw [write_none _ hm] at hh
      have e : norm mode (slice (src.getD o) p 8) = write (kind (pix1 (slice (src.getD o) p 8))) mode false
        (slice (src.getD o) p 8) := by rw [norm, if_neg hm]
      rw [← e] at hh
      rw [← hh]
      rcases kind (pix1 (slice (src.getD o) p 8)) with ⟨t, c⟩
      cases t <;> exact bind_twice _ _

/-- What `normalize_blocks_all_modes` leaves in output `x` for a block. -/
def modesOut (inp : Input) (x : Nat) (b : Buf) : Buf :=
  inp.effective (fun x a c => write (kind (pix1 b)) (Mode.all.getD x .none) a c) b x

theorem effective_length {i : Input} {G : Nat → Bool → Buf → Buf} {b : Buf} {B : Nat}
    (hG : ∀ x a (c : Buf), c.length = B → (G x a c).length = B) (hb : b.length = B) (x : Nat) :
    (i.effective G b x).length = B := by
  unfold Input.effective
  split
  · exact hG _ _ _ hb
  · split
    · exact hG _ _ _ hb
    · split
      · exact hG _ _ _ hb
      · exact hG _ _ _ (hG _ _ _ hb)

theorem modesOut_length (inp : Input) (x : Nat) (b : Buf) (h : b.length = 8) :
    (modesOut inp x b).length = 8 := effective_length (fun _ _ _ => write_length _ _ _ _) h x

/-- Some of the first `n` blocks is normalized. -/
def someNorm (data : Buf) (n : Nat) : Bool :=
  (List.range n).any fun i => (kind (pix1 (Spec.block 8 data i))).1 ≠ .cannot

theorem someNorm_succ (data : Buf) (n : Nat) : someNorm data (n + 1) =
    (someNorm data n || decide ((kind (pix1 (Spec.block 8 data n))).1 ≠ .cannot)) := by
  simp [someNorm, List.range_succ]

theorem all_get {x : Nat} (h : x < 3) : Mode.all[x]? = some (Mode.all.getD x .none) := by
  match x, h with
  | 0, _ | 1, _ | 2, _ => rfl

/-- **`normalize_blocks_all_modes` (BC1).** -/
theorem allModes_eq (inp : Input) (outs : List Buf) (data : Buf) (n : Nat) (hN : outs.length = 3)
    (hr : inp.region outs = some data) (hd : n * 8 ≤ data.length)
    (ho : ∀ (x : Nat) (dst : Buf), outs[x]? = some dst → n * 8 ≤ dst.length) :
    ∃ outs', allModes inp outs (n * 8) = some (outs', someNorm data n) ∧
      AllInv 8 (modesOut inp) data outs n outs' := by
  suffices h : Ok (allModes inp outs (n * 8)) (fun s => s.2 = someNorm data n ∧
      AllInv 8 (modesOut inp) data outs n s.1) by
    obtain ⟨⟨o, a⟩, h1, h2, h3⟩ := h
    exact ⟨o, by rw [h1, ← h2], h3⟩
  unfold allModes impl
  simp only [Option.bind_eq_bind, Option.bind_assoc]
  refine Ok.bind' (Ok.whileM (fun i s => s.1 = i * 8 ∧ s.2.1 = i * 8 ∧ s.2.2.2 = someNorm data i ∧
      AllInv 8 (modesOut inp) data outs i s.2.2.1) n (by omega) ⟨by simp, by simp, rfl, AllInv.start ..⟩ ?_ ?_)
  · rintro i ⟨sp, dp, os, any⟩ hi ⟨h1, h2, h3, h4⟩
    dsimp only at h1 h2 h3 h4
    subst h1 h2 h3
    refine ⟨by simpa using hi, ?_⟩
    obtain ⟨r, hr1, hr2, hr3⟩ := h4.region (modesOut_length inp) (by omega) hr
    simp only [hr1, Option.bind_some, bc1_at hr3, classify_eq, hr2]
    have hstep := fun f hf => h4.step (N := 3) (f := f) (modesOut_length inp) (by omega) hr hN
      (fun x dst hx => by have := ho x dst hx; omega) hf
      (G := fun x a c => write (kind (pix1 (Spec.block 8 data i))) (Mode.all.getD x .none) a c)
      (fun x a c => write_length _ _ _ _) (fun x hx => rfl)
    have hsn := someNorm_succ data i
    generalize hk : kind (pix1 (Spec.block 8 data i)) = t at hstep hsn ⊢
    obtain ⟨t, c⟩ := t
    have hi8 : (i + 1) * 8 = i * 8 + 8 := by omega
    cases t
    · obtain ⟨o, e1, e2⟩ := hstep (fun _ _ dst => fill dst (i * 8) 0xFF 8)
        (fun x src dst _ hs hd => handler_eq (.transparent, c) src dst _ _ hs hd)
      simp only [e1, Option.bind_some]
      exact ⟨_, rfl, hi8.symm, hi8.symm, by rw [hsn]; simp, e2⟩
    · obtain ⟨o, e1, e2⟩ := hstep (fun x src dst => (Mode.all[x]?).bind fun mode =>
          writeSolid src (i * 8) dst (i * 8) c mode)
        (fun x src dst hx hs hd => by
          rw [all_get hx]; exact handler_eq (.solid, c) src dst _ _ hs hd)
      simp only [e1, Option.bind_some]
      exact ⟨_, rfl, hi8.symm, hi8.symm, by rw [hsn]; simp, e2⟩
    · obtain ⟨o, e1, e2⟩ := hstep (fun _ src dst => copy64 src (i * 8) dst (i * 8))
        (fun x src dst _ hs hd => handler_eq (.cannot, c) src dst _ .none hs hd)
      simp only [e1, Option.bind_some]
      exact ⟨_, rfl, hi8.symm, hi8.symm, by rw [hsn]; simp, e2⟩
  · rintro ⟨sp, dp, os, any⟩ ⟨h1, h2, h3, h4⟩
    dsimp only at h1 h2 h3 h4
    exact ⟨by subst h1; simp, _, rfl, h3, h4⟩

/-- The buffers of the two real modes hold what `normalize_blocks` writes, wherever the input is. -/
theorem modesOut_mode (inp : Input) {x : Nat} (hx : x = 1 ∨ x = 2) (b : Buf) :
    modesOut inp x b = norm (Mode.all.getD x .none) b := by
  have hm : Mode.all.getD x .none ≠ .none := by rcases hx with rfl | rfl <;> decide
  have e : norm (Mode.all.getD x .none) b = write (kind (pix1 b)) (Mode.all.getD x .none) false b := by
    rw [norm, if_neg hm]
  rw [e]
  unfold modesOut Input.effective
  cases inp with
  | separate i => rfl
  | output k =>
    dsimp only
    split
    · rename_i h; subst h; exact write_none _ hm _ _
    · split
      · rfl
      · rcases kind (pix1 b) with ⟨t, c⟩
        cases t
        · rfl
        · rcases hx with rfl | rfl <;> rfl
        · rfl

/-- The buffer of mode `None`, input elsewhere: opaque blocks are copied, transparent ones are not. -/
theorem modesOut_none {inp : Input} (hi : ∀ k, inp = .output k → k ≠ 0) (b : Buf) :
    modesOut inp 0 b = if (kind (pix1 b)).1 = .transparent then List.replicate 8 0xFF else b := by
  have : modesOut inp 0 b = write (kind (pix1 b)) .none false b := by
    unfold modesOut Input.effective
    cases inp with
    | separate i => rfl
    | output k =>
      have := hi k rfl
      dsimp only
      rw [if_neg (Ne.symm this), if_pos (by omega)]
      rfl
  rw [this]
  rcases kind (pix1 b) with ⟨t, c⟩
  cases t <;> rfl

theorem stC_stC (t : Split) (off : Nat) (xs ys : Buf) :
    (t.stC off xs).bind (fun t => t.stC (off + xs.length) ys) = t.stC off (xs ++ ys) := by
  unfold Split.stC
  rw [← st_st]
  cases st t.colors off xs <;> rfl

theorem stX_stX (t : Split) (off : Nat) (xs ys : Buf) :
    (t.stX off xs).bind (fun t => t.stX (off + xs.length) ys) = t.stX off (xs ++ ys) := by
  obtain ⟨c, x⟩ := t
  cases x with
  | none =>
    simp only [Split.stX]
    rw [← st_st]
    cases st c off xs <;> rfl
  | some x =>
    simp only [Split.stX]
    rw [← st_st]
    cases st x off xs <;> rfl

theorem stC_four (t : Split) (p : Nat) (a b c d : Byte) (k : Split → Option Split) :
    ((t.stC p [a]).bind fun t => (t.stC (p + 1) [b]).bind fun t => (t.stC (p + 2) [c]).bind fun t =>
      (t.stC (p + 3) [d]).bind k) = (t.stC p [a, b, c, d]).bind k := by
  have h := stC_stC t p [a, b, c] [d]
  have h2 := stC_stC t p [a, b] [c]
  have h1 := stC_stC t p [a] [b]
  simp only [List.length_cons, List.length_nil, Nat.reduceAdd, List.cons_append, List.nil_append] at h h1 h2
  rw [← h, ← h2, ← h1]
  simp only [Option.bind_assoc]

theorem stX_four (t : Split) (p : Nat) (a b c d : Byte) :
    ((t.stX p [a]).bind fun t => (t.stX (p + 1) [b]).bind fun t => (t.stX (p + 2) [c]).bind fun t =>
      t.stX (p + 3) [d]) = t.stX p [a, b, c, d] := by
  have h := stX_stX t p [a, b, c] [d]
  have h2 := stX_stX t p [a, b] [c]
  have h1 := stX_stX t p [a] [b]
  simp only [List.length_cons, List.length_nil, Nat.reduceAdd, List.cons_append, List.nil_append] at h h1 h2
  rw [← h, ← h2, ← h1]
  simp only [Option.bind_assoc]

theorem stC_self {t : Split} {p n : Nat} (h : p + n ≤ t.colors.length) : t.stC p (slice t.colors p n) = some t := by
  rw [Split.stC, st_put (by rw [slice_length_of_le h]; exact h), put_self h]; rfl

theorem stX_self {t : Split} {p n : Nat} (h : p + n ≤ (t.indices.getD t.colors).length) :
    t.stX p (slice (t.indices.getD t.colors) p n) = some t := by
  obtain ⟨c, x⟩ := t
  cases x with
  | none =>
    simp only [Option.getD_none] at h ⊢
    simp only [Split.stX]
    rw [st_put (by rw [slice_length_of_le h]; exact h), put_self h]; rfl
  | some x =>
    simp only [Option.getD_some] at h ⊢
    simp only [Split.stX]
    rw [st_put (by rw [slice_length_of_le h]; exact h), put_self h]; rfl

/-- The block that the two pointers make up. -/
def splitBlock (t : Split) (cp xp : Nat) : Buf :=
  slice t.colors cp 4 ++ slice (t.indices.getD t.colors) xp 4

/-- One block of `normalize_split_blocks_in_place`. -/
theorem splitBody_eq {mode : Mode} (hm : mode ≠ .none) {cp xp : Nat} {t : Split}
    (hc : cp + 4 ≤ t.colors.length) (hx : xp + 4 ≤ (t.indices.getD t.colors).length) :
    splitBody mode cp xp t = (t.stC cp ((norm mode (splitBlock t cp xp)).take 4)).bind fun t' =>
      t'.stX xp ((norm mode (splitBlock t cp xp)).drop 4) := by
  have lc : (slice t.colors cp 4).length = 4 := slice_length_of_le hc
  have lx : (slice (t.indices.getD t.colors) xp 4).length = 4 := slice_length_of_le hx
  have lb : (splitBlock t cp xp).length = 8 := by simp [splitBlock, lc, lx]
  have e1 : st (List.replicate 8 (0 : Byte)) 0 (slice t.colors cp 4) =
      some (slice t.colors cp 4 ++ List.replicate 4 0) := by
    rw [st_put (by simp [lc]), put, lc]; rfl
  have e2 : st (slice t.colors cp 4 ++ List.replicate 4 (0 : Byte)) 4 (slice (t.indices.getD t.colors) xp 4) =
      some (splitBlock t cp xp) := by
    rw [st_put (by simp [lc, lx]), put_append lc.symm, lx]; simp [splitBlock]
  have e3 := bc1_at (b := splitBlock t cp xp) (p := 0) (by omega)
  rw [slice_all lb] at e3
  unfold splitBody
  rw [ld_some hc, ld_some hx]
  simp only [Option.bind_eq_bind, Option.bind_some, e1, e2, e3, identical_eq, first, Option.pure_def,
    decide_eq_true_eq]
  have hn : norm mode (splitBlock t cp xp) = write (kind (pix1 (splitBlock t cp xp))) mode false
    (splitBlock t cp xp) := by rw [norm, if_neg hm]
  rw [hn]
  have keep : (t.stC cp ((splitBlock t cp xp).take 4)).bind (fun t' =>
      t'.stX xp ((splitBlock t cp xp).drop 4)) = some t := by
    have d1 : (splitBlock t cp xp).take 4 = slice t.colors cp 4 := List.take_left' lc
    have d2 : (splitBlock t cp xp).drop 4 = slice (t.indices.getD t.colors) xp 4 := List.drop_left' lc
    rw [d1, d2, stC_self hc, Option.bind_some, stX_self hx]
  unfold kind
  split
  · split
    · rfl
    · split
      · cases mode
        · exact absurd rfl hm
        · dsimp only
          rw [stC_four]
          simp only [stX_four]
          rfl
        · dsimp only
          rw [stC_four]
          simp only [stX_four]
          rfl
      · exact keep.symm
  · exact keep.symm

/-- Block `i` before normalization, colours at the start of `C`, indices at offset `xp` of `X`. -/
def pairBlock (C X : Buf) (xp i : Nat) : Buf := slice C (i * 4) 4 ++ slice X (xp + i * 4) 4

/-- The normalized colours. -/
def normC (mode : Mode) (C X : Buf) (xp n : Nat) : Buf :=
  (List.range n).flatMap fun i => (norm mode (pairBlock C X xp i)).take 4

/-- The normalized indices. -/
def normX (mode : Mode) (C X : Buf) (xp n : Nat) : Buf :=
  (List.range n).flatMap fun i => (norm mode (pairBlock C X xp i)).drop 4

theorem pairBlock_length {C X : Buf} {xp n i : Nat} (hi : i < n) (hc : n * 4 ≤ C.length)
    (hx : xp + n * 4 ≤ X.length) : (pairBlock C X xp i).length = 8 := by
  rw [pairBlock, List.length_append, slice_length_of_le (by omega), slice_length_of_le (by omega)]

theorem normC_length {mode : Mode} {C X : Buf} {xp n : Nat} (hc : n * 4 ≤ C.length)
    (hx : xp + n * 4 ≤ X.length) : (normC mode C X xp n).length = n * 4 :=
  flatMap_range_length _ _ _ fun i hi => by
    have := norm_length mode _ (pairBlock_length hi hc hx)
    simp [this]

theorem normX_length {mode : Mode} {C X : Buf} {xp n : Nat} (hc : n * 4 ≤ C.length)
    (hx : xp + n * 4 ≤ X.length) : (normX mode C X xp n).length = n * 4 :=
  flatMap_range_length _ _ _ fun i hi => by
    have := norm_length mode _ (pairBlock_length hi hc hx)
    simp [this]

theorem normC_succ (mode : Mode) (C X : Buf) (xp n : Nat) : normC mode C X xp (n + 1) =
    normC mode C X xp n ++ (norm mode (pairBlock C X xp n)).take 4 := by simp [normC, List.range_succ]

theorem normX_succ (mode : Mode) (C X : Buf) (xp n : Nat) : normX mode C X xp (n + 1) =
    normX mode C X xp n ++ (norm mode (pairBlock C X xp n)).drop 4 := by simp [normX, List.range_succ]

/-- `normalize_split_blocks_in_place` with colours and indices in separate regions. -/
theorem splitLoop_sep {mode : Mode} (hm : mode ≠ .none) {xp : Nat} {C X : Buf} (n : Nat)
    (hc : n * 4 ≤ C.length) (hx : xp + n * 4 ≤ X.length) :
    splitLoop mode 0 xp n ⟨C, some X⟩ =
      some ⟨put C 0 (normC mode C X xp n), some (put X xp (normX mode C X xp n))⟩ := by
  induction n with
  | zero => simp [splitLoop, normC, normX, put_nil]
  | succ n ih =>
    have hlc : (normC mode C X xp n).length = n * 4 := normC_length (by omega) (by omega)
    have hlx : (normX mode C X xp n).length = n * 4 := normX_length (by omega) (by omega)
    have lc : (put C 0 (normC mode C X xp n)).length = C.length := put_length (by omega)
    have lx : (put X xp (normX mode C X xp n)).length = X.length := put_length (by omega)
    have hb : splitBlock ⟨put C 0 (normC mode C X xp n), some (put X xp (normX mode C X xp n))⟩ (0 + n * 4)
        (xp + n * 4) = pairBlock C X xp n := by
      simp only [splitBlock, Option.getD_some, pairBlock]
      rw [slice_put_ne (by omega) (by omega), slice_put_ne (by omega) (by omega), Nat.zero_add]
    have hnl := norm_length mode _ (pairBlock_length (Nat.lt_succ_self n) hc hx)
    have ht : ((norm mode (pairBlock C X xp n)).take 4).length = 4 := by simp [hnl]
    have hd : ((norm mode (pairBlock C X xp n)).drop 4).length = 4 := by simp [hnl]
    rw [splitLoop, ih (by omega) (by omega)]
    simp only [Option.bind_eq_bind, Option.bind_some]
    rw [splitBody_eq hm (by dsimp only; omega) (by simp only [Option.getD_some]; omega), hb]
    simp only [Split.stC, Split.stX, Option.bind_eq_bind]
    rw [st_put (by omega)]
    simp only [Option.bind_some, Option.pure_def]
    rw [st_put (by omega)]
    simp only [Option.bind_some]
    rw [put_behind (by omega) (by omega), put_behind (by omega) (by omega), ← normC_succ, ← normX_succ]

/-- `normalize_split_blocks_in_place` with colours and indices in the same region. -/
theorem splitLoop_same {mode : Mode} (hm : mode ≠ .none) {xp : Nat} {R : Buf} (n : Nat)
    (hc : n * 4 ≤ xp) (hx : xp + n * 4 ≤ R.length) :
    splitLoop mode 0 xp n ⟨R, none⟩ =
      some ⟨put (put R 0 (normC mode R R xp n)) xp (normX mode R R xp n), none⟩ := by
  induction n with
  | zero => simp [splitLoop, normC, normX, put_nil]
  | succ n ih =>
    have hlc : (normC mode R R xp n).length = n * 4 := normC_length (by omega) (by omega)
    have hlx : (normX mode R R xp n).length = n * 4 := normX_length (by omega) (by omega)
    have lc : (put R 0 (normC mode R R xp n)).length = R.length := put_length (by omega)
    have lx : (put (put R 0 (normC mode R R xp n)) xp (normX mode R R xp n)).length = R.length := by
      rw [put_length (by omega), lc]
    have hb : splitBlock ⟨put (put R 0 (normC mode R R xp n)) xp (normX mode R R xp n), none⟩ (0 + n * 4)
        (xp + n * 4) = pairBlock R R xp n := by
      simp only [splitBlock, Option.getD_none, pairBlock]
      rw [slice_put_ne (by omega) (by omega), slice_put_ne (by omega) (by omega),
        slice_put_ne (by omega) (by omega), slice_put_ne (by omega) (by omega), Nat.zero_add]
    have hnl := norm_length mode _ (pairBlock_length (C := R) (X := R) (xp := xp) (Nat.lt_succ_self n)
      (by omega) (by omega))
    have ht : ((norm mode (pairBlock R R xp n)).take 4).length = 4 := by simp [hnl]
    have hd : ((norm mode (pairBlock R R xp n)).drop 4).length = 4 := by simp [hnl]
    rw [splitLoop, ih (by omega) (by omega)]
    simp only [Option.bind_eq_bind, Option.bind_some]
    rw [splitBody_eq hm (by dsimp only; omega) (by simp only [Option.getD_none]; omega), hb]
    simp only [Split.stC, Split.stX, Option.bind_eq_bind]
    rw [st_put (by omega)]
    simp only [Option.bind_some, Option.pure_def]
    rw [st_put (by rw [put_length (by omega)]; omega)]
    simp only [Option.bind_some]
    have q1 : put (put (put R 0 (normC mode R R xp n)) xp (normX mode R R xp n)) (0 + n * 4)
        ((norm mode (pairBlock R R xp n)).take 4) =
        put (put R 0 (normC mode R R xp (n + 1))) xp (normX mode R R xp n) := by
      rw [put_comm (by omega) (by omega), put_behind (xs := normC mode R R xp n) (by omega) (by omega),
        ← normC_succ]
    have lc' : (normC mode R R xp (n + 1)).length = (n + 1) * 4 := normC_length (by omega) (by omega)
    rw [q1, put_behind (xs := normX mode R R xp n) (by omega) (by rw [put_length (by omega)]; omega),
      ← normX_succ]

end Bc1
end Dlt.Norm
