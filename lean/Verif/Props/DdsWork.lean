import Verif.Model.DdsWork
import Verif.Props.Dds
/-!
# C101: the work of reading a DDS header
-/

namespace Dlt.Props

open Dlt.Dds Dlt.Embed

namespace Work

variable {α β : Type}

theorem value_bind (x : Work α) (f : α → Work β) : (x >>= f).value = x.value.bind fun a => (f a).value := by
  change (Work.andThen x f).value = _
  unfold Work.andThen
  cases x.value <;> rfl

theorem value_pure (a : α) : (pure a : Work α).value = some a := rfl

theorem value_of (x : Option α) : (Work.of x).value = x := rfl

theorem value_ite (c : Prop) [Decidable c] (x y : Work α) : (if c then x else y).value = if c then x.value else y.value := by
  split <;> rfl

theorem of_some (a : α) (f : α → Work β) : (Work.of (some a) >>= f) = f a := by
  change Work.andThen _ f = _
  simp [Work.andThen, Work.of]

/-- At most `n` passes, and exactly `n` unless there is a panic. -/
def Counts (n : Nat) (x : Work α) : Prop := x.passes ≤ n ∧ (x.value.isSome → x.passes = n)

theorem counts_pure (a : α) : Counts 0 (pure a : Work α) := ⟨Nat.le_refl _, fun _ => rfl⟩

theorem counts_of (x : Option α) : Counts 0 (Work.of x) := ⟨Nat.le_refl _, fun _ => rfl⟩

theorem counts_pass : Counts 1 Work.pass := ⟨Nat.le_refl _, fun _ => rfl⟩

theorem counts_bind {m n : Nat} {x : Work α} {f : α → Work β} (hx : Counts m x) (hf : ∀ a, Counts n (f a)) : Counts (m + n) (x >>= f) := by
  change Counts _ (Work.andThen x f)
  obtain ⟨h1, h2⟩ := hx
  unfold Work.andThen
  cases hv : x.value with
  | none => exact ⟨by dsimp only; omega, fun h => nomatch h⟩
  | some a =>
    obtain ⟨h3, h4⟩ := hf a
    have := h2 (by rw [hv]; rfl)
    exact ⟨by dsimp only; omega, fun h => by have := h4 h; dsimp only; omega⟩

end Work

open Work

/-! ## The counted functions give the same results -/

theorem blockLevelsWork_value (p : Platform) (bs : U32) : ∀ (n : Nat) (t w h : U32),
    (blockLevelsWork p bs n t w h).value = blockLevels p bs n t w h
  | 0, t, w, h => rfl
  | n + 1, t, w, h => by
    rw [blockLevelsWork, blockLevels]
    simp only [value_bind, value_of, blockLevelsWork_value p bs n]
    rfl

theorem pixelLevelsWork_value (p : Platform) (bpp : U32) : ∀ (n : Nat) (t w h : U32),
    (pixelLevelsWork p bpp n t w h).value = pixelLevels p bpp n t w h
  | 0, t, w, h => rfl
  | n + 1, t, w, h => by
    rw [pixelLevelsWork, pixelLevels]
    simp only [value_bind, value_of, pixelLevelsWork_value p bpp n]
    rfl

theorem dataLengthPixelsWork_value (p : Platform) (w h m bpp : U32) :
    (dataLengthPixelsWork p w h m bpp).value = dataLengthPixels p w h m bpp := by
  unfold dataLengthPixelsWork dataLengthPixels
  rw [value_ite, value_pure, value_bind, pixelLevelsWork_value]
  rfl

theorem dataLengthBlocksWork_value (p : Platform) (f : DdsFormat) (w h m : U32) :
    (dataLengthBlocksWork p f w h m).value = dataLengthBlocks p f w h m := by
  unfold dataLengthBlocksWork dataLengthBlocks
  cases f <;> simp only [value_bind, value_pure, blockLevelsWork_value, dataLengthPixelsWork_value] <;> rfl

theorem dataLengthUncompressedWork_value (p : Platform) (b : Buf) (w h m : U32) :
    (dataLengthUncompressedWork p b w h m).value = dataLengthUncompressed p b w h m := by
  unfold dataLengthUncompressedWork dataLengthUncompressed
  simp only [value_bind, value_of, value_ite, value_pure, dataLengthPixelsWork_value]
  rfl

theorem dataLengthWork_value (p : Platform) (f : DdsFormat) (b : Buf) : (dataLengthWork p f b).value = dataLength p f b := by
  unfold dataLengthWork dataLength
  simp only [value_bind, value_of]
  cases f <;> simp only [dataLengthBlocksWork_value, dataLengthPixelsWork_value, dataLengthUncompressedWork_value, value_pure] <;> rfl

theorem finishWork_value (p : Platform) (b : Buf) (f : DdsFormat) (n : Nat) : (finishWork p b f n).value = finish p b f n := by
  unfold finishWork finish
  rw [value_bind, dataLengthWork_value]
  rfl

theorem parseIgnoreMagicWork_value (p : Platform) (b : Buf) : (parseIgnoreMagicWork p b).value = parseIgnoreMagic p b := by
  unfold parseIgnoreMagicWork parseIgnoreMagic
  simp only [value_bind, value_of, value_ite, value_pure, finishWork_value]
  rfl

theorem parseDdsWork_value (p : Platform) (b : Buf) : (parseDdsWork p b).value = parseDds p b := by
  unfold parseDdsWork parseDds
  simp only [value_bind, value_of, value_ite, value_pure, parseIgnoreMagicWork_value]
  rfl

theorem canHandleWork_value (p : Platform) (b : Buf) (ext : Option String) : (canHandleWork p b ext).value = canHandle p b ext := by
  unfold canHandleWork canHandle
  cases ext with
  | none =>
    dsimp only
    rw [value_bind, parseDdsWork_value, Option.map_eq_bind]
    rfl
  | some e =>
    dsimp only
    rw [value_ite, value_bind, parseDdsWork_value, Option.map_eq_bind]
    rfl

theorem canHandleUntransformWork_value (p : Platform) (b : Buf) (ext : Option String) :
    (canHandleUntransformWork p b ext).value = canHandleUntransform p b ext := by
  unfold canHandleUntransformWork canHandleUntransform
  cases ext with
  | none =>
    dsimp only
    rw [value_ite, value_bind, parseIgnoreMagicWork_value, Option.map_eq_bind]
    rfl
  | some e =>
    dsimp only
    rw [value_ite, value_ite, value_bind, parseIgnoreMagicWork_value, Option.map_eq_bind]
    rfl

/-! ## Counting -/

/-- The parser computes a size: the format is block compressed, or has a whole positive number of bytes per pixel. -/
def HasSize (b : Buf) : Prop := blockBytes (classify b) ≠ none ∨ pixelBytes b ≠ 0

instance (b : Buf) : Decidable (HasSize b) := inferInstanceAs (Decidable (_ ∨ _))

/-- The number of levels that the header states, if they matter. -/
def statedLevels (b : Buf) : Nat := if HasSize b then mipCount b else 0

theorem blockLevelsWork_counts (p : Platform) (bs : U32) : ∀ (n : Nat) (t w h : U32), Counts n (blockLevelsWork p bs n t w h)
  | 0, t, w, h => counts_pure t
  | n + 1, t, w, h => by
    rw [blockLevelsWork]
    have := counts_bind counts_pass fun _ => counts_bind (counts_of (p.mul32 (divCeil4 w) (divCeil4 h))) fun x =>
      counts_bind (counts_of (p.mul32 x bs)) fun l => blockLevelsWork_counts p bs n (satAdd t l) (halve w) (halve h)
    rwa [show 1 + (0 + (0 + n)) = n + 1 by omega] at this

theorem pixelLevelsWork_counts (p : Platform) (bpp : U32) : ∀ (n : Nat) (t w h : U32), Counts n (pixelLevelsWork p bpp n t w h)
  | 0, t, w, h => counts_pure t
  | n + 1, t, w, h => by
    rw [pixelLevelsWork]
    have := counts_bind counts_pass fun _ => counts_bind (counts_of (p.mul32 w h)) fun x =>
      counts_bind (counts_of (p.mul32 x bpp)) fun l => pixelLevelsWork_counts p bpp n (satAdd t l) (halve w) (halve h)
    rwa [show 1 + (0 + (0 + n)) = n + 1 by omega] at this

theorem pixelsWork_counts (p : Platform) (w h m bpp : U32) : Counts (if bpp.toNat ≠ 0 then m.toNat else 0) (dataLengthPixelsWork p w h m bpp) := by
  unfold dataLengthPixelsWork
  by_cases h0 : bpp = 0
  · rw [if_pos h0, if_neg (by rw [h0]; simp)]
    exact counts_pure _
  · rw [if_neg h0, if_pos (fun h3 => h0 (BitVec.eq_of_toNat_eq (by rw [h3]; rfl)))]
    exact counts_bind (n := 0) (pixelLevelsWork_counts p bpp m.toNat 0 w h) fun a => counts_pure _

theorem flags_iff {b : Buf} (h : 128 ≤ b.length) :
    of32 .little (slice b 0x50 4) &&& (0x40#32 ||| 0x20000#32 ||| 0x200#32 ||| 0x2#32) = 0 ↔
      ¬ (PixelFlag b 6 ∨ PixelFlag b 17 ∨ PixelFlag b 9 ∨ PixelFlag b 1) := by
  have or0 : ∀ u v : U32, u ||| v = 0 ↔ u = 0 ∧ v = 0 := fun u v => BitVec.or_eq_zero_iff
  rw [← flag50_iff h 6 (by omega), ← flag50_iff h 17 (by omega), ← flag50_iff h 9 (by omega),
    ← flag50_iff h 1 (by omega), BitVec.and_or_distrib_left, BitVec.and_or_distrib_left,
    BitVec.and_or_distrib_left, or0, or0, or0]
  simp only [not_or, Decidable.not_not, and_assoc, ne_eq]

theorem dataLengthWork_counts (p : Platform) {b : Buf} (h : 128 ≤ b.length) : Counts (statedLevels b) (dataLengthWork p (classify b) b) := by
  have hm := mips_eq h
  unfold dataLengthWork
  rw [ld32_some (b := b) (off := 0x08) (by omega), ld32_some (b := b) (off := 0x0C) (by omega),
    ld32_some (b := b) (off := 0x10) (by omega), ld32_some (b := b) (off := 0x1C) (by omega)]
  simp only [of_some]
  generalize (if of32 .little (slice b 0x08 4) &&& 0x20000#32 ≠ 0 then
      (if of32 .little (slice b 0x1C 4) = 0 then 1#32 else of32 .little (slice b 0x1C 4)) else 1#32) = mips at hm
  have blocks : ∀ bs w h' : U32, blockBytes (classify b) ≠ none →
      Counts (statedLevels b) (blockLevelsWork p bs mips.toNat 0 w h' >>= fun t => pure (some t)) := by
    intro bs w h' hb
    unfold statedLevels
    rw [if_pos (show HasSize b from .inl hb), ← hm]
    exact counts_bind (n := 0) (blockLevelsWork_counts p bs mips.toNat 0 w h') fun a => counts_pure _
  have pixels : ∀ w h' bpp : U32, blockBytes (classify b) = none → pixelBytes b = bpp.toNat →
      Counts (statedLevels b) (dataLengthPixelsWork p w h' mips bpp) := by
    intro w h' bpp hb hp
    have := pixelsWork_counts p w h' mips bpp
    have hiff : HasSize b ↔ bpp.toNat ≠ 0 := by unfold HasSize; rw [hb, hp]; simp
    unfold statedLevels
    simpa only [hiff, ← hm] using this
  have nothing : blockBytes (classify b) = none → pixelBytes b = 0 → Counts (statedLevels b) (pure none : Work (Option U32)) := by
    intro hb hp
    have hiff : ¬ HasSize b := by unfold HasSize; rw [hb, hp]; simp
    unfold statedLevels
    rw [if_neg hiff]
    exact counts_pure _
  cases hc : classify b with
  | notADds => exact absurd hc (classify_ne b)
  | bc1 => exact blocks 8#32 _ _ (by rw [hc]; simp [blockBytes])
  | bc2 => exact blocks 16#32 _ _ (by rw [hc]; simp [blockBytes])
  | bc3 => exact blocks 16#32 _ _ (by rw [hc]; simp [blockBytes])
  | bc4 => exact blocks 8#32 _ _ (by rw [hc]; simp [blockBytes])
  | bc5 => exact blocks 16#32 _ _ (by rw [hc]; simp [blockBytes])
  | bc6h => exact blocks 16#32 _ _ (by rw [hc]; simp [blockBytes])
  | bc7 => exact blocks 16#32 _ _ (by rw [hc]; simp [blockBytes])
  | rgba8888 => exact pixels _ _ 4#32 (by rw [hc]; rfl) (by unfold pixelBytes; rw [hc]; rfl)
  | bgra8888 => exact pixels _ _ 4#32 (by rw [hc]; rfl) (by unfold pixelBytes; rw [hc]; rfl)
  | bgr888 => exact pixels _ _ 3#32 (by rw [hc]; rfl) (by unfold pixelBytes; rw [hc]; rfl)
  | unknown =>
    have hbb : blockBytes (classify b) = none := by rw [hc]; rfl
    have hpb : pixelBytes b = if (PixelFlag b 6 ∨ PixelFlag b 17 ∨ PixelFlag b 9 ∨ PixelFlag b 1) ∧ num b 0x58 % 8 = 0
        then num b 0x58 / 8 else 0 := by unfold pixelBytes; rw [hc]
    have hmod : of32 .little (slice b 0x58 4) % 8#32 ≠ 0 ↔ num b 0x58 % 8 ≠ 0 := by
      rw [← num_eq (b := b) (off := 0x58) (by omega)]
      have : (of32 .little (slice b 0x58 4) % 8#32).toNat = (of32 .little (slice b 0x58 4)).toNat % 8 := by
        rw [BitVec.toNat_umod]; rfl
      rw [← this]
      exact not_congr ⟨fun h => by rw [h]; rfl, fun h => BitVec.eq_of_toNat_eq (by rw [h]; rfl)⟩
    have hdiv : (of32 .little (slice b 0x58 4) / 8#32).toNat = num b 0x58 / 8 := by
      rw [BitVec.toNat_udiv, num_eq (by omega)]; rfl
    dsimp only
    unfold dataLengthUncompressedWork
    rw [ld32_some (b := b) (off := 0x50) (by omega), ld32_some (b := b) (off := 0x58) (by omega)]
    simp only [of_some, flags_iff h, hmod]
    by_cases hA : PixelFlag b 6 ∨ PixelFlag b 17 ∨ PixelFlag b 9 ∨ PixelFlag b 1
    · rw [if_neg (fun h => h hA)]
      by_cases hB : num b 0x58 % 8 = 0
      · rw [if_neg (by simpa using hB)]
        exact pixels _ _ _ hbb (by rw [hpb, if_pos ⟨hA, hB⟩, hdiv])
      · rw [if_pos hB]
        exact nothing hbb (by rw [hpb, if_neg (fun h => hB h.2)])
    · rw [if_pos hA]
      exact nothing hbb (by rw [hpb, if_neg (fun h => hA h.1)])

theorem parseWork_eq (p : Platform) {b : Buf} (h : 128 ≤ b.length) : parseIgnoreMagicWork p b =
    if IsDx10 b → 148 ≤ b.length then finishWork p b (classify b) (headerSize b) else pure none := by
  unfold parseIgnoreMagicWork classify headerSize
  rw [if_neg (by omega), ld32_some (b := b) (off := 0x54) (by omega)]
  simp only [of_some, dx10_iff h]
  by_cases hx : IsDx10 b
  · simp only [hx, if_true, true_imp_iff]
    by_cases h148 : 148 ≤ b.length
    · rw [if_neg (by omega), if_pos h148, ld32_some (b := b) (off := 0x80) (by omega), of_some, dxgi_eq, num_eq (by omega)]
    · rw [if_pos (by omega), if_neg h148]
  · simp only [hx, if_false, false_imp_iff, if_true]
    rw [ld32_some (b := b) (off := 0x50) (by omega), of_some, fourcc_eq h, detect_eq h, of_some]
    have h2 := flag50_iff h 2 (by omega)
    have h6 := flag50_iff h 6 (by omega)
    rw [show BitVec.ofNat 32 (2 ^ 2) = 0x4#32 from rfl] at h2
    rw [show BitVec.ofNat 32 (2 ^ 6) = 0x40#32 from rfl] at h6
    simp only [h2, h6]
    split
    · rfl
    · split <;> rfl

theorem parseIgnoreMagicWork_counts (p : Platform) (b : Buf) :
    Counts (if 128 ≤ b.length ∧ (IsDx10 b → 148 ≤ b.length) then statedLevels b else 0) (parseIgnoreMagicWork p b) := by
  by_cases h : 128 ≤ b.length
  · rw [parseWork_eq p h]
    by_cases hx : IsDx10 b → 148 ≤ b.length
    · rw [if_pos ⟨h, hx⟩, if_pos hx]
      exact counts_bind (n := 0) (dataLengthWork_counts p h) fun a => counts_pure _
    · rw [if_neg (fun k => hx k.2), if_neg hx]
      exact counts_pure _
  · rw [if_neg (fun k => h k.1)]
    unfold parseIgnoreMagicWork
    rw [if_pos (by omega)]
    exact counts_pure _

theorem parseDdsWork_counts (p : Platform) (b : Buf) : Counts (if IsDds b then statedLevels b else 0) (parseDdsWork p b) := by
  unfold parseDdsWork
  rw [likely_eq]
  simp only [of_some, decide_eq_true_eq]
  have hp := parseIgnoreMagicWork_counts p b
  unfold IsDds
  by_cases h : 128 ≤ b.length
  · simp only [h, true_and, magic_iff h] at hp ⊢
    by_cases h2 : slice b 0 4 = ascii "DDS "
    · simpa only [h2, true_and, if_true] using hp
    · simp only [h2, false_and, if_false]
      exact counts_pure _
  · simp only [h, false_and, and_false, if_false]
    exact counts_pure _

/-! ## C101 -/

/-- **C101.** The counted parsers give the results of the parsers.  For a DDS file they pass through the loop over the mip levels as many times as the header
states levels, and not at all if no size is computed; a panic ends the loop early.  For other inputs there are no passes. -/
theorem C101_passes (p : Platform) (b : Buf) :
    ((parseDdsWork p b).value = parseDds p b ∧ (parseIgnoreMagicWork p b).value = parseIgnoreMagic p b ∧
      ∀ ext, (canHandleWork p b ext).value = canHandle p b ext ∧ (canHandleUntransformWork p b ext).value = canHandleUntransform p b ext) ∧
    (IsDds b → (parseDdsWork p b).passes ≤ statedLevels b ∧ (parseDds p b ≠ none → (parseDdsWork p b).passes = statedLevels b)) ∧
    (¬ IsDds b → (parseDdsWork p b).passes = 0) ∧
    (headerSize b ≤ b.length → (parseIgnoreMagicWork p b).passes ≤ statedLevels b ∧
      (parseIgnoreMagic p b ≠ none → (parseIgnoreMagicWork p b).passes = statedLevels b)) ∧
    (b.length < headerSize b → (parseIgnoreMagicWork p b).passes = 0) := by
  have h1 := parseDdsWork_counts p b
  have h2 := parseIgnoreMagicWork_counts p b
  have v1 := parseDdsWork_value p b
  have v2 := parseIgnoreMagicWork_value p b
  have hs : headerSize b ≤ b.length ↔ 128 ≤ b.length ∧ (IsDx10 b → 148 ≤ b.length) := by
    unfold headerSize
    by_cases hx : IsDx10 b
    · simp only [hx, if_true, true_imp_iff]; omega
    · simp [hx]
  refine ⟨⟨v1, v2, fun ext => ⟨canHandleWork_value p b ext, canHandleUntransformWork_value p b ext⟩⟩, fun h => ?_, fun h => ?_, fun h => ?_, fun h => ?_⟩
  · rw [if_pos h] at h1
    exact ⟨h1.1, fun hn => h1.2 (by rw [v1]; exact Option.isSome_iff_ne_none.2 hn)⟩
  · rw [if_neg h] at h1
    exact Nat.le_zero.1 h1.1
  · rw [if_pos (hs.1 h)] at h2
    exact ⟨h2.1, fun hn => h2.2 (by rw [v2]; exact Option.isSome_iff_ne_none.2 hn)⟩
  · rw [if_neg (fun k => by have := hs.2 k; omega)] at h2
    exact Nat.le_zero.1 h2.1

theorem total_ge (f : Nat → Nat) (k : Nat) (hf : ∀ i, k ≤ i → 1 ≤ f i) : ∀ n, n ≤ total n f + k := by
  intro n
  unfold total
  induction n with
  | zero => omega
  | succ n ih =>
    rw [List.range_succ, List.map_append, List.sum_append]
    simp only [List.map_cons, List.map_nil, List.sum_cons, List.sum_nil]
    by_cases h : k ≤ n
    · have := hf n h; omega
    · omega

theorem dim_small {w i : Nat} (hw : w < 2 ^ 32) (hi : 32 ≤ i) : dim w i = 1 := by
  unfold dim
  rw [if_neg (by omega), Nat.div_eq_of_lt (Nat.lt_of_lt_of_le hw (Nat.pow_le_pow_right (by omega) hi))]
  rfl

theorem levelSize_pos {b : Buf} (h : HasSize b) {i : Nat} (hi : 32 ≤ i) : 1 ≤ levelSize b i % 2 ^ 32 := by
  have h58 := num_lt b 0x58
  unfold levelSize
  cases hb : blockBytes (classify b) with
  | some k =>
    rw [dim_small (num_lt b _) hi, dim_small (num_lt b _) hi]
    have hk : k = 8 ∨ k = 16 := by
      unfold blockBytes at hb
      split at hb <;> simp at hb <;> omega
    dsimp only
    rcases hk with rfl | rfl <;> decide
  | none =>
    have hp : pixelBytes b ≠ 0 := h.resolve_left (by rw [hb]; simp)
    have hl : pixelBytes b < 2 ^ 32 := by
      unfold pixelBytes
      split
      · decide
      · decide
      · decide
      · split
        · omega
        · decide
      · decide
    dsimp only
    rw [dim_small (num_lt b _) hi, dim_small (num_lt b _) hi, Nat.one_mul, Nat.mod_eq_of_lt hl]
    omega

/-- **C101** (complete textures).  The number of passes exceeds the texture size that the parser reports by at most 32, so for a file that holds its whole texture
it is less than the length of the file. -/
theorem C101_complete (p : Platform) (b : Buf) (info : DdsInfo) (h : parseDds p b = some (some info)) :
    (parseDdsWork p b).passes ≤ info.dataLength.toNat + 32 ∧
    (headerSize b + info.dataLength.toNat ≤ b.length → (parseDdsWork p b).passes + 96 ≤ b.length) := by
  have hs := parseDds_spec p b
  rw [h] at hs
  by_cases hd : IsDds b
  swap
  · rw [if_neg hd] at hs; simp at hs
  rw [if_pos hd] at hs
  have hr : info = reported b := by
    by_cases hc : p.overflowChecks = true ∧ LevelTooLarge b
    · rw [if_pos hc] at hs; simp at hs
    · rw [if_neg hc] at hs; simpa using hs
  have hpass := ((C101_passes p b).2.1 hd).1
  have hlen : info.dataLength.toNat = min (total (mipCount b) fun i => levelSize b i % 2 ^ 32) (2 ^ 32 - 1) := by
    rw [hr]
    unfold reported
    dsimp only
    rw [BitVec.toNat_ofNat, Nat.mod_eq_of_lt (by omega)]
  have hmain : statedLevels b ≤ info.dataLength.toNat + 32 := by
    unfold statedLevels
    by_cases hz : HasSize b
    · rw [if_pos hz, hlen]
      have h1 := total_ge (fun i => levelSize b i % 2 ^ 32) 32 (fun i hi => levelSize_pos hz hi) (mipCount b)
      have h2 : mipCount b < 2 ^ 32 := by
        unfold mipCount
        have := num_lt b 0x1C
        split <;> omega
      omega
    · rw [if_neg hz]; omega
  have := headerSize_cases b
  exact ⟨by omega, fun hl => by omega⟩

/-- A DDS header of a BC1 texture of 1x1 pixels, with `n` stated mip levels and no texture data. -/
def manyLevels (n : Nat) : Buf :=
  ascii "DDS " ++ List.replicate 4 0 ++ to32 .little 0x20000#32 ++ to32 .little 1#32 ++ to32 .little 1#32 ++ List.replicate 8 0 ++
    to32 .little (BitVec.ofNat 32 n) ++ List.replicate 48 0 ++ to32 .little 4#32 ++ ascii "DXT1" ++ List.replicate 40 0

/-- **C101** (the work is not bounded by the length).  For every number from 1 to 2^32-1 there is a file of 128 bytes that costs that many passes: the parser, and the questions
whether the handler takes the file for transformation or untransformation, with extension `dds` or without extension.  They all answer yes. -/
theorem C101_unbounded (p : Platform) (n : Nat) (h1 : 1 ≤ n) (h2 : n < 2 ^ 32) :
    ∃ b : Buf, b.length = 128 ∧ (parseDdsWork p b).passes = n ∧ ∀ ext, ext = none ∨ ext = some "dds" →
      (canHandleWork p b ext).passes = n ∧ (canHandleWork p b ext).value = some true ∧
      (canHandleUntransformWork p b ext).passes = n ∧ (canHandleUntransformWork p b ext).value = some true := by
  have hl : (manyLevels n).length = 128 := rfl
  have word : ∀ (off : Nat) (v : U32), off + 4 ≤ 128 → slice (manyLevels n) off 4 = to32 .little v → num (manyLevels n) off = v.toNat := by
    intro off v ho hs
    rw [← num_eq (by rw [hl]; exact ho), hs, of32_to32]
  have n08 : num (manyLevels n) 0x08 = 0x20000 := word _ 0x20000#32 (by decide) rfl
  have n0C : num (manyLevels n) 0x0C = 1 := word _ 1#32 (by decide) rfl
  have n10 : num (manyLevels n) 0x10 = 1 := word _ 1#32 (by decide) rfl
  have n50 : num (manyLevels n) 0x50 = 4 := word _ 4#32 (by decide) rfl
  have h54 : slice (manyLevels n) 0x54 4 = ascii "DXT1" := rfl
  have h0 : slice (manyLevels n) 0 4 = ascii "DDS " := rfl
  have n1C : num (manyLevels n) 0x1C = n := by
    rw [word _ (BitVec.ofNat 32 n) (by decide) rfl, BitVec.toNat_ofNat, Nat.mod_eq_of_lt h2]
  have hx : ¬ IsDx10 (manyLevels n) := by
    unfold IsDx10 fourcc
    rw [h54]; decide
  have hc : classify (manyLevels n) = .bc1 := by
    have hf : PixelFlag (manyLevels n) 2 := by unfold PixelFlag; rw [n50]
    unfold classify fourcc
    rw [if_neg hx, if_pos hf, h54]
    decide
  have hmip : mipCount (manyLevels n) = n := by
    unfold mipCount
    rw [n08, n1C, if_pos (by decide)]
    omega
  have hsz : statedLevels (manyLevels n) = n := by
    unfold statedLevels
    rw [if_pos (show HasSize _ from .inl (by rw [hc]; decide)), hmip]
  have hno : ¬ LevelTooLarge (manyLevels n) := by
    rintro ⟨i, _, hi⟩
    have hd : dim 1 i = 1 := by
      unfold dim
      split
      · rfl
      · have : 1 / 2 ^ i ≤ 1 := Nat.div_le_self _ _
        omega
    unfold levelSize at hi
    rw [hc, n0C, n10, hd] at hi
    simp [blockBytes] at hi
  have hdds : IsDds (manyLevels n) := ⟨h0, by rw [hl], fun h => absurd h hx⟩
  have hp : parseDds p (manyLevels n) = some (some (reported (manyLevels n))) := by
    rw [parseDds_spec, if_pos hdds, if_neg (fun h => hno h.2)]
  have hi : parseIgnoreMagic p (manyLevels n) = some (some (reported (manyLevels n))) := by
    rw [parseIgnoreMagic_spec, if_pos ⟨by rw [hl], fun h => absurd h hx⟩, if_neg (fun h => hno h.2)]
  obtain ⟨⟨v1, v2, _⟩, c1, _, c2, _⟩ := C101_passes p (manyLevels n)
  have c1 := (c1 hdds).2 (by rw [hp]; simp)
  have c2 := (c2 (by unfold headerSize; rw [if_neg hx, hl])).2 (by rw [hi]; simp)
  rw [hsz] at c1 c2
  rw [hp] at v1
  rw [hi] at v2
  refine ⟨manyLevels n, hl, c1, ?_⟩
  have g1 : (canHandleWork p (manyLevels n) none).passes = n ∧ (canHandleWork p (manyLevels n) none).value = some true := by
    change (Work.andThen _ _).passes = n ∧ (Work.andThen _ _).value = _
    unfold Work.andThen
    rw [v1]
    exact ⟨by dsimp only; rw [c1]; rfl, rfl⟩
  have g2 : (canHandleUntransformWork p (manyLevels n) none).passes = n ∧
      (canHandleUntransformWork p (manyLevels n) none).value = some true := by
    unfold canHandleUntransformWork
    dsimp only
    rw [if_neg (by rw [hl]; decide)]
    change (Work.andThen _ _).passes = n ∧ (Work.andThen _ _).value = _
    unfold Work.andThen
    rw [v2]
    exact ⟨by dsimp only; rw [c2]; rfl, rfl⟩
  rintro ext (rfl | rfl)
  · exact ⟨g1.1, g1.2, g2.1, g2.2⟩
  · have e1 : canHandleWork p (manyLevels n) (some "dds") = canHandleWork p (manyLevels n) none := by
      unfold canHandleWork
      dsimp only
      rw [if_neg (by simp)]
    have e2 : canHandleUntransformWork p (manyLevels n) (some "dds") = canHandleUntransformWork p (manyLevels n) none := by
      unfold canHandleUntransformWork
      dsimp only
      rw [if_neg (by simp)]
    rw [e1, e2]
    exact ⟨g1.1, g1.2, g2.1, g2.2⟩

/-- Non-vacuity of `C101_passes` and `C101_complete`: a header with three levels, and a file with a complete texture of one level. -/
example : (parseDdsWork somePlatform (manyLevels 3)).passes = 3 ∧ IsDds (manyLevels 3) ∧ statedLevels (manyLevels 3) = 3 ∧
    (parseDdsWork somePlatform smallFile).passes = 1 ∧ ((parseDds somePlatform smallFile).join.map (·.dataLength.toNat)) = some 8 ∧
    headerSize smallFile + 8 ≤ smallFile.length := by
  decide +kernel

end Dlt.Props
