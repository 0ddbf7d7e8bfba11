import Verif.Props.DdsDebug
/-!
# C103: of several surfaces only the first is transformed

A DDS file may hold a cube map (six faces), an array of textures or a volume; then the same amount of data follows several
times.  The handler never reads the fields that say so.  Here: these fields have no influence, the first surface is
transformed as if it stood alone, and all others are copied.
-/

namespace Dlt.Props

open Dlt.FileFormats Dlt.Dds Dlt.Embed

variable {σ E : Type}

/-! ## Specification -/

/-- The fields of the header that say what the first surface is, each of four bytes: flags, height, width, number of mip
levels, pixel format flags, four character code, bits per pixel, four masks. -/
def surfaceFields : List Nat := [0x08, 0x0C, 0x10, 0x1C, 0x50, 0x54, 0x58, 0x5C, 0x60, 0x64, 0x68]

/-- Byte `i` belongs to one of these fields, or to the format number of the DX10 header. -/
def InField (dx10 : Prop) (i : Nat) : Prop :=
  (∃ o ∈ surfaceFields, o ≤ i ∧ i < o + 4) ∨ (dx10 ∧ 0x80 ≤ i ∧ i < 0x84)

instance (dx10 : Prop) [Decidable dx10] (i : Nat) : Decidable (InField dx10 i) :=
  inferInstanceAs (Decidable ((∃ o ∈ surfaceFields, o ≤ i ∧ i < o + 4) ∨ _))

/-- Byte `i` is in the header but neither in the magic nor in one of these fields.  Among these bytes are the pitch, the
depth, all capability bits (cube map, volume) and the dimension, array size and flags of the DX10 header. -/
def Unread (b : Buf) (i : Nat) : Prop := 4 ≤ i ∧ i < headerSize b ∧ ¬ InField (IsDx10 b) i

instance (b : Buf) (i : Nat) : Decidable (Unread b i) := inferInstanceAs (Decidable (_ ∧ _ ∧ ¬ _))

/-- The number of surfaces that the header announces: for DX10 the array size at 140, six times as many if bit 2 of the
flags at 136 says cube map; otherwise the number of faces marked in bits 10 to 15 of the capabilities at 112 if bit 9 says
cube map. -/
def surfaces (b : Buf) : Nat :=
  if IsDx10 b then max (num b 140) 1 * (if num b 136 / 2 ^ 2 % 2 = 1 then 6 else 1)
  else if num b 112 / 2 ^ 9 % 2 = 1 then
    ((List.range 6).filter fun k => num b 112 / 2 ^ (10 + k) % 2 = 1).length
  else 1

/-- Surface number `k` of a file. -/
def surface (b : Buf) (k : Nat) : Buf := slice b (headerSize b + k * textureSize b) (textureSize b)

/-! ## What the handler reads -/

/-- The files agree in the fields that the handler reads. -/
def SameFields (x y : Buf) : Prop := ∀ i, InField (IsDx10 x) i → y.getD i 0 = x.getD i 0

theorem num_congr {x y : Buf} {o : Nat} (h : ∀ i, o ≤ i → i < o + 4 → y.getD i 0 = x.getD i 0) : num y o = num x o := by
  unfold num
  rw [h o (by omega) (by omega), h (o + 1) (by omega) (by omega), h (o + 2) (by omega) (by omega),
    h (o + 3) (by omega) (by omega)]

section
variable {x y : Buf} (hs : SameFields x y) (hx : 128 ≤ x.length) (hy : 128 ≤ y.length)
include hs

theorem same_num {o : Nat} (ho : o ∈ surfaceFields) : num y o = num x o :=
  num_congr fun i h1 h2 => hs i (.inl ⟨o, ho, h1, h2⟩)

theorem same_flag (k : Nat) : PixelFlag y k = PixelFlag x k := by
  unfold PixelFlag
  rw [same_num hs (o := 0x50) (by decide)]

theorem same_mipCount : mipCount y = mipCount x := by
  unfold mipCount
  rw [same_num hs (o := 0x08) (by decide), same_num hs (o := 0x1C) (by decide)]

include hx hy

theorem same_fourcc : fourcc y = fourcc x := by
  unfold fourcc
  have h : ∀ i, 0x54 ≤ i → i < 0x58 → y.getD i 0 = x.getD i 0 := fun i h1 h2 =>
    hs i (.inl ⟨0x54, by decide, h1, h2⟩)
  rw [slice4 (by omega), slice4 (by omega), h _ (by omega) (by omega), h _ (by omega) (by omega),
    h _ (by omega) (by omega), h _ (by omega) (by omega)]

theorem same_dx10 : IsDx10 y = IsDx10 x := by
  unfold IsDx10
  rw [same_fourcc hs hx hy]

theorem same_headerSize : headerSize y = headerSize x := by
  unfold headerSize
  have := same_dx10 hs hx hy
  by_cases h : IsDx10 x
  · rw [if_pos h, if_pos (this ▸ h)]
  · rw [if_neg h, if_neg (this ▸ h)]

theorem same_classify : classify y = classify x := by
  have e := same_dx10 hs hx hy
  have ep : pixelLayout y = pixelLayout x := by
    unfold pixelLayout
    rw [same_num hs (o := 0x58) (by decide), same_num hs (o := 0x5C) (by decide), same_num hs (o := 0x60) (by decide),
      same_num hs (o := 0x64) (by decide), same_num hs (o := 0x68) (by decide)]
  unfold classify
  simp only [ep, same_flag hs, same_fourcc hs hx hy]
  by_cases h : IsDx10 x
  · rw [if_pos h, if_pos (e ▸ h), num_congr (x := x) (y := y) (o := 0x80) fun i h1 h2 => hs i (.inr ⟨h, h1, h2⟩)]
  · rw [if_neg h, if_neg (e ▸ h)]

theorem same_levelSize : levelSize y = levelSize x := by
  funext i
  unfold levelSize pixelBytes
  simp only [same_classify hs hx hy, same_num hs (o := 0x10) (by decide), same_num hs (o := 0x0C) (by decide),
    same_flag hs, same_num hs (o := 0x58) (by decide)]

theorem same_reported : reported y = reported x := by
  unfold reported
  rw [same_classify hs hx hy, same_headerSize hs hx hy, same_mipCount hs, same_levelSize hs hx hy]

theorem same_reportedSize : reportedSize y = reportedSize x := by
  unfold reportedSize
  rw [same_mipCount hs, same_levelSize hs hx hy]

theorem same_levelTooLarge : LevelTooLarge y = LevelTooLarge x := by
  unfold LevelTooLarge
  rw [same_mipCount hs, same_levelSize hs hx hy]

end

/-- Two files with the same fields that are both long enough for the header are parsed alike. -/
theorem parse_same {x y : Buf} (p : Platform) (hs : SameFields x y) (hx : headerSize x ≤ x.length)
    (hy : headerSize x ≤ y.length) : parseIgnoreMagic p y = parseIgnoreMagic p x := by
  have hh := headerSize_le x
  have e := same_dx10 hs (by omega) (by omega)
  have hd : IsDx10 x → headerSize x = 148 := fun h => if_pos h
  have et := same_levelTooLarge hs (by omega) (by omega)
  have c1 : 128 ≤ y.length ∧ (IsDx10 y → 148 ≤ y.length) := ⟨by omega, fun h => by have := hd (e ▸ h); omega⟩
  have c2 : 128 ≤ x.length ∧ (IsDx10 x → 148 ≤ x.length) := ⟨by omega, fun h => by have := hd h; omega⟩
  rw [parseIgnoreMagic_spec, parseIgnoreMagic_spec, if_pos c1, if_pos c2, same_reported hs (by omega) (by omega)]
  by_cases ht : p.overflowChecks = true ∧ LevelTooLarge x
  · rw [if_pos ht, if_pos (et.symm ▸ ht)]
  · rw [if_neg ht, if_neg (et.symm ▸ ht)]

theorem parseDds_same {x y : Buf} (p : Platform) (hs : SameFields x y) (hm : slice y 0 4 = slice x 0 4)
    (hx : headerSize x ≤ x.length) (hy : headerSize x ≤ y.length) : parseDds p y = parseDds p x := by
  have hh := headerSize_le x
  rw [parseDds_eq, parseDds_eq, parse_same p hs hx hy, hm]
  have : (128 ≤ y.length) = (128 ≤ x.length) := by simp; omega
  simp only [this]

theorem sameFields_append (x rest : Buf) (h : headerSize x ≤ x.length) : SameFields x (x ++ rest) := by
  have hh := headerSize_le x
  intro i hi
  have hi : i < x.length := by
    rcases hi with ⟨o, ho, _, hi⟩ | ⟨hd, _, hi⟩
    · simp only [surfaceFields, List.mem_cons, List.not_mem_nil, or_false] at ho
      omega
    · have : headerSize x = 148 := if_pos hd
      omega
  rw [List.getD_eq_getElem?_getD, List.getD_eq_getElem?_getD, List.getElem?_append_left hi]

/-! ## The first surface as if alone -/

/-- What comes after the first surface in the output: a copy of the input if the call succeeds, otherwise what was there. -/
def behind {α : Type} (rest out : Buf) : Except TransformError α → Buf
  | .ok _ => rest
  | .error _ => out

/-- **C103**.  A file that holds its first surface is transformed in the same way whatever follows: same choice, same result, same
bytes, and what follows is copied. -/
theorem C103_alone_transform (p : Platform) (dbg : E → String) (bundle : Bundle σ E) (x rest out out' : Buf) (st : σ)
    (hfit : headerSize x + reportedSize x ≤ x.length) (hu : headerSize x + reportedSize x ≤ p.env.usizeMax)
    (ho : out.length = x.length) (ho' : out'.length = rest.length) :
    transformBundle p dbg bundle (x ++ rest) (out ++ out') st =
      (transformBundle p dbg bundle x out st).map fun (o, st, r) => (o ++ behind rest out' r, st, r) := by
  have hh := headerSize_le x
  have hs := sameFields_append x rest (by omega)
  have hp : parseDds p (x ++ rest) = parseDds p x :=
    parseDds_same p hs (slice_append_left _ _ _ _ (by omega)) (by omega) (by simp; omega)
  have hspec := parseDds_spec p x
  by_cases hd : IsDds x
  swap
  · rw [if_neg hd] at hspec
    unfold transformBundle
    rw [if_neg (by simp; omega), if_neg (by omega), hp, hspec]
    rfl
  rw [if_pos hd] at hspec
  by_cases ht : p.overflowChecks = true ∧ LevelTooLarge x
  · rw [if_pos ht] at hspec
    unfold transformBundle
    rw [if_neg (by simp; omega), if_neg (by omega), hp, hspec]
    rfl
  rw [if_neg ht] at hspec
  rw [transform_eq p dbg bundle x out st hspec (reported_offset x) (reported_length x) hfit (by omega) hu,
    transform_eq p dbg bundle (x ++ rest) (out ++ out') st (hp.trans hspec) (reported_offset x) (reported_length x)
      (by simp; omega) (by simp; omega) hu,
    slice_append_left _ _ _ _ (by omega), slice_append_left _ _ _ _ (by omega)]
  cases toTransformFormat (reported x).format false with
  | error e =>
    dsimp only [Option.map_some, behind]
    rw [List.take_append_of_le_length (by omega), List.drop_append_of_le_length (by omega), List.append_assoc]
  | ok f =>
    dsimp only
    obtain ⟨tex, st', r, hr, hl, _⟩ := dispatchTransform_spec p.env p.m dbg bundle f
      (slice x (headerSize x) (reportedSize x)) (slice out (headerSize x) (reportedSize x)) st
    rw [hr]
    cases r with
    | error e =>
      dsimp only [Option.map_some, behind]
      rw [List.take_append_of_le_length (by omega), List.drop_append_of_le_length (by omega), List.append_assoc _ _ out']
    | ok h =>
      dsimp only
      have e4 : slice (x ++ rest) 4 (headerSize x - 4) = slice x 4 (headerSize x - 4) := slice_append_left _ _ _ _ (by omega)
      have er : x.drop (headerSize x + reportedSize x) ++ rest = (x ++ rest).drop (headerSize x + reportedSize x) := by
        rw [List.drop_append_of_le_length (by omega)]
      by_cases hlt : headerSize x + reportedSize x < x.length
      · rw [if_pos hlt, if_pos ho, if_pos (by simp; omega), if_pos (by simp; omega)]
        simp only [Option.map_some, assemble, behind, e4, List.append_assoc, er]
      · have e0 : headerSize x + reportedSize x = x.length := by omega
        rw [if_neg hlt]
        by_cases hr0 : rest = []
        · subst hr0
          have : out' = [] := List.length_eq_zero_iff.mp ho'
          subst this
          simp only [List.append_nil]
          rw [if_neg hlt]
          simp [behind]
        · have : 0 < rest.length := List.length_pos_iff.mpr hr0
          rw [if_pos (by simp; omega), if_pos (by simp; omega)]
          have e5 : out.drop (headerSize x + reportedSize x) = x.drop (headerSize x + reportedSize x) := by
            rw [List.drop_of_length_le (by omega), List.drop_of_length_le (by omega)]
          simp only [Option.map_some, assemble, behind, e4, List.append_assoc, e5, er]

/-- **C103**, backwards. -/
theorem C103_alone_untransform (p : Platform) (x rest out out' : Buf)
    (hfit : headerSize x + reportedSize x ≤ x.length) (hu : headerSize x + reportedSize x ≤ p.env.usizeMax)
    (ho : out.length = x.length) (ho' : out'.length = rest.length) :
    untransform p (x ++ rest) (out ++ out') =
      (untransform p x out).map fun (o, r) => (o ++ behind rest out' r, r) := by
  have hh := headerSize_le x
  have hs := sameFields_append x rest (by omega)
  have hp : parseIgnoreMagic p (x ++ rest) = parseIgnoreMagic p x :=
    parse_same p hs (by omega) (by simp; omega)
  have hspec := parseIgnoreMagic_spec p x
  have hd : IsDx10 x → headerSize x = 148 := fun h => if_pos h
  rw [if_pos ⟨by omega, fun h => by have := hd h; omega⟩] at hspec
  by_cases ht : p.overflowChecks = true ∧ LevelTooLarge x
  · rw [if_pos ht] at hspec
    unfold untransform
    rw [if_neg (by simp; omega), if_neg (by simp; omega), if_neg (by omega), if_neg (by omega),
      read_eq _ _ _ (by simp; omega), read_eq _ _ _ (by omega), hp, hspec]
    rfl
  rw [if_neg ht] at hspec
  rw [untransform_eq p x out hspec (reported_offset x) (reported_length x) hfit (by omega) hu,
    untransform_eq p (x ++ rest) (out ++ out') (hp.trans hspec) (reported_offset x) (reported_length x)
      (by simp; omega) (by simp; omega) hu,
    slice_append_left _ _ _ _ (by omega), slice_append_left _ _ _ _ (by omega), slice_append_left _ _ _ _ (by omega)]
  have e4 : slice (x ++ rest) 4 (headerSize x - 4) = slice x 4 (headerSize x - 4) := slice_append_left _ _ _ _ (by omega)
  have er : x.drop (headerSize x + reportedSize x) ++ rest = (x ++ rest).drop (headerSize x + reportedSize x) := by
    rw [List.drop_append_of_le_length (by omega)]
  obtain ⟨tex, r, hr, hl⟩ := dispatchUntransform_spec p.m ⟨of32 .little (slice x 0 4)⟩
    (slice x (headerSize x) (reportedSize x)) (slice out (headerSize x) (reportedSize x))
  rw [hr]
  cases r with
  | error e =>
    simp only [Option.map_some, behind, assemble, e4]
    rw [List.drop_append_of_le_length (by omega), List.append_assoc _ _ out']
  | ok h =>
    dsimp only
    by_cases hlt : headerSize x + reportedSize x < x.length
    · rw [if_pos hlt, if_pos ho, if_pos (by simp; omega), if_pos (by simp; omega)]
      simp only [Option.map_some, assemble, behind, e4, List.append_assoc, er]
    · rw [if_neg hlt]
      by_cases hr0 : rest = []
      · subst hr0
        have : out' = [] := List.length_eq_zero_iff.mp ho'
        subst this
        simp only [List.append_nil]
        rw [if_neg hlt]
        simp [behind]
      · have : 0 < rest.length := List.length_pos_iff.mpr hr0
        rw [if_pos (by simp; omega), if_pos (by simp; omega)]
        have e5 : out.drop (headerSize x + reportedSize x) = x.drop (headerSize x + reportedSize x) := by
          rw [List.drop_of_length_le (by omega), List.drop_of_length_le (by omega)]
        simp only [Option.map_some, assemble, behind, e4, List.append_assoc, e5, er]

/-! ## The other surfaces -/

theorem reportedSize_eq {b : Buf} (h : textureSize b < 2 ^ 32) : reportedSize b = textureSize b := by
  unfold reportedSize
  rw [total_congr (g := levelSize b) fun i hi => Nat.mod_eq_of_lt (Nat.lt_of_le_of_lt (le_total hi) h)]
  unfold textureSize at h ⊢
  omega

theorem slice_eq_of_drop {a b : Buf} {s o n : Nat} (h : a.drop s = b.drop s) (hs : s ≤ o) : slice a o n = slice b o n := by
  unfold slice
  have e : ∀ c : Buf, c.drop o = (c.drop s).drop (o - s) := fun c => by rw [List.drop_drop]; congr 1; omega
  rw [e a, e b, h]

/-- **C103**.  In a file with any number of surfaces, all but the first are in the output unchanged. -/
theorem C103_others_copied (p : Platform) (hu : 2 ^ 32 - 1 ≤ p.env.usizeMax) (dbg : E → String) (bundle : Bundle σ E)
    (x out o : Buf) (st st' : σ) (hsize : textureSize x < 2 ^ 32) (hl : out.length = x.length)
    (h : transformBundle p dbg bundle x out st = some (o, st', .ok ())) :
    o.length = x.length ∧ ∀ k, 1 ≤ k → k < surfaces x →
      slice o (headerSize x + k * textureSize x) (textureSize x) = surface x k := by
  obtain ⟨info, f, tex, w, hp, h1, _, _, _, _, ht, _, rfl⟩ := transform_ok hu h
  have hi := reported_of_parse (parseDds_some hp).1
  subst hi
  rw [reported_offset, reported_length, reportedSize_eq hsize] at h1 ⊢
  rw [reported_length, reportedSize_eq hsize] at ht
  have hh := headerSize_le x
  have e5 : (if headerSize x + textureSize x < x.length then x.drop (headerSize x + textureSize x)
      else out.drop (headerSize x + textureSize x)) = x.drop (headerSize x + textureSize x) := by
    split
    · rfl
    · rw [List.drop_of_length_le (by omega), List.drop_of_length_le (by omega)]
  have l0 : (to32 .little w.word).length = 4 := to32_length _ _
  have hlen : (assemble (to32 .little w.word) x tex (x.drop (headerSize x + textureSize x)) (headerSize x)).length = x.length := by
    rw [assemble_length l0 (by omega) (by omega), ht, List.length_drop]; omega
  rw [e5]
  refine ⟨hlen, fun k h1' _ => ?_⟩
  unfold surface
  have hk : textureSize x ≤ k * textureSize x := Nat.le_mul_of_pos_left _ h1'
  refine slice_eq_of_drop (s := headerSize x + textureSize x) ?_ (by omega)
  unfold assemble
  rw [List.drop_left']
  rw [List.length_append, List.length_append, l0, slice_length_of_le (by omega), ht]
  omega

/-! ## The fields that are not read -/

theorem parse_same_len {x y : Buf} (p : Platform) (hs : SameFields x y) (hl : y.length = x.length) :
    parseIgnoreMagic p y = parseIgnoreMagic p x := by
  rw [parseIgnoreMagic_spec, parseIgnoreMagic_spec]
  by_cases h : 128 ≤ x.length
  · have h' : 128 ≤ y.length := by omega
    simp only [hl, same_dx10 hs h h', same_reported hs h h', same_levelTooLarge hs h h']
  · rw [if_neg (fun hc => h (hl ▸ hc.1)), if_neg (fun hc => h hc.1)]

theorem parseDds_same_len {x y : Buf} (p : Platform) (hs : SameFields x y) (hm : slice y 0 4 = slice x 0 4)
    (hl : y.length = x.length) : parseDds p y = parseDds p x := by
  rw [parseDds_eq, parseDds_eq, parse_same_len p hs hl, hm, hl]

theorem slice_congr_get {x y : Buf} {o n : Nat} (h : ∀ i, o ≤ i → i < o + n → y[i]? = x[i]?) : slice y o n = slice x o n := by
  apply List.ext_getElem?
  intro i
  simp only [slice_getElem?]
  split
  · exact h _ (by omega) (by omega)
  · rfl

section
variable {x y : Buf} (hag : ∀ i, ¬ Unread x i → y[i]? = x[i]?)
include hag

theorem unread_fields : SameFields x y := fun i hi => by
  rw [List.getD_eq_getElem?_getD, List.getD_eq_getElem?_getD, hag i fun h => h.2.2 hi]

theorem unread_magic : slice y 0 4 = slice x 0 4 :=
  slice_congr_get fun i _ h2 => hag i fun h => by have := h.1; omega

theorem unread_slice {o n : Nat} (ho : headerSize x ≤ o) : slice y o n = slice x o n :=
  slice_congr_get fun i h1 _ => hag i fun h => by have := h.2.1; omega

theorem unread_drop {o : Nat} (ho : headerSize x ≤ o) : y.drop o = x.drop o := by
  apply List.ext_getElem?
  intro i
  rw [List.getElem?_drop, List.getElem?_drop]
  exact hag _ fun h => by have := h.2.1; omega

end

/-- Appending the same bytes to two pieces of the same length. -/
theorem append_agree {P : Nat → Prop} {a a' b : Buf} (hl : a'.length = a.length)
    (h : ∀ i, i < a.length → P i → a'[i]? = a[i]?) : ∀ i, P i → (a' ++ b)[i]? = (a ++ b)[i]? := by
  intro i hi
  by_cases hc : i < a.length
  · rw [List.getElem?_append_left (by omega), List.getElem?_append_left hc, h i hc hi]
  · rw [List.getElem?_append_right (by omega), List.getElem?_append_right (by omega), hl]

theorem take_agree {x y out : Buf} {off : Nat} (hl : y.length = x.length) (hag : ∀ i, ¬ Unread x i → y[i]? = x[i]?) :
    ∀ i, ¬ Unread x i → (y.take off ++ out)[i]? = (x.take off ++ out)[i]? :=
  append_agree (by simp [hl]) fun i hi hu => by
    rw [List.getElem?_take, List.getElem?_take, hag i hu]

theorem assemble_agree {x y magic tex rest : Buf} {off : Nat} (hl : y.length = x.length)
    (hag : ∀ i, ¬ Unread x i → y[i]? = x[i]?) (hm : magic.length = 4) :
    ∀ i, ¬ Unread x i → (assemble magic y tex rest off)[i]? = (assemble magic x tex rest off)[i]? := by
  unfold assemble
  have hs : (slice y 4 (off - 4)).length = (slice x 4 (off - 4)).length := by simp [slice, hl]
  intro i hu
  rw [List.append_assoc, List.append_assoc _ tex]
  refine append_agree (P := fun i => ¬ Unread x i) (by simp [hs]) (fun i hi hu => ?_) i hu
  by_cases hc : i < 4
  · rw [List.getElem?_append_left (by omega), List.getElem?_append_left (by omega)]
  · rw [List.getElem?_append_right (by omega), List.getElem?_append_right (by omega), slice_getElem?, slice_getElem?, hm]
    split
    · rw [show 4 + (i - 4) = i by omega, hag i hu]
    · rfl

/-- The outcomes of two calls: both panic, or both end in the same way and the outputs agree except in the header bytes that
are not read. -/
def AlikeBut {α : Type} (x : Buf) : Option (Buf × α) → Option (Buf × α) → Prop
  | none, none => True
  | some (o, a), some (o', a') => a' = a ∧ ∀ i, ¬ Unread x i → o'[i]? = o[i]?
  | _, _ => False

/-- **C103**.  Two files that differ only in header bytes outside the fields of the first surface are transformed alike: the
same choice of settings, the same result, and outputs that differ only in those bytes. -/
theorem C103_unread_transform (p : Platform) (hw : Wide p) (dbg : E → String) (bundle : Bundle σ E) (x y out : Buf) (st : σ)
    (hl : y.length = x.length) (hag : ∀ i, ¬ Unread x i → y[i]? = x[i]?) :
    AlikeBut x (transformBundle p dbg bundle x out st) (transformBundle p dbg bundle y out st) := by
  have hh := headerSize_le x
  have hp := parseDds_same_len p (unread_fields hag) (unread_magic hag) hl
  have refl : ∀ r : Option (Res σ Unit), AlikeBut x r r := fun r => by
    rcases r with _ | ⟨o, a⟩
    · trivial
    · exact ⟨rfl, fun _ _ => rfl⟩
  by_cases ho : out.length < x.length
  · unfold transformBundle
    rw [if_pos ho, if_pos (by omega), hl]
    exact refl _
  rcases hpx : parseDds p x with _ | _ | info
  · unfold transformBundle
    rw [if_neg ho, if_neg (by omega), hp, hpx]
    exact refl none
  · unfold transformBundle
    rw [if_neg ho, if_neg (by omega), hp, hpx]
    exact refl (some _)
  have hi := reported_of_parse (parseDds_some hpx).1
  subst hi
  have hu := wide_sum hw (parseDds_some hpx).1
  rw [reported_offset, reported_length] at hu
  by_cases hfit : headerSize x + reportedSize x ≤ x.length
  swap
  · unfold transformBundle
    rw [if_neg ho, if_neg (by omega), hp, hpx]
    simp only [Option.bind_eq_bind, Option.bind_some, reported_offset, reported_length]
    rw [addUsize_eq hu, Option.bind_some, Option.bind_some, if_pos (by omega), if_pos (by omega), hl]
    exact refl _
  rw [transform_eq p dbg bundle x out st hpx (reported_offset x) (reported_length x) hfit (by omega) hu,
    transform_eq p dbg bundle y out st (hp.trans hpx) (reported_offset x) (reported_length x)
      (by omega) (by omega) hu, unread_slice hag (Nat.le_refl _), unread_drop hag (Nat.le_add_right _ _), hl]
  cases toTransformFormat (reported x).format false with
  | error e => exact ⟨rfl, take_agree hl hag⟩
  | ok f =>
    dsimp only
    obtain ⟨tex, st', r, hr, _⟩ := dispatchTransform_spec p.env p.m dbg bundle f
      (slice x (headerSize x) (reportedSize x)) (slice out (headerSize x) (reportedSize x)) st
    rw [hr]
    cases r with
    | error e =>
      refine ⟨rfl, fun i hi => ?_⟩
      rw [List.append_assoc, List.append_assoc]
      exact take_agree hl hag i hi
    | ok h =>
      dsimp only
      have l4 : (to32 .little h.word).length = 4 := to32_length _ _
      split
      · split
        · exact ⟨rfl, assemble_agree hl hag l4⟩
        · trivial
      · exact ⟨rfl, assemble_agree hl hag l4⟩

/-- **C103**, backwards.  (The first four bytes hold the settings and are read.) -/
theorem C103_unread_untransform (p : Platform) (hw : Wide p) (x y out : Buf)
    (hl : y.length = x.length) (hag : ∀ i, ¬ Unread x i → y[i]? = x[i]?) :
    AlikeBut x (untransform p x out) (untransform p y out) := by
  have hh := headerSize_le x
  have hp := parse_same_len p (unread_fields hag) hl
  have refl : ∀ r : Option (Buf × Except TransformError Unit), AlikeBut x r r := fun r => by
    rcases r with _ | ⟨o, a⟩
    · trivial
    · exact ⟨rfl, fun _ _ => rfl⟩
  by_cases h4 : x.length < 4
  · unfold untransform
    rw [if_pos h4, if_pos (by omega), hl]
    exact refl _
  by_cases ho : out.length < x.length
  · unfold untransform
    rw [if_neg h4, if_pos ho, if_neg (by omega), if_pos (by omega), hl]
    exact refl _
  rcases hpx : parseIgnoreMagic p x with _ | _ | info
  · unfold untransform
    rw [if_neg h4, if_neg ho, if_neg (by omega), if_neg (by omega), hp, hpx, read_eq _ _ _ (by omega),
      read_eq _ _ _ (by omega)]
    exact refl none
  · unfold untransform
    rw [if_neg h4, if_neg ho, if_neg (by omega), if_neg (by omega), hp, hpx, read_eq _ _ _ (by omega),
      read_eq _ _ _ (by omega)]
    exact refl (some _)
  have hi := reported_of_parse hpx
  subst hi
  have hu := wide_sum hw hpx
  rw [reported_offset, reported_length] at hu
  by_cases hfit : headerSize x + reportedSize x ≤ x.length
  swap
  · unfold untransform
    rw [if_neg h4, if_neg ho, if_neg (by omega), if_neg (by omega), hp, hpx, read_eq _ _ _ (by omega),
      read_eq _ _ _ (by omega)]
    simp only [Option.bind_eq_bind, Option.bind_some, reported_offset, reported_length]
    rw [addUsize_eq hu, Option.bind_some, Option.bind_some, if_pos (by omega), if_pos (by omega), hl]
    exact refl _
  rw [untransform_eq p x out hpx (reported_offset x) (reported_length x) hfit (by omega) hu,
    untransform_eq p y out (hp.trans hpx) (reported_offset x) (reported_length x)
      (by omega) (by omega) hu, unread_slice hag (Nat.le_refl _), unread_drop hag (Nat.le_add_right _ _), hl,
    unread_magic hag]
  obtain ⟨tex, r, hr, _⟩ := dispatchUntransform_spec p.m ⟨of32 .little (slice x 0 4)⟩
    (slice x (headerSize x) (reportedSize x)) (slice out (headerSize x) (reportedSize x))
  rw [hr]
  have l4 : (to32 .little 0x20534444#32).length = 4 := to32_length _ _
  cases r with
  | error e => exact ⟨rfl, assemble_agree hl hag l4⟩
  | ok h =>
    dsimp only
    split
    · split
      · exact ⟨rfl, assemble_agree hl hag l4⟩
      · trivial
    · exact ⟨rfl, assemble_agree hl hag l4⟩

/-! ## Concrete files -/

/-- A cube map: six faces of 8 x 4 pixels, all with the same two BC1 blocks. -/
def cubeFile : Buf :=
  (ddsHeader 0x1007#32 4#32 8#32 1#32 4#32 "DXT1" []).take 112 ++ to32 .little 0xFE00#32 ++ List.replicate 12 0 ++
    (List.replicate 6 [1, 2, 3, 4, 5, 6, 7, 8, 9, 10, 11, 12, 13, 14, 15, 16]).flatten

/-- The same file without the mark. -/
def flatFile : Buf := cubeFile.take 112 ++ List.replicate 4 0 ++ cubeFile.drop 116

/-- The transformed file: the end points of the first face decorrelated and apart from its indices, everything else as
before. -/
def cubeOut : Buf :=
  [64, 0, 0, 0] ++ slice cubeFile 4 124 ++ [216, 231, 19, 246, 95, 7, 154, 29, 5, 6, 7, 8, 13, 14, 15, 16] ++
    cubeFile.drop 144

/-- The header announces six faces, all of them are in the file and equal; transformed with the default settings, the
first face differs from the others, which are as before. -/
theorem C103_cube_first_face :
    surfaces cubeFile = 6 ∧ headerSize cubeFile + 6 * textureSize cubeFile = cubeFile.length ∧
    (∀ k, k < 6 → surface cubeFile k = surface cubeFile 0) ∧
    ∃ o, transformBundle somePlatform (fun _ : Unit => "") (Bundle.defaultAll (σ := Unit)) cubeFile
        (List.replicate 224 0) () = some (o, (), .ok ()) ∧
      slice o 128 16 ≠ surface cubeFile 0 ∧ ∀ k, 1 ≤ k → k < 6 → slice o (128 + k * 16) 16 = surface cubeFile k := by
  have h : (transformBundle somePlatform (fun _ : Unit => "") (Bundle.defaultAll (σ := Unit)) cubeFile
      (List.replicate 224 0) ()).map (fun z => (z.1, z.2.2.toOption)) = some (cubeOut, some ()) := by decide +kernel
  refine ⟨by decide +kernel, by decide +kernel, by decide +kernel, cubeOut, ?_, by decide +kernel, by decide +kernel⟩
  rcases hr : transformBundle somePlatform (fun _ : Unit => "") (Bundle.defaultAll (σ := Unit)) cubeFile
      (List.replicate 224 0) () with _ | ⟨o, s, r⟩ <;> rw [hr] at h
  · cases h
  · rcases r with e | u
    · simp [Except.toOption] at h
    · simp only [Option.map_some, Option.some.injEq, Prod.mk.injEq] at h
      rw [h.1]

/-- The mark is in bytes that are not read; without it the file is a single texture with something behind it. -/
example : surfaces flatFile = 1 ∧ flatFile.length = cubeFile.length ∧
    (∀ i, i < 224 → ¬ Unread cubeFile i → flatFile[i]? = cubeFile[i]?) ∧ flatFile ≠ cubeFile := by
  refine ⟨by decide +kernel, by decide +kernel, by decide +kernel, by decide +kernel⟩

/-- A DX10 header with an array of three cube maps announces eighteen surfaces; the format number is read, the array size is
not. -/
example :
    let b := ddsHeader 0x1007#32 4#32 4#32 1#32 4#32 "DX10" [] ++ [71#32, 3#32, 4#32, 3#32, 0#32].flatMap (to32 .little)
    surfaces b = 18 ∧ headerSize b = 148 ∧ ¬ Unread b 128 ∧ ¬ Unread b 131 ∧ Unread b 136 ∧ Unread b 140 ∧
      ¬ Unread b 148 ∧ classify b = .bc1 := by
  decide +kernel

end Dlt.Props
