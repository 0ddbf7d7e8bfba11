import Verif.Lemmas.Embed
/-!
# C23, C24, C25: the embedded header
-/

namespace Dlt.Props
open Dlt.Embed

/-- What it means that the header of `a` round trips: written anywhere in a buffer, on a host of either byte order,
and read back on a host of either byte order, it names the format of `D` and decodes to `a`; the other bytes of the
buffer keep their values. -/
def HeaderRoundtrip {α : Type} (D : Embeddable α) (a : α) : Prop :=
  ∀ (e e' : Endian) (b : Buf) (off : Nat), off + 4 ≤ b.length →
    ∃ b' h, (D.toHeader a).write e b off = some b' ∧
      b'.length = b.length ∧ b'.take off = b.take off ∧ b'.drop (off + 4) = b.drop (off + 4) ∧
      TransformHeader.read e' b' off = some h ∧ h.format = some D.format ∧ D.fromHeader h = .ok a

theorem headerRoundtrip_of {α : Type} (D : Embeddable α) (a : α) (h : (D.pack a).toNat < 2 ^ 28)
    (hu : D.unpack (D.pack a) = .ok a) : HeaderRoundtrip D a := by
  intro e e' b off hb
  have hst : st b off (to32 .little (D.toHeader a).word) =
      some (b.take off ++ to32 .little (D.toHeader a).word ++ b.drop (off + 4)) := by
    unfold st
    rw [to32_length, if_pos hb]
  have l1 : (b.take off).length = off := by simp; omega
  refine ⟨_, D.toHeader a, by rw [write_eq, hst], by simp; omega, ?_, ?_, ?_, new_format _ _, ?_⟩
  · rw [List.append_assoc, List.take_left' l1]
  · rw [List.drop_left' (by simp; omega)]
  · rw [read_eq _ _ _ (by simp; omega)]
    rw [List.append_assoc, slice_append_right _ _ _ 0 _ (by omega), slice_append_left _ _ _ _ (by simp)]
    have : slice (to32 .little (D.toHeader a).word) 0 4 = to32 .little (D.toHeader a).word := by
      unfold slice
      rw [List.drop_zero, List.take_of_length_le (by simp)]
    rw [this, of32_to32]
  · rw [fromHeader_toHeader _ _ h, hu]

/-- **C23** (BC1). -/
theorem C23_bc1_header_roundtrip (s : ColourSettings) : HeaderRoundtrip Embed.bc1 s :=
  headerRoundtrip_of _ _ (by obtain ⟨v, c⟩ := s; cases v <;> cases c <;> decide)
    (by obtain ⟨v, c⟩ := s; cases v <;> cases c <;> rfl)

/-- **C23** (BC2). -/
theorem C23_bc2_header_roundtrip (s : ColourSettings) : HeaderRoundtrip Embed.bc2 s :=
  headerRoundtrip_of _ _ (by obtain ⟨v, c⟩ := s; cases v <;> cases c <;> decide)
    (by obtain ⟨v, c⟩ := s; cases v <;> cases c <;> rfl)

/-- **C23** (BC3 and BC7, which have no settings). -/
theorem C23_bc3_bc7_header_roundtrip : HeaderRoundtrip Embed.bc3 () ∧ HeaderRoundtrip Embed.bc7 () :=
  ⟨headerRoundtrip_of _ _ (by decide) rfl, headerRoundtrip_of _ _ (by decide) rfl⟩

/-- **C23** (BC4 and BC5). -/
theorem C23_bc4_bc5_header_roundtrip (split : Bool) :
    HeaderRoundtrip (Embed.endpoints .bc4) split ∧ HeaderRoundtrip (Embed.endpoints .bc5) split :=
  ⟨headerRoundtrip_of _ _ (by cases split <;> decide) (by cases split <;> rfl),
   headerRoundtrip_of _ _ (by cases split <;> decide) (by cases split <;> rfl)⟩

/-- **C23** (RGBA8888, BGRA8888, BGR888), together with the flag that went in. -/
theorem C23_pixels_header_roundtrip (f : TransformFormat) (d : Bool) :
    HeaderRoundtrip (Embed.pixels f) (withDecorrelation d) ∧ Embed.getBit (withDecorrelation d) 2 = d :=
  ⟨headerRoundtrip_of _ _ (by cases f <;> cases d <;> decide) (by cases f <;> cases d <;> rfl), by cases d <;> rfl⟩

/-- The documented number of a variant. -/
def variantCode : Variant → Nat
  | .v1 => 0
  | .v2 => 1
  | .v3 => 2
  | .none => 3

/-- The documented header word: tag, then version 0, split flag and variant. -/
def headerNumber (tag : Nat) (split : Bool) (v : Variant) : Nat :=
  tag + 2 ^ 6 * (if split then 1 else 0) + 2 ^ 7 * variantCode v

/-- The little endian bytes of a number below 2^32. -/
def leBytes (n : Nat) : List Nat := [n % 256, n / 256 % 256, n / 65536 % 256, n / 16777216]

/-- **C24.** The bytes written for BC1 (tag 0) and BC2 (tag 1), on hosts of both byte orders. -/
theorem C24_header_layout (s : ColourSettings) (e : Endian) (b : Buf) (off : Nat) (h : off + 4 ≤ b.length) :
    (∃ bs, ((Embed.bc1.toHeader s).write e b off).map (fun b' => slice b' off 4) = some bs ∧
      bs.map BitVec.toNat = leBytes (headerNumber 0 s.split s.decorr)) ∧
    (∃ bs, ((Embed.bc2.toHeader s).write e b off).map (fun b' => slice b' off 4) = some bs ∧
      bs.map BitVec.toNat = leBytes (headerNumber 1 s.split s.decorr)) := by
  have l1 : (b.take off).length = off := by simp; omega
  have key : ∀ w : U32, (st b off (to32 .little w)).map (fun b' => slice b' off 4) = some (to32 .little w) := by
    intro w
    unfold st
    rw [to32_length, if_pos h, Option.map_some, List.append_assoc, slice_append_right _ _ _ 0 _ (by omega),
      slice_append_left _ _ _ _ (by simp)]
    unfold slice
    rw [List.drop_zero, List.take_of_length_le (by simp)]
  constructor
  · refine ⟨_, by rw [write_eq, key], ?_⟩
    obtain ⟨v, c⟩ := s; cases v <;> cases c <;> rfl
  · refine ⟨_, by rw [write_eq, key], ?_⟩
    obtain ⟨v, c⟩ := s; cases v <;> cases c <;> rfl

/-- **C24**, distinctness: BC1 headers determine the settings, so do BC2 headers, and no BC1 header is a BC2 header. -/
theorem C24_headers_distinct (s t : ColourSettings) :
    (Embed.bc1.toHeader s = Embed.bc1.toHeader t → s = t) ∧ (Embed.bc2.toHeader s = Embed.bc2.toHeader t → s = t) ∧
    Embed.bc1.toHeader s ≠ Embed.bc2.toHeader t := by
  refine ⟨fun h => ?_, fun h => ?_, fun h => ?_⟩
  · obtain ⟨b', w, h1, _, _, _, h2, _, h3⟩ := C23_bc1_header_roundtrip s .little .little [0, 0, 0, 0] 0 (by decide)
    obtain ⟨b'', w', h1', _, _, _, h2', _, h3'⟩ := C23_bc1_header_roundtrip t .little .little [0, 0, 0, 0] 0 (by decide)
    rw [h, h1', Option.some.injEq] at h1
    rw [← h1, h2', Option.some.injEq] at h2
    rw [← h2, h3'] at h3
    exact (Except.ok.inj h3).symm
  · obtain ⟨b', w, h1, _, _, _, h2, _, h3⟩ := C23_bc2_header_roundtrip s .little .little [0, 0, 0, 0] 0 (by decide)
    obtain ⟨b'', w', h1', _, _, _, h2', _, h3'⟩ := C23_bc2_header_roundtrip t .little .little [0, 0, 0, 0] 0 (by decide)
    rw [h, h1', Option.some.injEq] at h1
    rw [← h1, h2', Option.some.injEq] at h2
    rw [← h2, h3'] at h3
    exact (Except.ok.inj h3).symm
  · have h1 : (Embed.bc1.toHeader s).format = some .bc1 := new_format _ _
    have h2 : (Embed.bc2.toHeader t).format = some .bc2 := new_format _ _
    rw [h, h2] at h1
    simp at h1

theorem version_eq (d : U32) : versionFromU32 (getBits d 1 0) =
    if d.toNat % 4 = 0 then .ok () else .error .corruptedEmbeddedData := by
  unfold versionFromU32
  have : getBits d 1 0 = 0 ↔ d.toNat % 4 = 0 := by
    rw [← BitVec.toNat_inj, getBits_toNat _ _ _ (by omega) (by omega)]
    simp
  simp only [this]

theorem reserved_eq (d : U32) : getBits d 27 3 ≠ 0 ↔ d.toNat / 8 % 2 ^ 25 ≠ 0 := by
  rw [Ne, Ne, not_iff_not, ← BitVec.toNat_inj, getBits_toNat _ _ _ (by omega) (by omega)]
  simp

/-- The variant with a given number. -/
def variantOf (n : Nat) : Variant := if n = 0 then .v1 else if n = 1 then .v2 else if n = 2 then .v3 else .none

theorem u32ToVariant_eq (d : U32) : u32ToVariant (getBits d 4 3) = .ok (variantOf (d.toNat / 8 % 4)) := by
  unfold u32ToVariant
  rw [getBits_toNat _ _ _ (by omega) (by omega)]
  have h := Nat.mod_lt (d.toNat / 8) (show 4 > 0 by omega)
  generalize hn : d.toNat / 8 % 4 = n at h
  match n, h with
  | 0, _ => rfl
  | 1, _ => rfl
  | 2, _ => rfl
  | 3, _ => rfl

/-- **C25** (BC1 and BC2): every 32-bit word `w` is decoded by arithmetic on its digits: the tag decides about
`UnknownFormat`, the version about `CorruptedEmbeddedData`, else there are settings. -/
theorem C25_bc1_bc2_decode (h : TransformHeader) :
    (Embed.bc1.fromHeader h =
      if h.word.toNat % 16 ≠ 0 then .error .unknownFormat
      else if h.word.toNat / 16 % 4 ≠ 0 then .error .corruptedEmbeddedData
      else .ok ⟨variantOf (h.word.toNat / 128 % 4), decide (h.word.toNat / 64 % 2 = 1)⟩) ∧
    (Embed.bc2.fromHeader h =
      if h.word.toNat % 16 ≠ 1 then .error .unknownFormat
      else if h.word.toNat / 16 % 4 ≠ 0 then .error .corruptedEmbeddedData
      else .ok ⟨variantOf (h.word.toNat / 128 % 4), decide (h.word.toNat / 64 % 2 = 1)⟩) := by
  have e1 : h.word.toNat / 16 / 8 % 4 = h.word.toNat / 128 % 4 := by omega
  have e2 : h.word.toNat / 16 / 2 ^ 2 % 2 = h.word.toNat / 64 % 2 := by omega
  constructor <;>
  · rw [fromHeader_eq]
    simp only [Embed.bc1, Embed.bc2, version_eq, u32ToVariant_eq, getBit_iff, formatData_toNat, e1, e2,
      TransformFormat.toU8]
    by_cases h1 : h.word.toNat % 16 = 0 <;> by_cases h2 : h.word.toNat / 16 % 4 = 0 <;>
      by_cases h3 : h.word.toNat % 16 = 1 <;> simp [h1, h2, h3, Bind.bind, Except.bind, Pure.pure, Except.pure]

/-- **C25** (BC3, BC7, which have no settings and ignore the reserved bits). -/
theorem C25_bc3_bc7_decode (h : TransformHeader) :
    (Embed.bc3.fromHeader h = if h.word.toNat % 16 ≠ 2 then .error .unknownFormat
      else if h.word.toNat / 16 % 4 ≠ 0 then .error .corruptedEmbeddedData else .ok ()) ∧
    (Embed.bc7.fromHeader h = if h.word.toNat % 16 ≠ 3 then .error .unknownFormat
      else if h.word.toNat / 16 % 4 ≠ 0 then .error .corruptedEmbeddedData else .ok ()) := by
  constructor <;>
  · rw [fromHeader_eq]
    simp only [Embed.bc3, Embed.bc7, version_eq, formatData_toNat, TransformFormat.toU8]
    by_cases h1 : h.word.toNat % 16 = 2 <;> by_cases h2 : h.word.toNat / 16 % 4 = 0 <;>
      by_cases h3 : h.word.toNat % 16 = 3 <;> simp [h1, h2, h3]

/-- **C25** (BC4 with tag 8, BC5 with tag 9, and the pixel formats with tags 5, 6, 7; `f` is any format): these also
check the 25 reserved bits. -/
theorem C25_checked_decode (f : TransformFormat) (h : TransformHeader) :
    (Embed.endpoints f).fromHeader h =
      (if h.word.toNat % 16 ≠ f.toU8.toNat then .error .unknownFormat
       else if h.word.toNat / 16 % 4 ≠ 0 ∨ h.word.toNat / 128 ≠ 0 then .error .corruptedEmbeddedData
       else .ok (decide (h.word.toNat / 64 % 2 = 1))) ∧
    (Embed.pixels f).fromHeader h =
      (if h.word.toNat % 16 ≠ f.toU8.toNat then .error .unknownFormat
       else if h.word.toNat / 16 % 4 ≠ 0 ∨ h.word.toNat / 128 ≠ 0 then .error .corruptedEmbeddedData
       else .ok (withDecorrelation (decide (h.word.toNat / 64 % 2 = 1)))) := by
  have hw := h.word.isLt
  have e2 : h.word.toNat / 16 / 2 ^ 2 % 2 = h.word.toNat / 64 % 2 := by omega
  have e3 : h.word.toNat / 16 / 8 % 2 ^ 25 = h.word.toNat / 128 := by omega
  constructor
  · rw [fromHeader_eq]
    simp only [Embed.endpoints, version_eq, reserved_eq, getBit_iff, formatData_toNat, e2, e3]
    by_cases h1 : h.word.toNat % 16 = f.toU8.toNat <;> by_cases h2 : h.word.toNat / 16 % 4 = 0 <;>
      by_cases h3 : h.word.toNat / 128 = 0 <;>
      simp only [h1, h2, h3, ne_eq, not_true_eq_false, not_false_eq_true, if_true, if_false, or_true, or_false,
        Bind.bind, Except.bind, Pure.pure, Except.pure, or_self] <;> rfl
  · rw [fromHeader_eq]
    simp only [Embed.pixels, version_eq, reserved_eq, formatData_toNat, e3]
    by_cases h1 : h.word.toNat % 16 = f.toU8.toNat <;> by_cases h2 : h.word.toNat / 16 % 4 = 0 <;>
      by_cases h3 : h.word.toNat / 128 = 0 <;>
      simp only [h1, h2, h3, ne_eq, not_true_eq_false, not_false_eq_true, if_true, if_false, or_true, or_false,
        Bind.bind, Except.bind, Pure.pure, Except.pure, or_self]
    have hd : h.formatData = withDecorrelation (decide (h.word.toNat / 64 % 2 = 1)) := by
      apply BitVec.eq_of_toNat_eq
      rw [formatData_toNat]
      by_cases h4 : h.word.toNat / 64 % 2 = 1
      · rw [decide_eq_true h4]
        show _ = 4
        omega
      · rw [decide_eq_false h4]
        show _ = 0
        omega
    rw [hd]

/-- C23, C24: BC2, variant 3, split, in the middle of a buffer. -/
example : (Embed.bc2.toHeader ⟨.v3, true⟩).write .big [9, 9, 9, 9, 9, 9] 1 = some [9, 0x41, 1, 0, 0, 9] := by decide

/-- C25: an unknown tag, a foreign tag, a version from the future, and reserved bits, which BC1 ignores. -/
example : Embed.bc1.fromHeader ⟨0x0000000F#32⟩ = .error .unknownFormat ∧
    Embed.bc1.fromHeader ⟨0x20534444#32⟩ = .error .unknownFormat ∧
    Embed.bc1.fromHeader ⟨0x00000010#32⟩ = .error .corruptedEmbeddedData ∧
    Embed.bc1.fromHeader ⟨0xFFFFFFC0#32⟩ = .ok ⟨.none, true⟩ ∧
    (Embed.endpoints .bc4).fromHeader ⟨0xFFFFFFC8#32⟩ = .error .corruptedEmbeddedData := by
  refine ⟨rfl, rfl, rfl, rfl, rfl⟩

end Dlt.Props
