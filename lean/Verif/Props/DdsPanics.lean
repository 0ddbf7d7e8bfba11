import Verif.Props.DdsTotal
/-!
# C80: when the DDS handler panics

`C59` says where it never does; here the conditions are exact, for all platforms and all sizes of the output.
-/

namespace Dlt.Props

open Dlt.FileFormats Dlt.Dds Dlt.Embed

variable {σ E : Type}

/-- The number that the parser reports as size of the texture data (`C32_size_reported`). -/
def reportedSize (b : Buf) : Nat := min (total (mipCount b) fun i => levelSize b i % 2 ^ 32) (2 ^ 32 - 1)

/-- A build with overflow checks, and a mip level of 4 GiB or more. -/
def LevelOverflows (p : Platform) (b : Buf) : Prop :=
  p.overflowChecks = true ∧ ∃ i, i < mipCount b ∧ 2 ^ 32 ≤ levelSize b i

/-- The end of the texture data is not a number of type `usize`. -/
def EndOverflows (p : Platform) (b : Buf) : Prop := p.env.usizeMax < headerSize b + reportedSize b

theorem reported_offset (b : Buf) : (reported b).dataOffset.toNat = headerSize b := by
  unfold reported headerSize
  split <;> rfl

theorem reported_length (b : Buf) : (reported b).dataLength.toNat = reportedSize b := by
  unfold reported reportedSize
  dsimp only
  rw [BitVec.toNat_ofNat, Nat.mod_eq_of_lt (by omega)]

theorem reportedSize_lt (b : Buf) : reportedSize b < 2 ^ 32 := by unfold reportedSize; omega

theorem headerSize_le (b : Buf) : 128 ≤ headerSize b ∧ headerSize b ≤ 148 := by unfold headerSize; split <;> omega

theorem addUsize_wraps {p : Platform} (hc : p.overflowChecks = false) (hu : 2 ^ 32 - 1 ≤ p.env.usizeMax) {off len : Nat}
    (ho : off < 2 ^ 32) (hl : len < 2 ^ 32) (h : p.env.usizeMax < off + len) : ∃ t, p.addUsize off len = some t ∧ t < off := by
  unfold Platform.addUsize
  refine ⟨_, if_neg (by simp [hc]), ?_⟩
  rw [Nat.mod_eq_sub_mod (by omega), Nat.mod_eq_of_lt (by omega)]
  omega

/-- **C28**, with the position of the texture data for files of every size: a successful transformation changes at most the magic and
`reportedSize` bytes behind the header. -/
theorem C28_dds_rest_exact (p : Platform) (hu : 2 ^ 32 - 1 ≤ p.env.usizeMax) (dbg : E → String) (bundle : Bundle σ E)
    (input output o : Buf) (st st' : σ) (h : transformBundle p dbg bundle input output st = some (o, st', .ok ())) :
    headerSize input + reportedSize input ≤ input.length ∧ o.length = output.length ∧
      (∀ i, i < input.length → o[i]? = input[i]? ∨ i < 4 ∨ (headerSize input ≤ i ∧ i < headerSize input + reportedSize input)) ∧
      ∀ i, input.length ≤ i → o[i]? = output[i]? := by
  obtain ⟨hd, hl, hle, len, _, hinfo, hfit, h1, h2, h3⟩ := C28_dds_rest_unchanged p hu dbg bundle input output o st st' h
  have hlen : len = reportedSize input := by
    by_cases hA : LevelOverflows p input
    · have hp : parseDds p input = none := by rw [parseDds_spec, if_pos hd]; exact if_pos hA
      unfold transformBundle at h
      rw [if_neg (by omega), hp] at h
      exact nomatch h
    · have hp : parseDds p input = some (some (reported input)) := by rw [parseDds_spec, if_pos hd]; exact if_neg hA
      rw [hinfo _ hp, reported_length]
  subst hlen
  refine ⟨hfit, hl, fun i hi => ?_, h3⟩
  by_cases h4 : i < 4
  · exact .inr (.inl h4)
  by_cases h5 : i < headerSize input
  · exact .inl (h1 i (by omega) h5)
  by_cases h6 : i < headerSize input + reportedSize input
  · exact .inr (.inr ⟨by omega, h6⟩)
  · exact .inl (h2 i (by omega) hi)

/-- **C80.** The transformation panics exactly if the output is not too small, the input is a DDS file, and one of three
things holds: the size of a mip level overflows; the end of the texture overflows (and the build checks for that or the format
is one that is passed on); or the file has data after the texture, the output is larger than the file, and
the same call with an output of the size of the file succeeds. -/
theorem C80_transform_panics (p : Platform) (hu : 2 ^ 32 - 1 ≤ p.env.usizeMax) (dbg : E → String) (bundle : Bundle σ E)
    (input output : Buf) (st : σ) :
    transformBundle p dbg bundle input output st = none ↔
      input.length ≤ output.length ∧ IsDds input ∧
        (LevelOverflows p input ∨
          (EndOverflows p input ∧ (p.overflowChecks = true ∨
            classify input ∈ [DdsFormat.bc1, .bc2, .rgba8888, .bgra8888, .bgr888])) ∨
          (headerSize input + reportedSize input < input.length ∧ input.length < output.length ∧
            ∃ o st', transformBundle p dbg bundle input (output.take input.length) st = some (o, st', .ok ()))) := by
  by_cases hl : input.length ≤ output.length
  swap
  · unfold transformBundle
    rw [if_pos (by omega)]
    simp [hl]
  by_cases hd : IsDds input
  swap
  · have : parseDds p input = some none := by rw [parseDds_spec, if_neg hd]
    unfold transformBundle
    rw [if_neg (by omega), this]
    simp [hd]
  have hlen : headerSize input ≤ input.length := by
    unfold headerSize
    split
    · next hx => exact hd.2.2 hx
    · exact hd.2.1
  by_cases hA : LevelOverflows p input
  · have : parseDds p input = none := by rw [parseDds_spec, if_pos hd]; exact if_pos hA
    unfold transformBundle
    rw [if_neg (by omega), this]
    simp [hl, hd, hA]
  have hp : parseDds p input = some (some (reported input)) := by rw [parseDds_spec, if_pos hd]; exact if_neg hA
  have hb := reportedSize_lt input
  have hh := headerSize_le input
  by_cases hB : EndOverflows p input
  · have hC : ∀ o st', transformBundle p dbg bundle input (output.take input.length) st ≠ some (o, st', .ok ()) := by
      intro o st' h
      obtain ⟨info, f, tex, w, hp', hi, ha, _⟩ := transform_ok hu h
      rw [hp] at hp'
      cases hp'
      rw [reported_offset, reported_length] at ha
      unfold EndOverflows at hB
      omega
    have hR : (∃ o st', transformBundle p dbg bundle input (output.take input.length) st = some (o, st', .ok ())) ↔ False :=
      ⟨fun ⟨o, st', h⟩ => hC o st' h, False.elim⟩
    simp only [hl, hd, hA, hB, hR, true_and, false_or, and_false, or_false]
    unfold transformBundle
    rw [if_neg (by omega), hp]
    simp only [Option.bind_eq_bind, Option.bind_some, reported_offset, reported_length]
    cases hc : p.overflowChecks with
    | true =>
      have : p.addUsize (headerSize input) (reportedSize input) = none := if_pos ⟨hc, hB⟩
      rw [this]
      simp
    | false =>
      obtain ⟨t, h1, h2⟩ := addUsize_wraps hc hu (by omega) hb hB
      rw [h1, Option.bind_some, if_neg (by omega), subslice_eq (by omega) (by omega), Option.bind_some,
        copyFromSlice_eq (by omega) (by omega) (by rw [slice_length_of_le (by omega)]), Option.bind_some]
      have hn : subslice input (headerSize input) t = none := by
        unfold subslice; rw [if_neg (by omega)]
      have hf : (reported input).format = classify input := rfl
      simp only [hn, hf, Option.bind_some]
      cases hcl : classify input <;> simp [toTransformFormat]
  have hB' : headerSize input + reportedSize input ≤ p.env.usizeMax := by unfold EndOverflows at hB; omega
  simp only [hl, hd, hA, hB, true_and, false_or, false_and]
  by_cases hs : input.length < headerSize input + reportedSize input
  · have : transformBundle p dbg bundle input output st ≠ none := by
      unfold transformBundle
      rw [if_neg (by omega), hp]
      simp only [Option.bind_eq_bind, Option.bind_some, reported_offset, reported_length]
      rw [addUsize_eq hB', Option.bind_some, if_pos hs]
      simp
    exact ⟨fun h => absurd h this, fun h => absurd h.1 (by omega)⟩
  have htl : (output.take input.length).length = input.length := by simp; omega
  have hst : slice (output.take input.length) (headerSize input) (reportedSize input) =
      slice output (headerSize input) (reportedSize input) := by
    conv_rhs => rw [← List.take_append_drop input.length output]
    rw [slice_append_left _ _ _ _ (by omega)]
  rw [transform_eq p dbg bundle input output st hp (reported_offset _) (reported_length _) (by omega) hl hB',
    transform_eq p dbg bundle input (output.take input.length) st hp (reported_offset _) (reported_length _) (by omega)
      (by omega) hB', hst]
  cases toTransformFormat (reported input).format false with
  | error e => simp
  | ok f =>
    obtain ⟨tex, s2, r2, hd, _, _, _⟩ := dispatchTransform_spec p.env p.m dbg bundle f
      (slice input (headerSize input) (reportedSize input)) (slice output (headerSize input) (reportedSize input)) st
    simp only [hd]
    cases r2 with
    | error e => simp
    | ok w =>
      by_cases hx : headerSize input + reportedSize input < input.length
      · by_cases he : output.length = input.length
        · simp [hx, he]
        · have : input.length < output.length := by omega
          simp [hx, he, this, hl]
      · simp [hx]

/-- **C80** for restoring, where the format in the header of the file has no influence. -/
theorem C80_untransform_panics (p : Platform) (hu : 2 ^ 32 - 1 ≤ p.env.usizeMax) (input output : Buf) :
    untransform p input output = none ↔
      input.length ≤ output.length ∧ headerSize input ≤ input.length ∧
        (LevelOverflows p input ∨ EndOverflows p input ∨
          (headerSize input + reportedSize input < input.length ∧ input.length < output.length ∧
            ∃ o, untransform p input (output.take input.length) = some (o, .ok ()))) := by
  have hh := headerSize_le input
  by_cases h4 : input.length < 4
  · unfold untransform
    rw [if_pos h4]
    simp; omega
  by_cases hl : input.length ≤ output.length
  swap
  · unfold untransform
    rw [if_neg h4, if_pos (by omega)]
    simp [hl]
  have hiff : (128 ≤ input.length ∧ (IsDx10 input → 148 ≤ input.length)) ↔ headerSize input ≤ input.length := by
    unfold headerSize
    split <;> rename_i hx <;> simp [hx]
    omega
  by_cases hlen : headerSize input ≤ input.length
  swap
  · have : parseIgnoreMagic p input = some none := by rw [parseIgnoreMagic_spec, if_neg (by rw [hiff]; exact hlen)]
    unfold untransform
    rw [if_neg h4, if_neg (by omega), read_eq _ _ _ (by omega), this]
    simp [hlen]
  by_cases hA : LevelOverflows p input
  · have : parseIgnoreMagic p input = none := by rw [parseIgnoreMagic_spec, if_pos (hiff.2 hlen)]; exact if_pos hA
    unfold untransform
    rw [if_neg h4, if_neg (by omega), read_eq _ _ _ (by omega), this]
    simp [hl, hlen, hA]
  have hp : parseIgnoreMagic p input = some (some (reported input)) := by
    rw [parseIgnoreMagic_spec, if_pos (hiff.2 hlen)]; exact if_neg hA
  have hb := reportedSize_lt input
  by_cases hB : EndOverflows p input
  · simp only [hl, hlen, hA, hB, true_and, false_or, true_or, iff_true]
    unfold untransform
    rw [if_neg h4, if_neg (by omega), read_eq _ _ _ (by omega), hp]
    simp only [Option.bind_eq_bind, Option.bind_some, reported_offset, reported_length]
    cases hc : p.overflowChecks with
    | true =>
      have : p.addUsize (headerSize input) (reportedSize input) = none := if_pos ⟨hc, hB⟩
      rw [this]
      simp
    | false =>
      obtain ⟨t, h1, h2⟩ := addUsize_wraps hc hu (by omega) hb hB
      have hn : subslice input (headerSize input) t = none := by
        unfold subslice; rw [if_neg (by omega)]
      rw [h1, Option.bind_some, if_neg (by omega)]
      simp only [hn, Option.bind_some, Option.bind_none]
      cases copyFromSlice output 0 4 (to32 .little 0x20534444#32) with
      | none => rfl
      | some o1 =>
        cases subslice input 4 (headerSize input) with
        | none => rfl
        | some o2 =>
          simp only [Option.bind_some]
          cases copyFromSlice o1 4 (headerSize input) o2 <;> rfl
  have hB' : headerSize input + reportedSize input ≤ p.env.usizeMax := by unfold EndOverflows at hB; omega
  simp only [hl, hlen, hA, hB, true_and, false_or]
  by_cases hs : input.length < headerSize input + reportedSize input
  · have : untransform p input output ≠ none := by
      unfold untransform
      rw [if_neg h4, if_neg (by omega), read_eq _ _ _ (by omega), hp]
      simp only [Option.bind_eq_bind, Option.bind_some, reported_offset, reported_length]
      rw [addUsize_eq hB', Option.bind_some, if_pos hs]
      simp
    exact ⟨fun h => absurd h this, fun h => absurd h.1 (by omega)⟩
  have htl : (output.take input.length).length = input.length := by simp; omega
  have hst : slice (output.take input.length) (headerSize input) (reportedSize input) =
      slice output (headerSize input) (reportedSize input) := by
    conv_rhs => rw [← List.take_append_drop input.length output]
    rw [slice_append_left _ _ _ _ (by omega)]
  rw [untransform_eq p input output hp (reported_offset _) (reported_length _) (by omega) hl hB',
    untransform_eq p input (output.take input.length) hp (reported_offset _) (reported_length _) (by omega)
      (by omega) hB', hst]
  obtain ⟨tex, r2, hd, _⟩ := dispatchUntransform_spec p.m ⟨of32 .little (slice input 0 4)⟩
    (slice input (headerSize input) (reportedSize input)) (slice output (headerSize input) (reportedSize input))
  simp only [hd]
  cases r2 with
  | error e => simp
  | ok w =>
    by_cases hx : headerSize input + reportedSize input < input.length
    · by_cases he : output.length = input.length
      · simp [hx, he]
      · have : input.length < output.length := by omega
        simp [hx, he, this, hl]
    · simp [hx]

/-- **C80** for detection, the format query and block extraction. -/
theorem C80_other_panics (p : Platform) (hu : 2 ^ 32 - 1 ≤ p.env.usizeMax) (b : Buf) (ext : Option String) (filter : Filter) :
    (canHandle p b ext = none ↔ (ext = none ∨ ext = some "dds") ∧ IsDds b ∧ LevelOverflows p b) ∧
    (canHandleUntransform p b ext = none ↔
      (ext = none ∨ ext = some "dds") ∧ headerSize b ≤ b.length ∧ LevelOverflows p b) ∧
    (getTransformFormat p b filter = none ↔ IsDds b ∧ LevelOverflows p b) ∧
    (extractBlocks p b filter = none ↔ IsDds b ∧ (LevelOverflows p b ∨
      (EndOverflows p b ∧ ∃ f, sameName (classify b) = some f ∧ Passes filter f))) := by
  have hh := headerSize_le b
  have hiff : (128 ≤ b.length ∧ (IsDx10 b → 148 ≤ b.length)) ↔ headerSize b ≤ b.length := by
    unfold headerSize
    split <;> rename_i hx <;> simp [hx]
    omega
  have hparse : parseDds p b = none ↔ IsDds b ∧ LevelOverflows p b := by
    rw [parseDds_spec]
    by_cases hd : IsDds b
    · rw [if_pos hd]
      by_cases hA : p.overflowChecks = true ∧ LevelTooLarge b
      · rw [if_pos hA]; exact ⟨fun _ => ⟨hd, hA⟩, fun _ => rfl⟩
      · rw [if_neg hA]; exact ⟨(fun h => nomatch h), fun h => absurd h.2 hA⟩
    · rw [if_neg hd]; simp [hd]
  have hignore : parseIgnoreMagic p b = none ↔ headerSize b ≤ b.length ∧ LevelOverflows p b := by
    rw [parseIgnoreMagic_spec]
    by_cases hd : headerSize b ≤ b.length
    · rw [if_pos (hiff.2 hd)]
      by_cases hA : p.overflowChecks = true ∧ LevelTooLarge b
      · rw [if_pos hA]; exact ⟨fun _ => ⟨hd, hA⟩, fun _ => rfl⟩
      · rw [if_neg hA]; exact ⟨(fun h => nomatch h), fun h => absurd h.2 hA⟩
    · rw [if_neg (fun h => hd (hiff.1 h))]; simp [hd]
  have hshort : (if b.length < 4 then some false else (parseIgnoreMagic p b).map Option.isSome) = none ↔
      headerSize b ≤ b.length ∧ LevelOverflows p b := by
    by_cases h4 : b.length < 4
    · rw [if_pos h4]; exact ⟨(fun h => nomatch h), fun h => absurd h.1 (by omega)⟩
    · rw [if_neg h4, Option.map_eq_none_iff, hignore]
  refine ⟨?_, ?_, ?_, ?_⟩
  · cases ext with
    | none => simp [canHandle, hparse]
    | some e => by_cases he : e = "dds" <;> simp [canHandle, he, hparse]
  · cases ext with
    | none => simpa [canHandleUntransform] using hshort
    | some e =>
      by_cases he : e = "dds"
      · simpa [canHandleUntransform, he] using hshort
      · simp [canHandleUntransform, he]
  · rw [← hparse]
    unfold getTransformFormat
    cases hp : parseDds p b with
    | none => simp
    | some i =>
      cases i with
      | none => simp
      | some info =>
        simp only [Option.bind_eq_bind, Option.bind_some]
        cases toTransformFormat info.format true with
        | error e => simp
        | ok f => by_cases hf : filter.accepts f = true <;> simp [hf]
  · unfold extractBlocks
    by_cases hd : IsDds b
    swap
    · rw [parseDds_spec, if_neg hd]; simp [hd]
    have hlen : headerSize b ≤ b.length := hiff.1 hd.2
    by_cases hA : LevelOverflows p b
    · rw [hparse.2 ⟨hd, hA⟩]; simp [hd, hA]
    have hp : parseDds p b = some (some (reported b)) := by rw [parseDds_spec, if_pos hd]; exact if_neg hA
    have hb := reportedSize_lt b
    rw [hp]
    simp only [Option.bind_eq_bind, Option.bind_some, reported_offset, reported_length, toTransformFormat_eq, hd, hA,
      true_and, false_or]
    have hf : (reported b).format = classify b := rfl
    rw [hf]
    cases hs : sameName (classify b) with
    | none => simp
    | some f =>
      by_cases hx : Passes filter f
      swap
      · simp [accepts_iff, hx]
      simp only [accepts_iff, hx, if_true, Option.some.injEq, exists_eq_left', and_true]
      by_cases hB : EndOverflows p b
      · simp only [hB, iff_true]
        cases hc : p.overflowChecks with
        | true =>
          have : p.addUsize (headerSize b) (reportedSize b) = none := if_pos ⟨hc, hB⟩
          rw [this]
          rfl
        | false =>
          obtain ⟨t, h1, h2⟩ := addUsize_wraps hc hu (by omega) hb hB
          have hn : subslice b (headerSize b) t = none := by
            unfold subslice; rw [if_neg (by omega)]
          rw [h1, Option.bind_some, if_neg (by omega)]
          simp [hn]
      · have hB' : headerSize b + reportedSize b ≤ p.env.usizeMax := by unfold EndOverflows at hB; omega
        rw [addUsize_eq hB', Option.bind_some]
        by_cases hl : b.length < headerSize b + reportedSize b
        · simp [hl, hB]
        · rw [if_neg hl, Option.bind_some, subslice_eq (by omega) (by omega)]
          simp [hB]

/-- **C31**, exact, on every platform: what transforming a DDS file does that is shorter than the size it reports. -/
theorem C31_transform_truncated_exact (p : Platform) (hu : 2 ^ 32 - 1 ≤ p.env.usizeMax) (dbg : E → String)
    (bundle : Bundle σ E) (input output : Buf) (st : σ) (hl : input.length ≤ output.length) (hd : IsDds input)
    (ht : input.length < headerSize input + reportedSize input) :
    (LevelOverflows p input → transformBundle p dbg bundle input output st = none) ∧
    (¬ LevelOverflows p input → ¬ EndOverflows p input → transformBundle p dbg bundle input output st =
      some (output, st, .error (.formatHandler
        (.inputTooShortForStatedTextureSize (headerSize input + reportedSize input) input.length)))) ∧
    (EndOverflows p input → p.overflowChecks = true → transformBundle p dbg bundle input output st = none) ∧
    (EndOverflows p input → p.overflowChecks = false →
      (classify input ∈ [DdsFormat.bc1, .bc2, .rgba8888, .bgra8888, .bgr888] →
        transformBundle p dbg bundle input output st = none) ∧
      (classify input ∉ [DdsFormat.bc1, .bc2, .rgba8888, .bgra8888, .bgr888] →
        ∃ e, transformBundle p dbg bundle input output st =
          some (input.take (headerSize input) ++ output.drop (headerSize input), st, .error (.formatHandler e)) ∧
          e = (match sameName (classify input) with
            | some f => .formatNotImplemented f
            | none => .unknownFileFormat))) := by
  have hpan := C80_transform_panics p hu dbg bundle input output st
  have hh := headerSize_le input
  have hb := reportedSize_lt input
  refine ⟨fun hA => hpan.2 ⟨hl, hd, .inl hA⟩, fun hA hB => ?_, fun hB hc => hpan.2 ⟨hl, hd, .inr (.inl ⟨hB, .inl hc⟩)⟩,
    fun hB hc => ⟨fun hf => hpan.2 ⟨hl, hd, .inr (.inl ⟨hB, .inr hf⟩)⟩, fun hf => ?_⟩⟩
  · have hp : parseDds p input = some (some (reported input)) := by rw [parseDds_spec, if_pos hd]; exact if_neg hA
    unfold EndOverflows at hB
    unfold transformBundle
    rw [if_neg (by omega), hp]
    simp only [Option.bind_eq_bind, Option.bind_some, reported_offset, reported_length]
    rw [addUsize_eq (by omega), Option.bind_some, if_pos ht]
    rfl
  · have hp : parseDds p input = some (some (reported input)) := by
      rw [parseDds_spec, if_pos hd]; exact if_neg (by simp [hc])
    have hlen : headerSize input ≤ input.length := by
      unfold headerSize
      split
      · next hx => exact hd.2.2 hx
      · exact hd.2.1
    obtain ⟨t, h1, h2⟩ := addUsize_wraps hc hu (by omega) hb hB
    unfold transformBundle
    rw [if_neg (by omega), hp]
    simp only [Option.bind_eq_bind, Option.bind_some, reported_offset, reported_length]
    rw [h1, Option.bind_some, if_neg (by omega), subslice_eq (by omega) (by omega), Option.bind_some,
      copyFromSlice_eq (by omega) (by omega) (by rw [slice_length_of_le (by omega)]), Option.bind_some]
    have hfm : (reported input).format = classify input := rfl
    rw [hfm, Nat.sub_zero, slice_zero_eq_take, List.take_zero, List.nil_append]
    revert hf
    cases classify input <;> simp [toTransformFormat, sameName]

/-- **C31**, exact, for restoring. -/
theorem C31_untransform_truncated_exact (p : Platform) (hu : 2 ^ 32 - 1 ≤ p.env.usizeMax) (input output : Buf)
    (hl : input.length ≤ output.length) (hlen : headerSize input ≤ input.length)
    (ht : input.length < headerSize input + reportedSize input) :
    (LevelOverflows p input ∨ EndOverflows p input → untransform p input output = none) ∧
    (¬ LevelOverflows p input → ¬ EndOverflows p input → untransform p input output =
      some (output, .error (.formatHandler
        (.inputTooShortForStatedTextureSize (headerSize input + reportedSize input) input.length)))) := by
  have hpan := C80_untransform_panics p hu input output
  have hh := headerSize_le input
  refine ⟨fun h => hpan.2 ⟨hl, hlen, h.elim .inl fun h => .inr (.inl h)⟩, fun hA hB => ?_⟩
  have hp : parseIgnoreMagic p input = some (some (reported input)) := by
    rw [parseIgnoreMagic_spec, if_pos]
    · exact if_neg hA
    · unfold headerSize at hlen
      split at hlen <;> rename_i hx <;> simp [hx] <;> omega
  unfold EndOverflows at hB
  unfold untransform
  rw [if_neg (by omega), if_neg (by omega), read_eq _ _ _ (by omega), hp]
  simp only [Option.bind_eq_bind, Option.bind_some, reported_offset, reported_length]
  rw [addUsize_eq (by omega), Option.bind_some, if_pos ht]
  rfl

/-- **C30**, exact, on every platform: input that starts with the magic gives an error unless the sizes overflow; then the
call panics. -/
theorem C30_error_exact (p : Platform) (hu : 2 ^ 32 - 1 ≤ p.env.usizeMax) (input output : Buf)
    (hmag : slice input 0 4 = ascii "DDS ") :
    (untransform p input output = none ↔
      input.length ≤ output.length ∧ headerSize input ≤ input.length ∧ (LevelOverflows p input ∨ EndOverflows p input)) ∧
    (untransform p input output ≠ none → ∃ o e, untransform p input output = some (o, .error e)) := by
  refine ⟨?_, fun h => ?_⟩
  · rw [C80_untransform_panics p hu]
    constructor
    · rintro ⟨h1, h2, h | h | ⟨_, _, o, h⟩⟩
      · exact ⟨h1, h2, .inl h⟩
      · exact ⟨h1, h2, .inr h⟩
      · exact absurd h (C30_never_succeeds p hu _ _ _ hmag)
    · rintro ⟨h1, h2, h | h⟩
      · exact ⟨h1, h2, .inl h⟩
      · exact ⟨h1, h2, .inr (.inl h)⟩
  · match hr : untransform p input output with
    | none => exact absurd hr h
    | some (o, .error e) => exact ⟨o, e, rfl⟩
    | some (o, .ok ()) => exact absurd hr (C30_never_succeeds p hu _ _ _ hmag)

/-- **C34**, exact, on every platform: if the format is neither BC1 nor BC2, or the bundle has no builder for it, the call returns an
error unless the sizes overflow; then it panics (except that formats known by name only are still refused when just the end overflows
and the build does not check). -/
theorem C34_refused_exact (p : Platform) (hu : 2 ^ 32 - 1 ≤ p.env.usizeMax) (dbg : E → String) (bundle : Bundle σ E)
    (input output : Buf) (st : σ)
    (h1 : classify input = .bc1 → bundle.bc1 = none) (h2 : classify input = .bc2 → bundle.bc2 = none) :
    (transformBundle p dbg bundle input output st = none ↔
      input.length ≤ output.length ∧ IsDds input ∧
        (LevelOverflows p input ∨ (EndOverflows p input ∧ (p.overflowChecks = true ∨
          classify input ∈ [DdsFormat.bc1, .bc2, .rgba8888, .bgra8888, .bgr888])))) ∧
    (transformBundle p dbg bundle input output st ≠ none →
      ∃ o st' e, transformBundle p dbg bundle input output st = some (o, st', .error e)) := by
  have hno : ∀ (out o : Buf) (st' : σ), transformBundle p dbg bundle input out st ≠ some (o, st', .ok ()) := by
    intro out o st' h
    rcases C34_only_bc1_bc2 p hu dbg bundle input out o st st' h with ⟨h, hb⟩ | ⟨h, hb⟩
    · exact hb (h1 h)
    · exact hb (h2 h)
  refine ⟨?_, fun h => ?_⟩
  · rw [C80_transform_panics p hu]
    constructor
    · rintro ⟨hl, hd, h | h | ⟨_, _, o, st', h⟩⟩
      · exact ⟨hl, hd, .inl h⟩
      · exact ⟨hl, hd, .inr h⟩
      · exact absurd h (hno _ _ _)
    · rintro ⟨hl, hd, h | h⟩
      · exact ⟨hl, hd, .inl h⟩
      · exact ⟨hl, hd, .inr (.inl h)⟩
  · match hr : transformBundle p dbg bundle input output st with
    | none => exact absurd hr h
    | some (o, st', .error e) => exact ⟨o, st', e, rfl⟩
    | some (o, st', .ok ()) => exact absurd hr (hno _ _ _)

/-- **C54**, exact, on every platform.  What is no DDS file is refused.  For a DDS file the format query answers unless a level overflows,
and block extraction answers unless a level overflows or, for a format of the filter, the end (otherwise they panic, `C80_other_panics`). -/
theorem C54_extraction_exact (p : Platform) (b : Buf) (filter : Filter) :
    (¬ IsDds b → extractBlocks p b filter = some (.error (.formatHandler .unknownFileFormat)) ∧
      getTransformFormat p b filter = some (.error (.formatHandler .unknownFileFormat))) ∧
    (IsDds b → ¬ LevelOverflows p b →
      (sameName (classify b) = none →
        extractBlocks p b filter = some (.error (.formatHandler .unknownFileFormat)) ∧
        getTransformFormat p b filter = some (.error (.formatHandler .unknownFileFormat))) ∧
      (∀ f, sameName (classify b) = some f →
        (¬ Passes filter f → extractBlocks p b filter = some (.ok none) ∧ getTransformFormat p b filter = some (.ok none)) ∧
        (Passes filter f → getTransformFormat p b filter = some (.ok (some f)) ∧
          (¬ EndOverflows p b →
            (b.length < headerSize b + reportedSize b → extractBlocks p b filter = some (.error (.formatHandler
              (.inputTooShortForStatedTextureSize (headerSize b + reportedSize b) b.length)))) ∧
            (headerSize b + reportedSize b ≤ b.length → extractBlocks p b filter =
              some (.ok (some (slice b (headerSize b) (reportedSize b), f)))))))) := by
  refine ⟨fun hd => ?_, fun hd hA => ?_⟩
  · have hp : parseDds p b = some none := by rw [parseDds_spec, if_neg hd]
    unfold extractBlocks getTransformFormat
    rw [hp]
    exact ⟨rfl, rfl⟩
  have hp : parseDds p b = some (some (reported b)) := by rw [parseDds_spec, if_pos hd]; exact if_neg hA
  have hfm : (reported b).format = classify b := rfl
  unfold extractBlocks getTransformFormat EndOverflows
  rw [hp]
  refine ⟨fun hs => ?_, fun f hs => ⟨fun hf => ?_, fun hf => ?_⟩⟩
  · simp only [Option.bind_eq_bind, Option.bind_some, toTransformFormat_eq, hfm, hs]
    exact ⟨rfl, rfl⟩
  · simp only [Option.bind_eq_bind, Option.bind_some, toTransformFormat_eq, hfm, hs, accepts_iff, hf, if_false]
    exact ⟨rfl, rfl⟩
  simp only [Option.bind_eq_bind, Option.bind_some, toTransformFormat_eq, hfm, hs, accepts_iff, hf, if_true, reported_offset,
    reported_length]
  refine ⟨rfl, fun hB => ⟨fun hl => ?_, fun hl => ?_⟩⟩
  · rw [addUsize_eq (by omega), Option.bind_some, if_pos hl]
    rfl
  · rw [addUsize_eq (by omega), Option.bind_some, if_neg (by omega), Option.bind_some, subslice_eq (by omega) (by omega),
      Option.bind_some, Nat.add_sub_cancel_left]
    rfl

/-- Each of the reasons occurs: `hugeFile` with overflow checks, `wrapFile` with 32 bit addresses, `smallFile` with an output of
one byte more. -/
example : IsDds hugeFile ∧ LevelOverflows { somePlatform with overflowChecks := true } hugeFile ∧
    IsDds wrapFile ∧ EndOverflows { somePlatform with env := ⟨fun _ => true, 2 ^ 32 - 1⟩ } wrapFile ∧
    classify wrapFile = .bc1 ∧ headerSize smallFile + reportedSize smallFile < smallFile.length := by
  refine ⟨by decide +kernel, ⟨rfl, 0, by decide +kernel, by decide +kernel⟩, by decide +kernel, ?_, by decide +kernel, by decide +kernel⟩
  show 2 ^ 32 - 1 < headerSize wrapFile + reportedSize wrapFile
  decide +kernel

end Dlt.Props
