import Verif.Model.DdsDebug
import Verif.Props.DebugAsserts
import Verif.Props.DdsImage
import Verif.Props.DdsPanics
/-!
# C87: the DDS handler in debug builds

A DDS file of width or height 0 has a texture of no bytes.  Release builds process it; with debug assertions the
kernels of BC1 panic.  Here are the exact conditions, and that nothing else differs.
-/

namespace Dlt.Props

open Dlt.FileFormats Dlt.Dds Dlt.Embed

variable {σ E : Type}

/-- The first four bytes are those of a BC1 texture with split endpoints (`C24_header_layout`: tag 0, version 0, bit 6). -/
def TaggedBc1Split (b : Buf) : Prop := num b 0 % 64 = 0 ∧ num b 0 / 64 % 2 = 1

/-- One of the kernels that restore split endpoints with SIMD instructions is available. -/
def HasSplitKernel (m : Machine) : Prop := ∃ f, m = .x86 f ∧ (f.avx512bw = true ∨ f.avx2 = true ∨ f.sse2 = true)

/-- The AVX-512 kernels are available. -/
def HasAvx512 (m : Machine) : Prop := ∃ f, m = .x86 f ∧ f.avx512bw = true

theorem reported_of_parse {p : Platform} {b : Buf} {info : DdsInfo} (h : parseIgnoreMagic p b = some (some info)) :
    info = reported b := by
  rw [parseIgnoreMagic_spec] at h
  split at h
  · split at h
    · cases h
    · simpa using h.symm
  · cases h

/-- What `untransform` does apart from the texture does not depend on the function that is called for the texture. -/
theorem untransformWith_cases (p : Platform) (hu : 2 ^ 32 - 1 ≤ p.env.usizeMax) (input output : Buf) :
    (∃ r, (∀ d, untransformWith p d input output = r) ∧
      (input.length ≤ output.length → headerSize input ≤ input.length → reportedSize input = 0 → r = none)) ∨
    (input.length ≤ output.length ∧ headerSize input + reportedSize input ≤ input.length ∧
      ∃ K : Buf × Except TransformError Unit → Option (Buf × Except TransformError Unit),
        ∀ d, untransformWith p d input output =
          (d ⟨of32 .little (slice input 0 4)⟩ (slice input (headerSize input) (reportedSize input))
            (slice output (headerSize input) (reportedSize input))).bind K) := by
  have hh := headerSize_le input
  have hb := reportedSize_lt input
  by_cases h4 : input.length < 4
  · exact .inl ⟨_, fun d => if_pos h4, fun _ h _ => by omega⟩
  by_cases hl : input.length ≤ output.length
  swap
  · refine .inl ⟨some (output, .error (.formatHandler (.outputBufferTooSmall input.length output.length))), fun d => ?_,
      fun h _ _ => absurd h hl⟩
    unfold untransformWith
    rw [if_neg h4, if_pos (by omega)]
  have hiff : (128 ≤ input.length ∧ (IsDx10 input → 148 ≤ input.length)) ↔ headerSize input ≤ input.length := by
    unfold headerSize
    split <;> rename_i hx <;> simp [hx]
    omega
  by_cases hlen : headerSize input ≤ input.length
  swap
  · have hp : parseIgnoreMagic p input = some none := by rw [parseIgnoreMagic_spec, if_neg (by rw [hiff]; exact hlen)]
    refine .inl ⟨some (output, .error (.formatHandler .invalidRestoredFileHeader)), fun d => ?_, fun _ h _ => absurd h hlen⟩
    unfold untransformWith
    rw [if_neg h4, if_neg (by omega), read_eq _ _ _ (by omega), hp]
    rfl
  by_cases hA : LevelOverflows p input
  · have hp : parseIgnoreMagic p input = none := by rw [parseIgnoreMagic_spec, if_pos (hiff.2 hlen)]; exact if_pos hA
    refine .inl ⟨none, fun d => ?_, fun _ _ _ => rfl⟩
    unfold untransformWith
    rw [if_neg h4, if_neg (by omega), read_eq _ _ _ (by omega), hp]
    rfl
  have hp : parseIgnoreMagic p input = some (some (reported input)) := by
    rw [parseIgnoreMagic_spec, if_pos (hiff.2 hlen)]; exact if_neg hA
  by_cases hB : EndOverflows p input
  · refine .inl ⟨none, fun d => ?_, fun _ _ _ => rfl⟩
    unfold untransformWith
    rw [if_neg h4, if_neg (by omega), read_eq _ _ _ (by omega), hp]
    simp only [Option.bind_eq_bind, Option.bind_some, reported_offset, reported_length]
    cases hc : p.overflowChecks with
    | true =>
      have : p.addUsize (headerSize input) (reportedSize input) = none := if_pos ⟨hc, hB⟩
      rw [this]
      rfl
    | false =>
      obtain ⟨t, h1, h2⟩ := addUsize_wraps hc hu (by omega) hb hB
      have hn : subslice input (headerSize input) t = none := by
        unfold subslice; rw [if_neg (by omega)]
      rw [h1, Option.bind_some, if_neg (by omega)]
      simp only [hn, Option.bind_some, Option.bind_none]
      cases copyFromSlice output 0 4 (to32 .little 0x20534444#32) with
      | none => rfl
      | some o1 =>
        cases subslice input 4 (headerSize input) with
        | none => rfl
        | some o2 =>
          simp only [Option.bind_some]
          cases copyFromSlice o1 4 (headerSize input) o2 <;> rfl
  have hB' : headerSize input + reportedSize input ≤ p.env.usizeMax := by unfold EndOverflows at hB; omega
  by_cases hs : input.length < headerSize input + reportedSize input
  · refine .inl ⟨some (output, .error (.formatHandler
        (.inputTooShortForStatedTextureSize (headerSize input + reportedSize input) input.length))), fun d => ?_,
      fun _ _ h => by omega⟩
    unfold untransformWith
    rw [if_neg h4, if_neg (by omega), read_eq _ _ _ (by omega), hp]
    simp only [Option.bind_eq_bind, Option.bind_some, reported_offset, reported_length]
    rw [addUsize_eq hB', Option.bind_some, if_pos hs]
    rfl
  refine .inr ⟨hl, by omega, ?_⟩
  have hw4 : (to32 .little 0x20534444#32).length = 4 := to32_length _ _
  -- the header in front of the texture
  obtain ⟨o1, e1, l1⟩ : ∃ o1, copyFromSlice output 0 4 (to32 .little 0x20534444#32) = some o1 ∧
      o1 = output.take 0 ++ to32 .little 0x20534444#32 ++ output.drop 4 :=
    ⟨_, copyFromSlice_eq (by omega) (by omega) (by rw [hw4]), rfl⟩
  have hl1 : o1.length = output.length := by rw [l1]; simp [hw4]; omega
  obtain ⟨o2, e2, l2⟩ : ∃ o2, copyFromSlice o1 4 (headerSize input) (slice input 4 (headerSize input - 4)) = some o2 ∧
      o2 = o1.take 4 ++ slice input 4 (headerSize input - 4) ++ o1.drop (headerSize input) :=
    ⟨_, copyFromSlice_eq (by omega) (by omega) (by rw [slice_length_of_le (by omega)]), rfl⟩
  have hsl : (slice input 4 (headerSize input - 4)).length = headerSize input - 4 := slice_length_of_le (by omega)
  have hl2 : o2.length = output.length := by rw [l2]; simp [hsl]; omega
  have e3 : slice o2 (headerSize input) (reportedSize input) = slice output (headerSize input) (reportedSize input) := by
    have d1 : o2.drop (headerSize input) = o1.drop (headerSize input) := by
      rw [l2]
      exact List.drop_left' (by rw [List.length_append, hsl, List.length_take]; omega)
    have d2 : o1.drop 4 = output.drop 4 := by
      rw [l1, List.take_zero, List.nil_append]
      exact List.drop_left' hw4
    have d3 : o1.drop (headerSize input) = output.drop (headerSize input) := by
      have h1 : headerSize input = 4 + (headerSize input - 4) := by omega
      rw [h1, ← List.drop_drop, d2, List.drop_drop]
    unfold slice
    rw [d1, d3]
  refine ⟨fun x => (Dlt.st o2 (headerSize input) x.1).bind fun output =>
    match x.2 with
    | .error e => pure (output, .error e)
    | .ok () => (copyLeftover input output (headerSize input + reportedSize input)).bind fun output =>
        pure (output, .ok ()), fun d => ?_⟩
  unfold untransformWith
  rw [if_neg h4, if_neg (by omega), read_eq _ _ _ (by omega), hp]
  simp only [Option.bind_eq_bind, Option.bind_some, reported_offset, reported_length]
  rw [addUsize_eq hB', Option.bind_some, if_neg hs, e1, Option.bind_some, subslice_eq (by omega) (by omega), Option.bind_some,
    e2, Option.bind_some, Option.bind_some, subslice_eq (by omega) (by omega), Option.bind_some,
    subslice_eq (by omega) (by omega), Option.bind_some, Nat.add_sub_cancel_left, e3]
  rfl

theorem num_word {b : Buf} (h : 4 ≤ b.length) : (of32 .little (slice b 0 4)).toNat = num b 0 := num_eq (by omega)

theorem untransformAsserts_iff (m : Machine) (s : ColourSettings) :
    Bc1.untransformAsserts m s = true ↔ s.split = true ∧ HasSplitKernel m := by
  unfold HasSplitKernel
  cases m with
  | x86 f => simp [Bc1.untransformAsserts, or_assoc]
  | other e fr => simp [Bc1.untransformAsserts]

theorem transformAsserts_iff (m : Machine) (s : ColourSettings) :
    Bc1.transformAsserts m s = true ↔ s.split = true ∧ HasAvx512 m := by
  unfold HasAvx512
  cases m with
  | x86 f => simp [Bc1.transformAsserts]
  | other e fr => simp [Bc1.transformAsserts]

/-- The dispatch in a debug build. -/
theorem dispatchUntransformDebug_spec (m : Machine) (h : TransformHeader) (input output : Buf)
    (hl : input.length ≤ output.length) :
    (input = [] ∧ (h.word.toNat % 64 = 0 ∧ h.word.toNat / 64 % 2 = 1) ∧ HasSplitKernel m →
      dispatchUntransformDebug m h input output = none) ∧
    (¬ (input = [] ∧ (h.word.toNat % 64 = 0 ∧ h.word.toNat / 64 % 2 = 1) ∧ HasSplitKernel m) →
      dispatchUntransformDebug m h input output = dispatchUntransform m h input output) := by
  have hf := (C25_bc1_bc2_decode h).1
  refine ⟨?_, fun hn => ?_⟩
  · rintro ⟨rfl, ⟨h1, h2⟩, hk⟩
    have hfmt : h.format = some .bc1 := by
      rcases hx : h.format with _ | f
      · rw [Embeddable.fromHeader, hx, if_neg (by omega), if_neg (by omega)] at hf; cases hf
      · rw [Embeddable.fromHeader, hx, if_neg (by omega), if_neg (by omega)] at hf
        by_cases hf' : f = Embed.bc1.format
        · rw [hf']; rfl
        · simp only [if_neg hf'] at hf; cases hf
    unfold dispatchUntransformDebug
    rw [if_neg (by omega), hfmt]
    dsimp only
    rw [hf, if_neg (by omega), if_neg (by omega)]
    dsimp only
    rw [if_neg (by simp), if_pos ⟨(untransformAsserts_iff _ _).2 ⟨by simpa using h2, hk⟩, rfl⟩]
  · unfold dispatchUntransformDebug dispatchUntransform
    rw [if_neg (by omega), if_neg (by omega)]
    match hx : h.format with
    | some .bc1 =>
      dsimp only
      rw [hf]
      by_cases h1 : h.word.toNat % 16 ≠ 0
      · rw [if_pos h1]
      rw [if_neg h1]
      by_cases h2 : h.word.toNat / 16 % 4 ≠ 0
      · rw [if_pos h2]
      rw [if_neg h2]
      dsimp only
      by_cases h8 : input.length % 8 ≠ 0
      · rw [if_pos h8, if_pos h8]
      rw [if_neg h8, if_neg h8, if_neg]
      rintro ⟨ha, hz⟩
      obtain ⟨hs, hk⟩ := (untransformAsserts_iff _ _).1 ha
      refine hn ⟨List.length_eq_zero_iff.1 (by omega), ⟨by omega, by simpa using hs⟩, hk⟩
    | some .bc2 => rfl
    | some .bc3 => rfl
    | some .bc7 => rfl
    | some .bc6h => rfl
    | some .rgba8888 => rfl
    | some .bgra8888 => rfl
    | some .bgr888 => rfl
    | some .bc4 => rfl
    | some .bc5 => rfl
    | none => rfl

open Classical in
/-- **C87**, restoring: with debug assertions the handler does exactly what it does without, except that it panics for a
file with an empty texture whose first four bytes are those of BC1 with split endpoints, on every machine that has one of the
SIMD kernels (so on every x86-64 machine), if the output is not too small. -/
theorem C87_untransform (p : Platform) (hu : 2 ^ 32 - 1 ≤ p.env.usizeMax) (input output : Buf) :
    untransformDebug p input output =
      if input.length ≤ output.length ∧ headerSize input ≤ input.length ∧ reportedSize input = 0 ∧ TaggedBc1Split input ∧
          HasSplitKernel p.m then none
      else untransform p input output := by
  rw [← untransformWith_eq]
  unfold untransformDebug
  have hh := headerSize_le input
  rcases untransformWith_cases p hu input output with ⟨r, hr, hn⟩ | ⟨hl, hlen, K, hK⟩
  · rw [hr, hr]
    split
    · rename_i hc; exact hn hc.1 hc.2.1 hc.2.2.1
    · rfl
  · rw [hK, hK]
    have hw : (⟨of32 .little (slice input 0 4)⟩ : TransformHeader).word.toNat = num input 0 := num_word (by omega)
    have hs : (slice input (headerSize input) (reportedSize input)).length = reportedSize input :=
      slice_length_of_le (by omega)
    have hs' : (slice output (headerSize input) (reportedSize input)).length = reportedSize input :=
      slice_length_of_le (by omega)
    obtain ⟨d1, d2⟩ := dispatchUntransformDebug_spec p.m ⟨of32 .little (slice input 0 4)⟩
      (slice input (headerSize input) (reportedSize input)) (slice output (headerSize input) (reportedSize input)) (by omega)
    rw [hw, ← List.length_eq_zero_iff, hs] at d1 d2
    split
    · rename_i hc
      rw [d1 ⟨hc.2.2.1, hc.2.2.2⟩]
      rfl
    · rename_i hc
      rw [d2 (fun h => hc ⟨hl, by omega, h.1, h.2⟩)]

/-- What `transform_bundle` does apart from the texture does not depend on the function that is called for the texture. -/
theorem transformWith_cases (p : Platform) (hu : 2 ^ 32 - 1 ≤ p.env.usizeMax) (input output : Buf) (st : σ) :
    (∃ r, (∀ d, transformBundleWith p d input output st = r) ∧
      (input.length ≤ output.length → IsDds input → reportedSize input = 0 → classify input = .bc1 → r = none)) ∨
    (input.length ≤ output.length ∧ IsDds input ∧ headerSize input + reportedSize input ≤ input.length ∧
      ∃ f, toTransformFormat (classify input) false = .ok f ∧ ∃ K : Res σ TransformHeader → Option (Res σ Unit),
        ∀ d, transformBundleWith p d input output st =
          (d f (slice input (headerSize input) (reportedSize input))
            (slice output (headerSize input) (reportedSize input)) st).bind K) := by
  have hh := headerSize_le input
  have hb := reportedSize_lt input
  by_cases hl : input.length ≤ output.length
  swap
  · refine .inl ⟨some (output, st, .error (.formatHandler (.outputBufferTooSmall input.length output.length))), fun d => ?_,
      fun h => absurd h hl⟩
    unfold transformBundleWith
    rw [if_pos (by omega)]
  by_cases hd : IsDds input
  swap
  · have hp : parseDds p input = some none := by rw [parseDds_spec, if_neg hd]
    refine .inl ⟨some (output, st, .error (.formatHandler .invalidInputFileHeader)), fun d => ?_, fun _ h => absurd h hd⟩
    unfold transformBundleWith
    rw [if_neg (by omega), hp]
    rfl
  have hlen : headerSize input ≤ input.length := by
    unfold headerSize
    split
    · next hx => exact hd.2.2 hx
    · exact hd.2.1
  by_cases hA : LevelOverflows p input
  · have hp : parseDds p input = none := by rw [parseDds_spec, if_pos hd]; exact if_pos hA
    refine .inl ⟨none, fun d => ?_, fun _ _ _ _ => rfl⟩
    unfold transformBundleWith
    rw [if_neg (by omega), hp]
    rfl
  have hp : parseDds p input = some (some (reported input)) := by rw [parseDds_spec, if_pos hd]; exact if_neg hA
  have hfm : (reported input).format = classify input := rfl
  by_cases hB : EndOverflows p input
  · have hbig : 0 < reportedSize input := by unfold EndOverflows at hB; omega
    cases hc : p.overflowChecks with
    | true =>
      have ha : p.addUsize (headerSize input) (reportedSize input) = none := if_pos ⟨hc, hB⟩
      refine .inl ⟨none, fun d => ?_, fun _ _ _ _ => rfl⟩
      unfold transformBundleWith
      rw [if_neg (by omega), hp]
      simp only [Option.bind_eq_bind, Option.bind_some, reported_offset, reported_length]
      rw [ha]
      rfl
    | false =>
      obtain ⟨t, h1, h2⟩ := addUsize_wraps hc hu (by omega) hb hB
      have hn : subslice input (headerSize input) t = none := by
        unfold subslice; rw [if_neg (by omega)]
      refine .inl ⟨transformBundleWith p (fun _ _ _ _ => none) input output st, fun d => ?_, fun _ _ h => by omega⟩
      unfold transformBundleWith
      rw [if_neg (by omega), if_neg (by omega), hp]
      simp only [Option.bind_eq_bind, Option.bind_some, reported_offset, reported_length]
      rw [h1, Option.bind_some, Option.bind_some, if_neg (by omega), if_neg (by omega), subslice_eq (by omega) (by omega),
        Option.bind_some, Option.bind_some,
        copyFromSlice_eq (by omega) (by omega) (by rw [slice_length_of_le (by omega)]), Option.bind_some, Option.bind_some]
      simp only [hn, Option.bind_some, Option.bind_none]
  have hB' : headerSize input + reportedSize input ≤ p.env.usizeMax := by unfold EndOverflows at hB; omega
  by_cases hs : input.length < headerSize input + reportedSize input
  · refine .inl ⟨some (output, st, .error (.formatHandler
        (.inputTooShortForStatedTextureSize (headerSize input + reportedSize input) input.length))), fun d => ?_,
      fun _ _ h => by omega⟩
    unfold transformBundleWith
    rw [if_neg (by omega), hp]
    simp only [Option.bind_eq_bind, Option.bind_some, reported_offset, reported_length]
    rw [addUsize_eq hB', Option.bind_some, if_pos hs]
    rfl
  have htl : (input.take (headerSize input)).length = headerSize input := by simp; omega
  obtain ⟨o1, e1, l1⟩ : ∃ o1, copyFromSlice output 0 (headerSize input) (slice input 0 (headerSize input - 0)) = some o1 ∧
      o1 = output.take 0 ++ slice input 0 (headerSize input - 0) ++ output.drop (headerSize input) :=
    ⟨_, copyFromSlice_eq (by omega) (by omega) (by rw [slice_length_of_le (by omega)]), rfl⟩
  have hsl : (slice input 0 (headerSize input - 0)).length = headerSize input := slice_length_of_le (by omega)
  have hl1 : o1.length = output.length := by
    rw [l1, List.take_zero, List.nil_append, List.length_append, hsl, List.length_drop]; omega
  have e3 : slice o1 (headerSize input) (reportedSize input) = slice output (headerSize input) (reportedSize input) := by
    unfold slice
    rw [l1, List.take_zero, List.nil_append, List.drop_left' hsl]
  cases hf : toTransformFormat (classify input) false with
  | error e =>
    refine .inl ⟨some (o1, st, .error e), fun d => ?_, fun _ _ _ h => ?_⟩
    · unfold transformBundleWith
      rw [if_neg (by omega), hp]
      simp only [Option.bind_eq_bind, Option.bind_some, reported_offset, reported_length]
      rw [addUsize_eq hB', Option.bind_some, if_neg hs, subslice_eq (by omega) (by omega), Option.bind_some, e1,
        Option.bind_some, hfm, hf]
      rfl
    · rw [h] at hf; cases hf
  | ok f =>
    refine .inr ⟨hl, hd, by omega, f, rfl, fun x => (Dlt.st o1 (headerSize input) x.1).bind fun output =>
      match x.2.2 with
      | .error e => pure (output, x.2.1, .error e)
      | .ok header => (copyLeftover input output (headerSize input + reportedSize input)).bind fun output =>
          (header.write p.m.endian output 0).bind fun output => pure (output, x.2.1, .ok ()), fun d => ?_⟩
    unfold transformBundleWith
    rw [if_neg (by omega), hp]
    simp only [Option.bind_eq_bind, Option.bind_some, reported_offset, reported_length]
    rw [addUsize_eq hB', Option.bind_some, if_neg hs, subslice_eq (by omega) (by omega), Option.bind_some, e1,
      Option.bind_some, hfm, hf]
    simp only [Option.bind_some]
    rw [subslice_eq (by omega) (by omega), Option.bind_some, subslice_eq (by omega) (by omega), Option.bind_some,
      Nat.add_sub_cancel_left, e3]
    rfl

/-- An estimator that always answers, and memory that never runs out. -/
def AlwaysAnswers (env : Env) (est : Estimator σ E) : Prop :=
  (∀ st n, ∃ k, (est.maxSize st n).2 = .ok k) ∧ (∀ st x comp, ∃ k, (est.estimate st x comp).2 = .ok k) ∧
    ∀ n, env.canAlloc n = true

/-- The dispatch in a debug build: no difference unless the texture is empty and BC1 and the machine has AVX-512. -/
theorem dispatchTransformDebug_same (env : Env) (m : Machine) (dbg : E → String) (bundle : Bundle σ E)
    (f : TransformFormat) (input output : Buf) (st : σ) (hn : ¬ (f = .bc1 ∧ input = [] ∧ HasAvx512 m)) :
    bundle.dispatchTransformDebug env m dbg f input output st = bundle.dispatchTransform env m dbg f input output st := by
  unfold Bundle.dispatchTransformDebug Bundle.dispatchTransform
  split
  · rfl
  cases f with
  | bc1 =>
    have hn' : ¬ (input = [] ∧ HasAvx512 m) := fun h => hn ⟨rfl, h⟩
    dsimp only
    cases bundle.bc1 with
    | none => rfl
    | some b =>
      dsimp only
      have : b.transformSliceWithDetailsDebug env m dbg input output st =
          b.transformSliceWithDetails env m dbg input output st := by
        cases b with
        | manual b =>
          simp only [Bc1Builder.transformSliceWithDetailsDebug, Bc1Builder.transformSliceWithDetails,
            Bc1.ManualBuilder.transformDebug, Bc1.ManualBuilder.transform]
          rw [(C55_debug_exact m input output b.settings ⟨.none, false, false⟩).2.2.2.1]
          intro h
          obtain ⟨h1, _, h2⟩ := (C55_debug_exact m input output b.settings ⟨.none, false, false⟩).1.1 h
          exact hn' ⟨h1, h2⟩
        | auto b =>
          have hor : input ≠ [] ∨ ∀ f, m = .x86 f → f.avx512bw = false := by
            by_cases hi : input = []
            · refine .inr fun f hf => ?_
              cases hx : f.avx512bw with
              | false => rfl
              | true => exact absurd ⟨hi, f, hf, hx⟩ hn'
            · exact .inl hi
          have e2 : b.transformDebug env m input output st = b.transform env m input output st := by
            unfold Bc1.AutoBuilder.transformDebug Bc1.AutoBuilder.transform
            rw [(C55_auto_same_partial env m b.estimator b.useAll input output st hor).1]
            rcases Bc1.transformAutoSafe env m b.estimator b.useAll input output st with _ | ⟨o, s, r⟩
            · rfl
            · cases r <;> rfl
          simp only [Bc1Builder.transformSliceWithDetailsDebug, Bc1Builder.transformSliceWithDetails, e2]
      rw [this]
  | _ => rfl

/-- **C87**, transforming: with debug assertions nothing changes unless the texture is an empty BC1 texture and the machine
has AVX-512, whatever the builders and the estimator are. -/
theorem C87_transform_same (p : Platform) (hu : 2 ^ 32 - 1 ≤ p.env.usizeMax) (dbg : E → String) (bundle : Bundle σ E)
    (input output : Buf) (st : σ)
    (h : ¬ (classify input = .bc1 ∧ reportedSize input = 0 ∧ HasAvx512 p.m ∧ bundle.bc1.isSome = true)) :
    transformBundleDebug p dbg bundle input output st = transformBundle p dbg bundle input output st := by
  rw [← transformBundleWith_eq]
  unfold transformBundleDebug
  rcases transformWith_cases p hu input output st with ⟨r, hr, _⟩ | ⟨hl, hd, hlen, f, hf, K, hK⟩
  · rw [hr, hr]
  · rw [hK, hK]
    have hs : (slice input (headerSize input) (reportedSize input)).length = reportedSize input :=
      slice_length_of_le (by omega)
    by_cases hc : f = .bc1 ∧ slice input (headerSize input) (reportedSize input) = [] ∧ HasAvx512 p.m
    · obtain ⟨rfl, h1, h2⟩ := hc
      have hb : bundle.bc1 = none := by
        rw [← Option.not_isSome_iff_eq_none]
        refine fun hb => h ⟨?_, by rw [← hs, h1]; rfl, h2, hb⟩
        revert hf
        cases classify input <;> simp [toTransformFormat]
      unfold Bundle.dispatchTransformDebug Bundle.dispatchTransform
      rw [hb]
    · rw [dispatchTransformDebug_same _ _ _ _ _ _ _ _ hc]

open Classical in
/-- **C87**, transforming with settings: the exact condition. -/
theorem C87_transform_manual (p : Platform) (hu : 2 ^ 32 - 1 ≤ p.env.usizeMax) (dbg : E → String) (bundle : Bundle σ E)
    (b : Bc1.ManualBuilder) (hb : bundle.bc1 = some (.manual b)) (input output : Buf) (st : σ) :
    transformBundleDebug p dbg bundle input output st =
      if input.length ≤ output.length ∧ IsDds input ∧ classify input = .bc1 ∧ reportedSize input = 0 ∧
          b.getSettings.split = true ∧ HasAvx512 p.m then none
      else transformBundle p dbg bundle input output st := by
  rw [← transformBundleWith_eq]
  unfold transformBundleDebug
  rcases transformWith_cases p hu input output st with ⟨r, hr, hn⟩ | ⟨hl, hd, hlen, f, hf, K, hK⟩
  · rw [hr, hr]
    split
    · rename_i hc; exact hn hc.1 hc.2.1 hc.2.2.2.1 hc.2.2.1
    · rfl
  · rw [hK, hK]
    have hs : (slice input (headerSize input) (reportedSize input)).length = reportedSize input :=
      slice_length_of_le (by omega)
    have hs' : (slice output (headerSize input) (reportedSize input)).length = reportedSize input :=
      slice_length_of_le (by omega)
    have hd' := C55_debug_exact p.m (slice input (headerSize input) (reportedSize input))
      (slice output (headerSize input) (reportedSize input)) b.settings ⟨.none, false, false⟩
    split
    · rename_i hc
      rw [hc.2.2.1] at hf
      cases hf
      have : Bc1.transformSafeDebug p.m (slice input (headerSize input) (reportedSize input))
          (slice output (headerSize input) (reportedSize input)) b.settings = none :=
        hd'.1.2 ⟨List.length_eq_zero_iff.1 (by omega), hc.2.2.2.2⟩
      unfold Bundle.dispatchTransformDebug
      rw [if_neg (by omega), hb]
      simp only [Bc1Builder.transformSliceWithDetailsDebug, Bc1.ManualBuilder.transformDebug, this, Option.bind_eq_bind,
        Option.bind_none]
    · rename_i hc
      by_cases hx : f = .bc1 ∧ slice input (headerSize input) (reportedSize input) = [] ∧ HasAvx512 p.m
      · obtain ⟨rfl, h1, h2⟩ := hx
        have hcl : classify input = .bc1 := by
          revert hf
          cases classify input <;> simp [toTransformFormat]
        have hsp : b.settings.split ≠ true := fun h => hc ⟨hl, hd, hcl, by rw [← hs, h1]; rfl, h, h2⟩
        have : Bc1.transformSafeDebug p.m (slice input (headerSize input) (reportedSize input))
            (slice output (headerSize input) (reportedSize input)) b.settings =
            Bc1.transformSafe p.m (slice input (headerSize input) (reportedSize input))
              (slice output (headerSize input) (reportedSize input)) b.settings :=
          hd'.2.2.2.1 fun h => hsp (hd'.1.1 h).2.1
        unfold Bundle.dispatchTransformDebug Bundle.dispatchTransform
        rw [hb]
        simp only [Bc1Builder.transformSliceWithDetailsDebug, Bc1Builder.transformSliceWithDetails,
          Bc1.ManualBuilder.transformDebug, Bc1.ManualBuilder.transform, this]
      · rw [dispatchTransformDebug_same _ _ _ _ _ _ _ _ hx]

open Classical in
/-- **C87**, transforming with the automatic choice and an estimator that does not fail: the exact condition. -/
theorem C87_transform_auto (p : Platform) (hu : 2 ^ 32 - 1 ≤ p.env.usizeMax) (dbg : E → String) (bundle : Bundle σ E)
    (b : Bc1.AutoBuilder σ E) (hb : bundle.bc1 = some (.auto b)) (hest : AlwaysAnswers p.env b.estimator)
    (input output : Buf) (st : σ) :
    transformBundleDebug p dbg bundle input output st =
      if input.length ≤ output.length ∧ IsDds input ∧ classify input = .bc1 ∧ reportedSize input = 0 ∧ HasAvx512 p.m then none
      else transformBundle p dbg bundle input output st := by
  split
  · rename_i hc
    obtain ⟨_, hi, hcl, h0, g, hg, hg'⟩ := hc
    unfold transformBundleDebug
    rcases transformWith_cases p hu input output st with ⟨r, hr, hn⟩ | ⟨hl, hd, hlen, f, hf, K, hK⟩
    · rw [hr]; exact hn (by assumption) hi h0 hcl
    · rw [hK]
      rw [hcl] at hf
      cases hf
      have hs : slice input (headerSize input) (reportedSize input) = [] :=
        List.length_eq_zero_iff.1 (by rw [slice_length_of_le (by omega), h0])
      have := C55_auto_empty_panics p.env g hg' b.estimator b.useAll
        (slice output (headerSize input) (reportedSize input)) st hest.1 hest.2.1 hest.2.2
      unfold Bundle.dispatchTransformDebug
      rw [hs, if_neg (by simp), hb, hg]
      simp only [Bc1Builder.transformSliceWithDetailsDebug, Bc1.AutoBuilder.transformDebug, this, Option.bind_eq_bind,
        Option.bind_none]
  · rename_i hc
    by_cases hx : classify input = .bc1 ∧ reportedSize input = 0 ∧ HasAvx512 p.m ∧ bundle.bc1.isSome = true
    · have hno : ¬ (input.length ≤ output.length ∧ IsDds input) := fun h => hc ⟨h.1, h.2, hx.1, hx.2.1, hx.2.2.1⟩
      rw [← transformBundleWith_eq]
      unfold transformBundleDebug
      rcases transformWith_cases p hu input output st with ⟨r, hr, _⟩ | ⟨hl, hd, _⟩
      · rw [hr, hr]
      · exact absurd ⟨hl, hd⟩ hno
    · exact C87_transform_same p hu dbg bundle input output st hx

open Classical in
/-- **C87**, round trip: a file that was transformed (by any build) is restored by a debug build, unless its texture is empty,
it was transformed with split endpoints as BC1, and the restoring machine has one of the SIMD kernels; then restoring
panics. -/
theorem C87_roundtrip (p p' : Platform) (hm : p.m.endian = p'.m.endian)
    (hc : p'.overflowChecks = true → p.overflowChecks = true) (hu : 2 ^ 32 - 1 ≤ p.env.usizeMax)
    (hu' : 2 ^ 32 - 1 ≤ p'.env.usizeMax) (dbg : E → String) (bundle : Bundle σ E) (input output o : Buf) (st st' : σ)
    (hin : input.length ≤ p'.env.usizeMax) (hlen : output.length = input.length)
    (h : transformBundle p dbg bundle input output st = some (o, st', .ok ()))
    (buf : Buf) (hb : buf.length = input.length) :
    untransformDebug p' o buf =
      if reportedSize input = 0 ∧ TaggedBc1Split o ∧ HasSplitKernel p'.m then none else some (input, .ok ()) := by
  obtain ⟨hol, hback⟩ := C26_dds_roundtrip p p' hm hc hu dbg bundle input output o st st' hin hlen h buf hb
  have hrep : headerSize o = headerSize input ∧ reportedSize o = reportedSize input ∧ headerSize o ≤ o.length := by
    obtain ⟨info, f, tex, w, hp, hi, ha, _, hf, hd, hd1, _, rfl⟩ := transform_ok hu h
    have hp2 := (parseDds_some hp).1
    have hle := parse_offset_le hp2
    have hw4 : (to32 .little w.word).length = 4 := to32_length _ _
    have hsame := parse_same_header hp2 hol (by rw [assemble_header hw4 (by omega)])
    have r2 := (reported_of_parse hp2).symm.trans (reported_of_parse hsame)
    have r1 := reported_of_parse hp2
    refine ⟨?_, ?_, ?_⟩
    · rw [← reported_offset, ← r2, reported_offset]
    · rw [← reported_length, ← r2, reported_length]
    · rw [hol, ← reported_offset, ← r2, ← r1]; omega
  rw [C87_untransform p' hu', hrep.2.1]
  by_cases hx : reportedSize input = 0 ∧ TaggedBc1Split o ∧ HasSplitKernel p'.m
  · rw [if_pos hx, if_pos ⟨by omega, hrep.2.2, hx⟩]
  · rw [if_neg hx, if_neg (fun h => hx h.2.2), hback]

/-- **C87**, negation of the round trip in debug builds: every DDS file with an empty BC1 texture that a release build
transforms with split endpoints (the default) cannot be restored by a debug build on any x86 machine with SSE2. -/
theorem C87_empty_not_restored (p p' : Platform) (hm : p.m.endian = p'.m.endian)
    (hc : p'.overflowChecks = true → p.overflowChecks = true) (hu : 2 ^ 32 - 1 ≤ p.env.usizeMax)
    (hu' : 2 ^ 32 - 1 ≤ p'.env.usizeMax) (dbg : E → String) (bundle : Bundle σ E) (b : Bc1.ManualBuilder)
    (hb : bundle.bc1 = some (.manual b)) (hsplit : b.getSettings.split = true) (input output o : Buf) (st st' : σ)
    (hcl : classify input = .bc1) (h0 : reportedSize input = 0) (hin : input.length ≤ p'.env.usizeMax)
    (hlen : output.length = input.length) (h : transformBundle p dbg bundle input output st = some (o, st', .ok ()))
    (hk : HasSplitKernel p'.m) (buf : Buf) (hbuf : buf.length = input.length) :
    untransformDebug p' o buf = none := by
  rw [C87_roundtrip p p' hm hc hu hu' dbg bundle input output o st st' hin hlen h buf hbuf, if_pos]
  refine ⟨h0, ?_, hk⟩
  obtain ⟨info, f, tex, w, hp, hi, ha, _, hf, hd, hd1, _, rfl⟩ := transform_ok hu h
  have hp2 := (parseDds_some hp).1
  have hle := parse_offset_le hp2
  have hw4 : (to32 .little w.word).length = 4 := to32_length _ _
  have r1 := reported_of_parse hp2
  have hff : f = .bc1 := by
    have : info.format = .bc1 := by rw [r1]; exact hcl
    rw [this] at hf
    cases hf
    rfl
  subst hff
  have hw : w = Embed.bc1.toHeader b.getSettings := by
    unfold Bundle.dispatchTransform at hd
    split at hd
    · cases hd
    · simp only [hb, Bc1Builder.transformSliceWithDetails] at hd
      rcases ht : b.transform p.m (slice input info.dataOffset.toNat info.dataLength.toNat)
        (slice output info.dataOffset.toNat info.dataLength.toNat) with _ | ⟨o', r'⟩
      · rw [ht] at hd; cases hd
      · rw [ht] at hd
        cases r' with
        | error e => cases hd
        | ok u => cases hd; rfl
  have hn : num (assemble (to32 .little w.word) input tex (if info.dataOffset.toNat + info.dataLength.toNat < input.length then
      input.drop (info.dataOffset.toNat + info.dataLength.toNat)
      else output.drop (info.dataOffset.toNat + info.dataLength.toNat)) info.dataOffset.toNat) 0 = w.word.toNat := by
    rw [num_zero (by rw [assemble_length hw4 (by omega) (by omega)]; omega), assemble_magic hw4, of32_to32]
  unfold TaggedBc1Split
  rw [hn, hw]
  generalize b.getSettings = s at hsplit
  obtain ⟨v, c⟩ := s
  dsimp only at hsplit
  subst hsplit
  cases v <;> decide

/-! ## A concrete file -/

/-- A DDS file of width 0 with a BC1 texture and two bytes after it. -/
def emptyFile : Buf := ddsHeader 0x1007#32 4#32 0#32 1#32 4#32 "DXT1" [] ++ [5, 6]

/-- A machine with SSE2. -/
def sse2Platform : Platform := { somePlatform with m := .x86 ⟨true, true, false, false, false, false, fun _ => 0⟩ }

/-- The release build transforms the file and restores it, the debug build with SSE2 can transform but not restore it; the
debug build without SIMD can do both. -/
theorem emptyFile_runs :
    IsDds emptyFile ∧ classify emptyFile = .bc1 ∧ reportedSize emptyFile = 0 ∧ headerSize emptyFile = 128 ∧
    (transformBundle sse2Platform (fun _ : Unit => "") (Bundle.defaultAll (σ := Unit)) emptyFile
      (List.replicate 130 7) ()).map (fun (o, _, r) => (o.take 4, o.drop 128, r.toOption)) =
        some ([64, 0, 0, 0], [5, 6], some ()) ∧
    ((transformBundleDebug sse2Platform (fun _ : Unit => "") (Bundle.defaultAll (σ := Unit)) emptyFile
      (List.replicate 130 7) ()).bind fun (o, _, _) =>
        (untransform sse2Platform o (List.replicate 130 9)).map fun (o, r) => (o, r.toOption)) =
          some (emptyFile, some ()) ∧
    ((transformBundleDebug sse2Platform (fun _ : Unit => "") (Bundle.defaultAll (σ := Unit)) emptyFile
      (List.replicate 130 7) ()).bind fun (o, _, _) =>
        (untransformDebug sse2Platform o (List.replicate 130 9)).map fun (o, r) => (o, r.toOption)) = none ∧
    ((transformBundleDebug somePlatform (fun _ : Unit => "") (Bundle.defaultAll (σ := Unit)) emptyFile
      (List.replicate 130 7) ()).bind fun (o, _, _) =>
        (untransformDebug somePlatform o (List.replicate 130 9)).map fun (o, r) => (o, r.toOption)) =
          some (emptyFile, some ()) := by
  refine ⟨by decide +kernel, by decide +kernel, by decide +kernel, by decide +kernel, by decide +kernel, by decide +kernel,
    by decide +kernel, by decide +kernel⟩

end Dlt.Props
