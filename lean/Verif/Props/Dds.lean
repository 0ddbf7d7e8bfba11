import Verif.Lemmas.DdsHandler
/-!
# C26 to C31, C34 and C54: DDS files
-/

namespace Dlt.Props

open Dlt.Dds Dlt.Embed Dlt.FileFormats

/-! ## C26 -/

theorem magic_of_parse {p : Platform} {b : Buf} {info : DdsInfo} (h : parseDds p b = some (some info)) :
    slice b 0 4 = to32 .little 0x20534444#32 := by
  obtain ⟨h1, h2⟩ := parseDds_some h
  have := parse_offset_le h1
  rw [slice4 (by omega)] at h2 ⊢
  rw [← h2, to32_of32]

/-- **C26.** A successful transformation into a buffer of the file's size can be undone, on every machine of the same byte
order and whatever the second buffer held before.  `hc`: if the second program checks for overflow so does the first.
`hu` and `hin`: addresses have at least 32 bits and the file fits in memory. -/
theorem C26_dds_roundtrip {σ E : Type} (p p' : Platform) (hm : p.m.endian = p'.m.endian)
    (hc : p'.overflowChecks = true → p.overflowChecks = true) (hu : 2 ^ 32 - 1 ≤ p.env.usizeMax)
    (dbg : E → String) (bundle : Bundle σ E) (input output o : Buf) (st st' : σ)
    (hin : input.length ≤ p'.env.usizeMax) (hlen : output.length = input.length)
    (h : transformBundle p dbg bundle input output st = some (o, st', .ok ()))
    (buf : Buf) (hb : buf.length = input.length) :
    o.length = input.length ∧ untransform p' o buf = some (input, .ok ()) := by
  obtain ⟨info, f, tex, w, hp, hi, ha, _, hf, hd, hd1, _, rfl⟩ := transform_ok hu h
  have hp2 := (parseDds_some hp).1
  have hmag := magic_of_parse hp
  have hle := parse_offset_le hp2
  generalize hoff : info.dataOffset.toNat = off at *
  generalize hle' : info.dataLength.toNat = len at *
  have hw4 : (to32 .little w.word).length = 4 := to32_length _ _
  have hrest : (if off + len < input.length then input.drop (off + len) else output.drop (off + len)) =
      input.drop (off + len) := by
    split
    · rfl
    · rw [List.drop_of_length_le (by omega), List.drop_of_length_le (by omega)]
  rw [hrest]
  generalize hO : assemble (to32 .little w.word) input tex (input.drop (off + len)) off = O
  have l1 : O.length = input.length := by
    rw [← hO, assemble_length hw4 (by omega) (by omega)]
    simp
    omega
  have e1 : slice O 4 (off - 4) = slice input 4 (off - 4) := by rw [← hO, assemble_header hw4 (by omega)]
  have e2 : slice O off len = tex := by rw [← hO, ← hd1, assemble_tex hw4 (by omega) (by omega)]
  have e3 : slice O 0 4 = to32 .little w.word := by rw [← hO, assemble_magic hw4]
  have e4 : O.drop (off + len) = input.drop (off + len) := by
    rw [← hO, ← hd1, assemble_rest hw4 (by omega) (by omega), hd1]
  refine ⟨l1, ?_⟩
  have hpo : parseIgnoreMagic p' O = some (some info) :=
    parse_same_header (parse_platform hc hp2) l1 (by rw [hoff]; exact e1)
  rw [untransform_eq p' O buf hpo hoff hle' (by omega) (by omega) (by omega), e2, e3, of32_to32]
  have hsl : (slice input off len).length = len := slice_length_of_le (by omega)
  obtain ⟨u, hu1, hu2, hu3⟩ := C36_dispatch_roundtrip p.env p.m p'.m hm dbg bundle f _ _ tex st st' w hd
    (slice buf off len) (by rw [hsl, slice_length_of_le (by omega)])
  rw [hsl, List.take_of_length_le (by omega)] at hu1
  rw [hsl] at hu2 hu3
  obtain ⟨u', r, hd2, hul⟩ := dispatchUntransform_spec p'.m w tex (slice buf off len)
  rw [hu1] at hd2
  simp only [Option.some.injEq, Prod.mk.injEq] at hd2
  rw [← hd2.1, slice_length_of_le (by omega)] at hul
  rw [List.take_of_length_le (by omega)] at hu2
  rw [hu1]
  have hself : assemble (to32 .little 0x20534444#32) O u (input.drop (off + len)) off = input := by
    have : assemble (to32 .little 0x20534444#32) O u (input.drop (off + len)) off =
        assemble (slice input 0 4) input (slice input off len) (input.drop (off + len)) off := by
      unfold assemble
      rw [e1, hmag, hu2]
    rw [this, assemble_self (by omega)]
  simp only []
  rw [l1, e4]
  split
  · rw [hself]
  · have : buf.drop (off + len) = input.drop (off + len) := by
      rw [List.drop_of_length_le (by omega), List.drop_of_length_le (by omega)]
    rw [this, hself]

/-- **C26** at the level of the file format API, with the handler given or found by detection. -/
theorem C26_dds_api_roundtrip {σ E : Type} (p p' : Platform) (hm : p.m.endian = p'.m.endian)
    (hc : p'.overflowChecks = true → p.overflowChecks = true) (hu : 2 ^ 32 - 1 ≤ p.env.usizeMax)
    (dbg : E → String) (bundle : Bundle σ E) (input output o : Buf) (st st' st2 : σ)
    (hin : input.length ≤ p'.env.usizeMax) (hlen : output.length = input.length)
    (h : transformSliceWithBundle (handler p dbg) input output bundle st = some (o, st', .ok ()))
    (buf : Buf) (hb : buf.length = input.length) :
    untransformSlice (handler (E := E) p' dbg) o buf st2 = some (input, st2, .ok ()) ∧
    (∃ r, transformSliceWithMultipleHandlers [handler p dbg] input output bundle st = some (o, st', .ok r)) ∧
    (∃ r, untransformSliceWithMultipleHandlers [handler (E := E) p' dbg] o buf st2 = some (input, st2, .ok r)) := by
  unfold transformSliceWithBundle at h
  rw [if_neg (by omega)] at h
  obtain ⟨h1, h2⟩ := C26_dds_roundtrip p p' hm hc hu dbg bundle input output o st st' hin hlen h buf hb
  have h3 : (handler (E := E) p' dbg).untransform o buf st2 = some (input, st2, .ok ()) := by
    change (untransform p' o buf).map _ = _
    rw [h2]; rfl
  obtain ⟨info, _, _, _, hp, _⟩ := transform_ok hu h
  obtain ⟨infoO, hpO, _⟩ : ∃ i, parseIgnoreMagic p' o = some (some i) ∧ True := by
    cases hq : parseIgnoreMagic p' o with
    | none =>
      have hl : ¬ o.length < 4 := by
        intro h4; unfold untransform at h2; rw [if_pos h4] at h2; simp at h2
      unfold untransform at h2
      rw [if_neg hl, if_neg (by omega), read_eq _ _ _ (by omega)] at h2
      simp [hq] at h2
    | some i =>
      cases i with
      | none =>
        have hl : ¬ o.length < 4 := by
          intro h4; unfold untransform at h2; rw [if_pos h4] at h2; simp at h2
        unfold untransform at h2
        rw [if_neg hl, if_neg (by omega), read_eq _ _ _ (by omega)] at h2
        simp [hq] at h2
      | some i => exact ⟨i, rfl, trivial⟩
  have hle := parse_offset_le hpO
  refine ⟨?_, ⟨handler p dbg, ?_⟩, ⟨handler p' dbg, ?_⟩⟩
  · unfold untransformSlice
    rw [if_neg (by omega), h3]
  · unfold transformSliceWithMultipleHandlers
    rw [if_neg (by omega)]
    have hcan : (handler (E := E) p dbg).canHandle input none st = some (st, true) := by
      change ((parseDds p input).map Option.isSome).map _ = _
      rw [hp]; rfl
    unfold tryTransform
    rw [hcan]
    simp only [Option.bind_eq_bind, Option.bind_some, if_true]
    rw [h]
    rfl
  · unfold untransformSliceWithMultipleHandlers
    rw [if_neg (by omega)]
    have hcan : (handler (E := E) p' dbg).canHandleUntransform o none st2 = some (st2, true) := by
      change (canHandleUntransform p' o none).map _ = _
      unfold canHandleUntransform
      simp only []
      rw [if_neg (by omega), hpO]; rfl
    unfold tryUntransform
    rw [hcan]
    simp only [Option.bind_eq_bind, Option.bind_some, if_true]
    rw [h3]
    rfl

/-! ## C28 -/

/-- **C28.** A successful transformation keeps every byte of the file except the magic and the texture data, keeps the file
size, and writes nothing behind the file. -/
theorem C28_dds_rest_unchanged {σ E : Type} (p : Platform) (hu : 2 ^ 32 - 1 ≤ p.env.usizeMax)
    (dbg : E → String) (bundle : Bundle σ E) (input output o : Buf) (st st' : σ)
    (h : transformBundle p dbg bundle input output st = some (o, st', .ok ())) :
    IsDds input ∧ o.length = output.length ∧ input.length ≤ o.length ∧
    ∃ len, (textureSize input < 2 ^ 32 → len = textureSize input) ∧
      (∀ info, parseDds p input = some (some info) → len = info.dataLength.toNat) ∧ headerSize input + len ≤ input.length ∧
      (∀ i, 4 ≤ i → i < headerSize input → o[i]? = input[i]?) ∧
      (∀ i, headerSize input + len ≤ i → i < input.length → o[i]? = input[i]?) ∧
      (∀ i, input.length ≤ i → o[i]? = output[i]?) := by
  obtain ⟨info, f, tex, w, hp, hi, ha, hio, hf, hd, hd1, heq, ho⟩ := transform_ok hu h
  have hdds : IsDds input := by
    by_cases hx : IsDds input
    · exact hx
    · rw [(C33_parse p input).1 hx] at hp; simp at hp
  have hoff := (((C33_parse p input).2.1 hdds).2.2 info hp).2
  have hsz : textureSize input < 2 ^ 32 → info.dataLength.toNat = textureSize input := by
    intro hs
    obtain ⟨i2, h1, h2⟩ := C32_size_partial p input hdds hs
    rw [hp] at h1
    simp only [Option.some.injEq] at h1
    rw [h1, h2]
  have hle := parse_offset_le (parseDds_some hp).1
  have hin : ∀ info', parseDds p input = some (some info') → info.dataLength.toNat = info'.dataLength.toNat := by
    intro info' h'
    rw [hp] at h'
    cases h'; rfl
  rw [hoff] at hi ha hd heq ho hle
  generalize headerSize input = off at *
  generalize info.dataLength.toNat = len at *
  have hw4 : (to32 .little w.word).length = 4 := to32_length _ _
  have l1 : o.length = output.length := by
    rw [ho, assemble_length hw4 (by omega) (by omega)]
    split
    · next hx => have := heq hx; simp; omega
    · simp; omega
  refine ⟨hdds, l1, by omega, len, hsz, hin, hi, fun i h4 h5 => ?_, fun i h4 h5 => ?_, fun i h4 => ?_⟩
  · have e1 := assemble_header (magic := to32 .little w.word) (input := input) (tex := tex)
      (rest := if off + len < input.length then input.drop (off + len) else output.drop (off + len)) (off := off) hw4
      (by omega)
    rw [← ho] at e1
    have := congrArg (fun l => l[i - 4]?) e1
    unfold slice at this
    simp only [List.getElem?_take, List.getElem?_drop, show i - 4 < off - 4 by omega, if_true,
      show 4 + (i - 4) = i by omega] at this
    exact this
  · have e4 := assemble_rest (magic := to32 .little w.word) (input := input) (tex := tex)
      (rest := if off + len < input.length then input.drop (off + len) else output.drop (off + len)) (off := off) hw4
      (by omega) (by omega)
    rw [← ho, hd1, if_pos (by omega)] at e4
    have := congrArg (fun l => l[i - (off + len)]?) e4
    simp only [List.getElem?_drop, show off + len + (i - (off + len)) = i by omega] at this
    exact this
  · have e4 := assemble_rest (magic := to32 .little w.word) (input := input) (tex := tex)
      (rest := if off + len < input.length then input.drop (off + len) else output.drop (off + len)) (off := off) hw4
      (by omega) (by omega)
    rw [← ho, hd1] at e4
    by_cases hx : off + len < input.length
    · have := heq hx
      rw [List.getElem?_eq_none (by omega), List.getElem?_eq_none (by omega)]
    · rw [if_neg hx] at e4
      have := congrArg (fun l => l[i - (off + len)]?) e4
      simp only [List.getElem?_drop, show off + len + (i - (off + len)) = i by omega] at this
      exact this

/-! ## C29 and C30 -/

/-- A header word of BC1 or BC2 data is not the magic. -/
theorem header_not_magic {σ E : Type} {env : Env} {m : Machine} {dbg : E → String} {b : Bundle σ E} {f : TransformFormat}
    {input output o : Buf} {st st' : σ} {w : TransformHeader}
    (h : b.dispatchTransform env m dbg f input output st = some (o, st', .ok w)) : w.word ≠ 0x20534444#32 := by
  obtain ⟨o2, s2, r, h1, _, _, h4⟩ := dispatchTransform_spec env m dbg b f input output st
  rw [h] at h1
  simp only [Option.some.injEq, Prod.mk.injEq] at h1
  obtain ⟨_, s, hs⟩ := h4 w h1.2.2.symm
  obtain ⟨v, c⟩ := s
  rcases hs with ⟨_, _, rfl, _⟩ | ⟨_, _, rfl, _⟩ <;> cases v <;> cases c <;> decide

/-- **C29.** The transformed file is no DDS file for any program of any kind: detection rejects it and another
transformation returns `InvalidInputFileHeader` and writes nothing. -/
theorem C29_not_transformed_twice {σ E : Type} (p p' : Platform) (hu : 2 ^ 32 - 1 ≤ p.env.usizeMax)
    (dbg : E → String) (bundle bundle' : Bundle σ E) (input output o : Buf) (st st' st2 : σ)
    (h : transformBundle p dbg bundle input output st = some (o, st', .ok ())) (file : Buf)
    (hfile : file = o.take input.length) (buf : Buf) (hb : file.length ≤ buf.length) :
    ¬ IsDds file ∧ (∀ ext, canHandle p' file ext = some false) ∧
    transformBundle p' dbg bundle' file buf st2 = some (buf, st2, .error (.formatHandler .invalidInputFileHeader)) ∧
    transformSliceWithMultipleHandlers [handler p' dbg] file buf bundle' st2 =
      some (buf, st2, .error .noSupportedHandler) := by
  obtain ⟨info, f, tex, w, hp, hi, ha, hio, hf, hd, hd1, heq, ho⟩ := transform_ok hu h
  have hle := parse_offset_le (parseDds_some hp).1
  have hw4 : (to32 .little w.word).length = 4 := to32_length _ _
  have e0 : slice o 0 4 = to32 .little w.word := by rw [ho, assemble_magic hw4]
  have e1 : slice file 0 4 = to32 .little w.word := by
    rw [hfile, ← e0]
    unfold slice
    rw [List.drop_zero, List.drop_zero, List.take_take, Nat.min_eq_left (by omega)]
  have hn : ¬ IsDds file := by
    rintro ⟨h1, _⟩
    rw [e1, show ascii "DDS " = to32 .little 0x20534444#32 by decide] at h1
    have := congrArg (of32 .little) h1
    rw [of32_to32, of32_to32] at this
    exact header_not_magic hd this
  have hpn := (C33_parse p' file).1 hn
  have hcan : ∀ ext, canHandle p' file ext = some false := by
    intro ext
    by_cases he : ext = none ∨ ext = some "dds"
    · exact ((C33_detection p' file ext).2 he).1 hn
    · exact (C33_detection p' file ext).1 (fun h => he (.inl h)) (fun h => he (.inr h))
  refine ⟨hn, hcan, ?_, ?_⟩
  · unfold transformBundle
    rw [if_neg (by omega), hpn]
    rfl
  · unfold transformSliceWithMultipleHandlers
    rw [if_neg (by omega)]
    unfold tryTransform
    have : (handler (E := E) p' dbg).canHandle file none st2 = some (st2, false) := by
      change (canHandle p' file none).map _ = _
      rw [hcan]; rfl
    rw [this]
    rfl

/-! ## C31 -/

/-- **C31** on platforms whose addresses have more than 32 bits.  Transformation: an input that is no DDS file, or that is
shorter than its header says, is refused and nothing is written.  The full claim also covers platforms with 32 bit
addresses and builds with overflow checks that panic while computing the size, where it is false:
`C31_truncated_panics`. -/
theorem C31_transform_truncated_partial {σ E : Type} (p : Platform) (hw : Wide p) (dbg : E → String)
    (bundle : Bundle σ E) (input output : Buf) (st : σ) (hl : input.length ≤ output.length) :
    (¬ IsDds input → transformBundle p dbg bundle input output st =
      some (output, st, .error (.formatHandler .invalidInputFileHeader))) ∧
    (∀ info, parseDds p input = some (some info) → input.length < headerSize input + info.dataLength.toNat →
      transformBundle p dbg bundle input output st = some (output, st, .error (.formatHandler
        (.inputTooShortForStatedTextureSize (headerSize input + info.dataLength.toNat) input.length)))) ∧
    (IsDds input → textureSize input < 2 ^ 32 → input.length < headerSize input + textureSize input →
      transformBundle p dbg bundle input output st = some (output, st, .error (.formatHandler
        (.inputTooShortForStatedTextureSize (headerSize input + textureSize input) input.length)))) := by
  have key : ∀ info, parseDds p input = some (some info) → input.length < headerSize input + info.dataLength.toNat →
      transformBundle p dbg bundle input output st = some (output, st, .error (.formatHandler
        (.inputTooShortForStatedTextureSize (headerSize input + info.dataLength.toNat) input.length))) := by
    intro info hp hs
    have hoff := ((C33_parse p input).2.2.2.2 info (parseDds_some hp).1).2.2
    have hsum := wide_sum hw (parseDds_some hp).1
    unfold transformBundle
    rw [if_neg (by omega), hp]
    simp only [Option.bind_eq_bind, Option.bind_some]
    rw [addUsize_eq hsum, Option.bind_some, if_pos (by omega), hoff]
    rfl
  refine ⟨fun hn => ?_, key, fun hd hs ht => ?_⟩
  · unfold transformBundle
    rw [if_neg (by omega), (C33_parse p input).1 hn]
    rfl
  · obtain ⟨info, h1, h2⟩ := C32_size_partial p input hd hs
    rw [← h2] at ht ⊢
    exact key info h1 ht

/-- **C31** for restoring, with the same restriction. -/
theorem C31_untransform_truncated_partial (p : Platform) (hw : Wide p) (input output : Buf)
    (hl : input.length ≤ output.length) :
    (input.length < 4 → untransform p input output = some (output, .error (.formatHandler (.inputTooShort 4 input.length)))) ∧
    (4 ≤ input.length → input.length < headerSize input → untransform p input output =
      some (output, .error (.formatHandler .invalidRestoredFileHeader))) ∧
    (∀ info, parseIgnoreMagic p input = some (some info) → input.length < headerSize input + info.dataLength.toNat →
      untransform p input output = some (output, .error (.formatHandler
        (.inputTooShortForStatedTextureSize (headerSize input + info.dataLength.toNat) input.length)))) := by
  refine ⟨fun h => ?_, fun h4 h => ?_, fun info hp hs => ?_⟩
  · unfold untransform
    rw [if_pos h]
  · have hn : parseIgnoreMagic p input = some none := by
      apply (C33_parse p input).2.2.2.1
      unfold headerSize at h
      split at h
      · next hx => exact .inr ⟨hx, h⟩
      · exact .inl h
    unfold untransform
    rw [if_neg (by omega), if_neg (by omega), read_eq _ _ _ (by omega), hn]
    rfl
  · have hoff := ((C33_parse p input).2.2.2.2 info hp).2.2
    have hle := parse_offset_le hp
    have hsum := wide_sum hw hp
    unfold untransform
    rw [if_neg (by omega), if_neg (by omega), read_eq _ _ _ (by omega), hp]
    simp only [Option.bind_eq_bind, Option.bind_some]
    rw [addUsize_eq hsum, Option.bind_some, if_pos (by omega), hoff]
    rfl

/-- 1027996 x 8356, BC1: 2^32 - 8 bytes of texture data.  The file ends after the header. -/
def wrapFile : Buf := ddsHeader 0x1007#32 8356#32 1027996#32 1#32 4#32 "DXT1" []

/-- C31 is false where addresses have 32 bits: this truncated file makes the call panic.  It is also false in builds with
overflow checks, on every platform: there `hugeFile` makes the call panic. -/
theorem C31_truncated_panics {σ E : Type} (p : Platform) (dbg : E → String) (output : Buf) (st : σ)
    (hl : 128 ≤ output.length) :
    (IsDds wrapFile ∧ wrapFile.length < headerSize wrapFile + textureSize wrapFile ∧ textureSize wrapFile < 2 ^ 32 ∧
      (p.env.usizeMax = 2 ^ 32 - 1 → transformBundle p dbg (Bundle.defaultAll (E := E)) wrapFile output st = none)) ∧
    (IsDds hugeFile ∧ hugeFile.length < headerSize hugeFile + textureSize hugeFile ∧
      (p.overflowChecks = true → transformBundle p dbg (Bundle.defaultAll (E := E)) hugeFile output st = none)) := by
  have h1 : IsDds wrapFile := by decide +kernel
  have h2 : textureSize wrapFile = 2 ^ 32 - 8 := by decide +kernel
  have h3 : headerSize wrapFile = 128 := by decide +kernel
  have h4 : wrapFile.length = 128 := by decide +kernel
  have h5 : classify wrapFile = .bc1 := by decide +kernel
  have h6 : hugeFile.length = 128 := by decide +kernel
  have h7 : headerSize hugeFile = 128 := by decide +kernel
  obtain ⟨g1, _, g3, _, g5⟩ := C32_size_wraps
  refine ⟨⟨h1, by omega, by omega, fun hu => ?_⟩, g1, by omega, fun hc => ?_⟩
  · obtain ⟨info, e1, e2⟩ := C32_size_partial p wrapFile h1 (by omega)
    obtain ⟨e3, e4⟩ := ((C33_parse p wrapFile).2.1 h1).2.2 info e1
    rw [h2] at e2
    rw [h3] at e4
    rw [h5] at e3
    unfold transformBundle
    rw [if_neg (by omega), e1]
    simp only [Option.bind_eq_bind, Option.bind_some, e2, e3, e4]
    rcases addUsize_cases p (by omega) (off := 128) (len := 2 ^ 32 - 8) (by omega) (by omega) with ⟨h, _⟩ | h | ⟨t, h, ht⟩
    · omega
    · rw [h]; rfl
    · rw [h, Option.bind_some, if_neg (by omega), subslice_eq (by omega) (by omega), Option.bind_some,
        copyFromSlice_eq (by omega) (by omega) (by rw [slice_length_of_le (by omega)]), Option.bind_some]
      simp only [toTransformFormat]
      have hn : subslice wrapFile 128 t = none := by
        unfold subslice; rw [if_neg (by omega)]
      rw [Option.bind_some, hn]
      rfl
  · unfold transformBundle
    rw [if_neg (by omega), g5 p hc]
    rfl

/-! ## C30 -/

theorem magic_word {input : Buf} (hmag : slice input 0 4 = ascii "DDS ") (m : Machine) (a b : Buf)
    (hab : a.length = b.length) :
    dispatchUntransform m ⟨of32 .little (slice input 0 4)⟩ a b = some (b, .error .unknownTransformFormat) := by
  have hword : (of32 .little (slice input 0 4)).toNat % 16 = 4 := by rw [hmag]; decide
  exact ((C36_dispatch_obeys_header m ⟨of32 .little (slice input 0 4)⟩ a b).2 (by omega)).1 (by simp only []; omega)

/-- **C30.** Restoring never succeeds on input that starts with the magic of an untransformed file. -/
theorem C30_never_succeeds (p : Platform) (hu : 2 ^ 32 - 1 ≤ p.env.usizeMax) (input output o : Buf)
    (hmag : slice input 0 4 = ascii "DDS ") : untransform p input output ≠ some (o, .ok ()) := by
  intro h
  obtain ⟨info, hp, h1, h2, h3, tex, h4⟩ := untransform_ok hu h
  rw [magic_word hmag _ _ _ (by rw [slice_length_of_le (by omega), slice_length_of_le (by omega)])] at h4
  simp at h4

/-- **C30**, the error: on platforms with addresses of more than 32 bits the call returns an error if the size computation
does not panic, and for a complete file this is `UnknownTransformFormat`.  The full claim has no exception for panics and is
refuted by `C30_panics`. -/
theorem C30_error_partial (p : Platform) (hw : Wide p) (input output : Buf) (hmag : slice input 0 4 = ascii "DDS ") :
    (p.overflowChecks = false ∨ (∀ i, i < mipCount input → levelSize input i < 2 ^ 32) →
      ∃ o e, untransform p input output = some (o, .error e)) ∧
    (∀ info, parseDds p input = some (some info) →
      headerSize input + info.dataLength.toNat ≤ input.length → input.length ≤ output.length →
      ∃ o, untransform p input output = some (o, .error .unknownTransformFormat)) := by
  have full : ∀ info, parseIgnoreMagic p input = some (some info) →
      headerSize input + info.dataLength.toNat ≤ input.length → input.length ≤ output.length →
      ∃ o, untransform p input output = some (o, .error .unknownTransformFormat) := by
    intro info hp hs hl
    have hoff := ((C33_parse p input).2.2.2.2 info hp).2.2
    have hsum := wide_sum hw hp
    rw [untransform_eq p input output hp rfl rfl (by omega) hl hsum, magic_word hmag _ _ _ (by
      rw [slice_length_of_le (by omega), slice_length_of_le (by omega)])]
    exact ⟨_, rfl⟩
  refine ⟨fun hc => ?_, fun info hp => full info (parseDds_some hp).1⟩
  by_cases hl : output.length < input.length
  · by_cases h4 : input.length < 4
    · exact ⟨_, _, by unfold untransform; rw [if_pos h4]⟩
    · exact ⟨_, _, by unfold untransform; rw [if_neg h4, if_pos hl]⟩
  · obtain ⟨t1, t2, t3⟩ := C31_untransform_truncated_partial p hw input output (by omega)
    by_cases h4 : input.length < 4
    · exact ⟨_, _, t1 h4⟩
    · by_cases hh : input.length < headerSize input
      · exact ⟨_, _, t2 (by omega) hh⟩
      · have hp : ∃ info, parseIgnoreMagic p input = some (some info) := by
          have hd : IsDds input := by
            unfold headerSize at hh
            refine ⟨hmag, ?_, fun hx => ?_⟩
            · split at hh <;> omega
            · rw [if_pos hx] at hh; omega
          obtain ⟨info, e, _⟩ := (C32_size_reported p input hd).2 hc
          exact ⟨info, (parseDds_some e).1⟩
        obtain ⟨info, hp⟩ := hp
        by_cases hs : input.length < headerSize input + info.dataLength.toNat
        · exact ⟨_, _, t3 info hp hs⟩
        · obtain ⟨o, ho⟩ := full info hp (by omega) (by omega)
          exact ⟨o, _, ho⟩

/-- Builds with overflow checks panic on `hugeFile`. -/
theorem C30_panics (p : Platform) (hc : p.overflowChecks = true) (output : Buf) (hl : 128 ≤ output.length) :
    slice hugeFile 0 4 = ascii "DDS " ∧ untransform p hugeFile output = none := by
  obtain ⟨g1, _, _, _, g5⟩ := C32_size_wraps
  have h6 : hugeFile.length = 128 := by decide +kernel
  refine ⟨g1.1, ?_⟩
  unfold untransform
  rw [if_neg (by omega), if_neg (by omega), read_eq _ _ _ (by omega), (C33_parse p hugeFile).2.2.1 g1, g5 p hc]
  rfl

/-! ## C27 -/

/-- C27 is false for every file with data after the texture: whenever transforming it into a buffer of its own size
succeeds, the same call with any larger buffer panics. -/
theorem C27_larger_buffer_panics {σ E : Type} (p : Platform) (hu : 2 ^ 32 - 1 ≤ p.env.usizeMax)
    (dbg : E → String) (bundle : Bundle σ E) (input output o : Buf) (st st' : σ)
    (h : transformBundle p dbg bundle input output st = some (o, st', .ok ()))
    (info : DdsInfo) (hp : parseDds p input = some (some info))
    (htrail : headerSize input + info.dataLength.toNat < input.length) (extra : Buf) (he : extra ≠ []) :
    transformBundle p dbg bundle input (output ++ extra) st = none := by
  obtain ⟨info', f, tex, w, hp', hi, ha, hio, hf, hd, hd1, heq, ho⟩ := transform_ok hu h
  rw [hp] at hp'
  simp only [Option.some.injEq] at hp'
  subst hp'
  have hoff := ((C33_parse p input).2.2.2.2 info (parseDds_some hp).1).2.2
  have hx : 0 < extra.length := List.length_pos_iff.2 he
  have hlen := heq (by omega)
  rw [transform_eq p dbg bundle input (output ++ extra) st hp rfl rfl hi (by simp; omega) ha, hf]
  simp only []
  rw [slice_append_left _ _ _ _ (by omega), hd]
  simp only []
  rw [if_pos (by omega), if_neg (by rw [List.length_append]; omega)]

/-- The same for restoring. -/
theorem C27_larger_buffer_untransform_panics (p : Platform) (hu : 2 ^ 32 - 1 ≤ p.env.usizeMax) (input output o : Buf)
    (h : untransform p input output = some (o, .ok ())) (info : DdsInfo)
    (hp : parseIgnoreMagic p input = some (some info))
    (htrail : headerSize input + info.dataLength.toNat < input.length) (extra : Buf) (he : extra ≠ []) :
    untransform p input (output ++ extra) = none := by
  obtain ⟨info', hp', hi, ha, hio, tex, hd⟩ := untransform_ok hu h
  rw [hp] at hp'
  simp only [Option.some.injEq] at hp'
  subst hp'
  have hoff := ((C33_parse p input).2.2.2.2 info hp).2.2
  have hx : 0 < extra.length := List.length_pos_iff.2 he
  rw [untransform_eq p input (output ++ extra) hp rfl rfl hi (by simp; omega) ha]
  rw [slice_append_left _ _ _ _ (by omega), hd]
  simp only []
  rw [if_pos (by omega), if_neg (by rw [List.length_append]; omega)]

/-- C27 for files that end with the texture data: the larger buffer receives the same bytes and the rest of it is
untouched; errors are the same as well.  The full claim also covers files with trailing data and is refuted by
`C27_larger_buffer_panics`. -/
theorem C27_larger_buffer_partial {σ E : Type} (p : Platform) (hw : Wide p) (dbg : E → String) (bundle : Bundle σ E)
    (input output o : Buf) (st st' : σ) (r : Except TransformError Unit) (hl : input.length ≤ output.length)
    (h : transformBundle p dbg bundle input output st = some (o, st', r))
    (hend : ∀ info, parseDds p input = some (some info) → input.length ≤ headerSize input + info.dataLength.toNat)
    (extra : Buf) :
    transformBundle p dbg bundle input (output ++ extra) st = some (o ++ extra, st', r) := by
  have hl2 : input.length ≤ (output ++ extra).length := by simp; omega
  by_cases hn : IsDds input
  · cases hp : parseDds p input with
    | none =>
      unfold transformBundle at h
      rw [if_neg (by omega), hp] at h
      simp at h
    | some i =>
      cases i with
      | none => exact absurd hp ((C33_parse p input).2.1 hn).1
      | some info =>
        have hle := parse_offset_le (parseDds_some hp).1
        have hoff := ((C33_parse p input).2.2.2.2 info (parseDds_some hp).1).2.2
        have hsum := wide_sum hw (parseDds_some hp).1
        by_cases hs : input.length < headerSize input + info.dataLength.toNat
        · rw [(C31_transform_truncated_partial p hw dbg bundle input output st hl).2.1 info hp hs] at h
          rw [(C31_transform_truncated_partial p hw dbg bundle input _ st hl2).2.1 info hp hs]
          simp only [Option.some.injEq, Prod.mk.injEq] at h ⊢
          exact ⟨by rw [h.1], h.2⟩
        · have := hend info hp
          rw [transform_eq p dbg bundle input _ st hp rfl rfl (by omega) hl hsum] at h
          rw [transform_eq p dbg bundle input _ st hp rfl rfl (by omega) hl2 hsum,
            slice_append_left _ _ _ _ (by omega), List.drop_append_of_le_length (by omega),
            List.drop_append_of_le_length (by omega)]
          have hnx : ¬ info.dataOffset.toNat + info.dataLength.toNat < input.length := by omega
          simp only [if_neg hnx] at h ⊢
          split at h
          · simp only [Option.some.injEq, Prod.mk.injEq] at h ⊢
            exact ⟨by rw [← h.1, List.append_assoc], h.2⟩
          · split at h
            · simp at h
            · simp only [Option.some.injEq, Prod.mk.injEq] at h ⊢
              exact ⟨by rw [← h.1, List.append_assoc _ _ extra], h.2⟩
            · simp only [Option.some.injEq, Prod.mk.injEq] at h ⊢
              refine ⟨?_, h.2⟩
              rw [← h.1]
              unfold assemble
              rw [List.append_assoc _ _ extra]
  · rw [(C31_transform_truncated_partial p hw dbg bundle input output st hl).1 hn] at h
    rw [(C31_transform_truncated_partial p hw dbg bundle input _ st hl2).1 hn]
    simp only [Option.some.injEq, Prod.mk.injEq] at h ⊢
    exact ⟨by rw [h.1], h.2⟩

/-- The same for restoring. -/
theorem C27_larger_buffer_untransform_partial (p : Platform) (hw : Wide p) (input output o : Buf)
    (r : Except TransformError Unit) (hl : input.length ≤ output.length)
    (h : untransform p input output = some (o, r))
    (hend : ∀ info, parseIgnoreMagic p input = some (some info) →
      input.length ≤ headerSize input + info.dataLength.toNat) (extra : Buf) :
    untransform p input (output ++ extra) = some (o ++ extra, r) := by
  have hl2 : input.length ≤ (output ++ extra).length := by simp; omega
  obtain ⟨t1, t2, t3⟩ := C31_untransform_truncated_partial p hw input output hl
  obtain ⟨u1, u2, u3⟩ := C31_untransform_truncated_partial p hw input _ hl2
  by_cases h4 : input.length < 4
  · rw [t1 h4] at h
    rw [u1 h4]
    simp only [Option.some.injEq, Prod.mk.injEq] at h ⊢
    exact ⟨by rw [h.1], h.2⟩
  by_cases hh : input.length < headerSize input
  · rw [t2 (by omega) hh] at h
    rw [u2 (by omega) hh]
    simp only [Option.some.injEq, Prod.mk.injEq] at h ⊢
    exact ⟨by rw [h.1], h.2⟩
  cases hp : parseIgnoreMagic p input with
  | none =>
    unfold untransform at h
    rw [if_neg h4, if_neg (by omega), read_eq _ _ _ (by omega), hp] at h
    simp at h
  | some i =>
    cases i with
    | none =>
      unfold untransform at h ⊢
      rw [if_neg h4, if_neg (by omega), read_eq _ _ _ (by omega), hp] at h ⊢
      simp only [Option.bind_eq_bind, Option.bind_some, Option.pure_def, Option.some.injEq, Prod.mk.injEq] at h ⊢
      exact ⟨by rw [h.1], h.2⟩
    | some info =>
      have hle := parse_offset_le hp
      have hoff := ((C33_parse p input).2.2.2.2 info hp).2.2
      have hsum := wide_sum hw hp
      by_cases hs : input.length < headerSize input + info.dataLength.toNat
      · rw [t3 info hp hs] at h
        rw [u3 info hp hs]
        simp only [Option.some.injEq, Prod.mk.injEq] at h ⊢
        exact ⟨by rw [h.1], h.2⟩
      · have := hend info hp
        rw [untransform_eq p input _ hp rfl rfl (by omega) hl hsum] at h
        rw [untransform_eq p input _ hp rfl rfl (by omega) hl2 hsum,
          slice_append_left _ _ _ _ (by omega), List.drop_append_of_le_length (by omega)]
        have hnx : ¬ info.dataOffset.toNat + info.dataLength.toNat < input.length := by omega
        simp only [if_neg hnx] at h ⊢
        split at h
        · simp at h
        · simp only [Option.some.injEq, Prod.mk.injEq] at h ⊢
          refine ⟨?_, h.2⟩
          rw [← h.1]
          unfold assemble
          rw [List.append_assoc _ _ extra]
        · simp only [Option.some.injEq, Prod.mk.injEq] at h ⊢
          refine ⟨?_, h.2⟩
          rw [← h.1]
          unfold assemble
          rw [List.append_assoc _ _ extra]

/-! ## C34 -/

/-- **C34.** Only BC1 and BC2 textures for which the bundle has a builder are transformed. -/
theorem C34_only_bc1_bc2 {σ E : Type} (p : Platform) (hu : 2 ^ 32 - 1 ≤ p.env.usizeMax)
    (dbg : E → String) (bundle : Bundle σ E) (input output o : Buf) (st st' : σ)
    (h : transformBundle p dbg bundle input output st = some (o, st', .ok ())) :
    (classify input = .bc1 ∧ bundle.bc1 ≠ none) ∨ (classify input = .bc2 ∧ bundle.bc2 ≠ none) := by
  obtain ⟨info, f, tex, w, hp, hi, ha, hio, hf, hd, _, _, _⟩ := transform_ok hu h
  obtain ⟨_, hfmt, _⟩ := (C33_parse p input).2.2.2.2 info (parseDds_some hp).1
  obtain ⟨o2, s2, r, h1, _, _, h4⟩ := dispatchTransform_spec p.env p.m dbg bundle f
    (slice input info.dataOffset.toNat info.dataLength.toNat)
    (slice output info.dataOffset.toNat info.dataLength.toNat) st
  rw [hd] at h1
  simp only [Option.some.injEq, Prod.mk.injEq] at h1
  obtain ⟨_, s, hs⟩ := h4 w h1.2.2.symm
  rw [← hfmt]
  rcases hs with ⟨rfl, hb, _⟩ | ⟨rfl, hb, _⟩
  · left
    refine ⟨?_, hb⟩
    revert hf
    cases info.format <;> simp [toTransformFormat]
  · right
    refine ⟨?_, hb⟩
    revert hf
    cases info.format <;> simp [toTransformFormat]

/-- The formats without any implementation. -/
def notImplemented : List (DdsFormat × TransformFormat) :=
  [(.bc3, .bc3), (.bc4, .bc4), (.bc5, .bc5), (.bc6h, .bc6h), (.bc7, .bc7)]

/-- **C34**, the error for a complete file. -/
theorem C34_errors {σ E : Type} (p : Platform) (dbg : E → String) (bundle : Bundle σ E)
    (input output : Buf) (st : σ) (hu : input.length ≤ p.env.usizeMax) (hl : input.length ≤ output.length) (info : DdsInfo)
    (hp : parseDds p input = some (some info)) (hs : headerSize input + info.dataLength.toNat ≤ input.length) :
    ∃ o, o.length = output.length ∧
      (∀ f, (classify input, f) ∈ notImplemented → transformBundle p dbg bundle input output st =
        some (o, st, .error (.formatHandler (.formatNotImplemented f)))) ∧
      (classify input = .unknown →
        transformBundle p dbg bundle input output st = some (o, st, .error (.formatHandler .unknownFileFormat))) ∧
      (classify input ∈ [.rgba8888, .bgra8888, .bgr888] →
        transformBundle p dbg bundle input output st = some (o, st, .error .unknownTransformFormat)) ∧
      (classify input = .bc1 → bundle.bc1 = none → transformBundle p dbg bundle input output st =
        some (o, st, .error (.formatHandler (.noBuilderForFormat .bc1)))) ∧
      (classify input = .bc2 → bundle.bc2 = none → transformBundle p dbg bundle input output st =
        some (o, st, .error (.formatHandler (.noBuilderForFormat .bc2)))) := by
  obtain ⟨_, hfmt, hoff⟩ := (C33_parse p input).2.2.2.2 info (parseDds_some hp).1
  have hsum : info.dataOffset.toNat + info.dataLength.toNat ≤ p.env.usizeMax := by omega
  have hlen : ∀ off, off ≤ input.length → (input.take off ++ output.drop off).length = output.length := by
    intro off h; simp; omega
  have hself : ∀ off len, off + len ≤ output.length →
      input.take off ++ slice output off len ++ output.drop (off + len) = input.take off ++ output.drop off := by
    intro off len h
    rw [List.append_assoc]
    unfold slice
    rw [← List.drop_drop, List.take_append_drop]
  have hsl : (slice output info.dataOffset.toNat info.dataLength.toNat).length =
      (slice input info.dataOffset.toNat info.dataLength.toNat).length := by
    rw [slice_length_of_le (by omega), slice_length_of_le (by omega)]
  refine ⟨input.take info.dataOffset.toNat ++ output.drop info.dataOffset.toNat, hlen _ (by omega), ?_, ?_, ?_, ?_, ?_⟩
  all_goals rw [transform_eq p dbg bundle input output st hp rfl rfl (by omega) hl hsum, ← hfmt]
  · intro f hf
    generalize info.format = g at hf
    simp only [notImplemented, List.mem_cons, Prod.mk.injEq, List.not_mem_nil, or_false] at hf
    rcases hf with ⟨rfl, rfl⟩ | ⟨rfl, rfl⟩ | ⟨rfl, rfl⟩ | ⟨rfl, rfl⟩ | ⟨rfl, rfl⟩ <;> rfl
  · intro hf
    rw [hf]
    rfl
  · intro hf
    simp only [List.mem_cons, List.not_mem_nil, or_false] at hf
    rcases hf with hf | hf | hf <;> rw [hf] <;> simp only [toTransformFormat, Bundle.dispatchTransform] <;>
      rw [if_neg (by omega)] <;> simp only [] <;> rw [hself _ _ (by omega)]
  · intro hf hb
    rw [hf]
    simp only [toTransformFormat, Bundle.dispatchTransform]
    rw [if_neg (by omega), hb]
    simp only []
    rw [hself _ _ (by omega)]
  · intro hf hb
    rw [hf]
    simp only [toTransformFormat, Bundle.dispatchTransform]
    rw [if_neg (by omega), hb]
    simp only []
    rw [hself _ _ (by omega)]

/-! ## C54 -/

/-- The transform format of the same name. -/
def sameName : DdsFormat → Option TransformFormat
  | .bc1 => some .bc1
  | .bc2 => some .bc2
  | .bc3 => some .bc3
  | .bc4 => some .bc4
  | .bc5 => some .bc5
  | .bc6h => some .bc6h
  | .bc7 => some .bc7
  | .rgba8888 => some .rgba8888
  | .bgra8888 => some .bgra8888
  | .bgr888 => some .bgr888
  | .unknown | .notADds => none

/-- The formats a filter lets pass: all, or the one it names. -/
def Passes (filter : Filter) (f : TransformFormat) : Prop :=
  filter = .all ∨ (filter, f) ∈ ([(.bc1, .bc1), (.bc2, .bc2), (.bc3, .bc3), (.bc4, .bc4), (.bc5, .bc5), (.bc6h, .bc6h),
    (.bc7, .bc7), (.rgba8888, .rgba8888), (.bgra8888, .bgra8888), (.bgr888, .bgr888)] : List (Filter × TransformFormat))

theorem accepts_iff (filter : Filter) (f : TransformFormat) : filter.accepts f = true ↔ Passes filter f := by
  unfold Passes
  cases filter <;> cases f <;> simp [Filter.accepts]

theorem toTransformFormat_eq (g : DdsFormat) : toTransformFormat g true =
    match sameName g with
    | some f => .ok f
    | none => .error (.formatHandler .unknownFileFormat) := by
  cases g <;> rfl

/-- **C54.** What block extraction and the format query return for any bytes and filter. -/
theorem C54_extraction (p : Platform) (hw : Wide p) (b : Buf) (filter : Filter) :
    (¬ IsDds b → extractBlocks p b filter = some (.error (.formatHandler .unknownFileFormat)) ∧
      getTransformFormat p b filter = some (.error (.formatHandler .unknownFileFormat))) ∧
    (∀ info, parseDds p b = some (some info) →
      (sameName (classify b) = none →
        extractBlocks p b filter = some (.error (.formatHandler .unknownFileFormat)) ∧
        getTransformFormat p b filter = some (.error (.formatHandler .unknownFileFormat))) ∧
      (∀ f, sameName (classify b) = some f →
        (¬ Passes filter f → extractBlocks p b filter = some (.ok none) ∧
          getTransformFormat p b filter = some (.ok none)) ∧
        (Passes filter f → getTransformFormat p b filter = some (.ok (some f)) ∧
          (b.length < headerSize b + info.dataLength.toNat → extractBlocks p b filter = some (.error (.formatHandler
            (.inputTooShortForStatedTextureSize (headerSize b + info.dataLength.toNat) b.length)))) ∧
          (headerSize b + info.dataLength.toNat ≤ b.length → extractBlocks p b filter =
            some (.ok (some (slice b (headerSize b) info.dataLength.toNat, f))))))) := by
  refine ⟨fun hn => ?_, fun info hp => ?_⟩
  · have hpn := (C33_parse p b).1 hn
    unfold extractBlocks getTransformFormat
    rw [hpn]
    exact ⟨rfl, rfl⟩
  · obtain ⟨_, hfmt, hoff⟩ := (C33_parse p b).2.2.2.2 info (parseDds_some hp).1
    have hsum := wide_sum hw (parseDds_some hp).1
    unfold extractBlocks getTransformFormat
    rw [hp]
    simp only [Option.bind_eq_bind, Option.bind_some, toTransformFormat_eq, hfmt]
    refine ⟨fun hs => ?_, fun f hs => ⟨fun hf => ?_, fun hf => ⟨?_, fun hl => ?_, fun hl => ?_⟩⟩⟩
    · rw [hs]
      exact ⟨rfl, rfl⟩
    · rw [hs]
      simp only [accepts_iff, hf, if_false]
      exact ⟨rfl, rfl⟩
    · rw [hs]
      simp only [accepts_iff, hf, if_true]
      rfl
    · rw [hs]
      simp only [accepts_iff, hf, if_true]
      rw [addUsize_eq hsum, Option.bind_some, if_pos (by omega), hoff]
      rfl
    · rw [hs]
      simp only [accepts_iff, hf, if_true]
      rw [addUsize_eq hsum, Option.bind_some, if_neg (by omega), Option.bind_some, subslice_eq (by omega) (by omega),
        Option.bind_some, hoff, Nat.add_sub_cancel_left]
      rfl

/-! ## Concrete files -/

/-- A 4 x 4 BC1 texture and one more byte. -/
def smallFile : Buf := ddsHeader 0x1007#32 4#32 4#32 1#32 4#32 "DXT1" [] ++ [0, 0xF8, 0x1F, 0, 1, 2, 3, 4, 99]

/-- 64 bit, release build, portable code. -/
def somePlatform : Platform := ⟨⟨fun _ => true, 2 ^ 64 - 1⟩, .other .little fun _ => 0, false⟩

/-- Non-vacuity: the file is transformed and restored, keeps its last byte, and a buffer with one byte more panics in both
directions. -/
theorem smallFile_runs :
    (transformBundle somePlatform (fun _ : Unit => "") (Bundle.defaultAll (σ := Unit)) smallFile
      (List.replicate 137 7) ()).map (fun (o, _, r) => (o.take 4, o.drop 132, r.toOption)) =
        some ([64, 0, 0, 0], [1, 2, 3, 4, 99], some ()) ∧
    transformBundle somePlatform (fun _ : Unit => "") (Bundle.defaultAll (σ := Unit)) smallFile
      (List.replicate 138 7) () = none ∧
    ((transformBundle somePlatform (fun _ : Unit => "") (Bundle.defaultAll (σ := Unit)) smallFile
      (List.replicate 137 7) ()).bind fun (o, _, _) =>
        (untransform somePlatform o (List.replicate 137 9)).map fun (o, r) => (o, r.toOption)) =
          some (smallFile, some ()) := by
  refine ⟨by decide +kernel, ?_, by decide +kernel⟩
  have : (transformBundle somePlatform (fun _ : Unit => "") (Bundle.defaultAll (σ := Unit)) smallFile
      (List.replicate 138 7) ()).isNone = true := by decide +kernel
  simpa using this

/-- A luminance texture and a BC7 texture are refused. -/
example :
    (transformBundle somePlatform (fun _ : Unit => "") (Bundle.defaultAll (σ := Unit))
      (ddsHeader 0x1007#32 4#32 4#32 1#32 4#32 "DX10" [] ++ to32 .little 98#32 ++ List.replicate 32 0)
      (List.replicate 180 7) ()).map (fun (_, _, r) => r.isOk) = some false ∧
    (extractBlocks somePlatform smallFile .bc1).map (fun r => r.toOption) =
      some (some (some ([0, 0xF8, 0x1F, 0, 1, 2, 3, 4], .bc1))) := by
  exact ⟨by decide +kernel, by decide +kernel⟩

end Dlt.Props
