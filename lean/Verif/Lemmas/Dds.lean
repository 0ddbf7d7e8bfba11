import Verif.Model.Dds
import Verif.Props.FileFormats
/-!
# DDS: reads, slices and the two handler functions
-/

namespace Dlt.Dds

open Dlt.Embed Dlt.FileFormats

/-! ## Reads -/

theorem ld32_some {b : Buf} {off : Nat} (h : off + 4 ≤ b.length) :
    ld32 .little b off = some (of32 .little (slice b off 4)) := by
  unfold ld32 ld
  rw [if_pos h]
  rfl

/-- Reads inside bytes 4 to 127 depend only on these bytes. -/
theorem ld32_congr {a b : Buf} (hl : a.length = b.length) (h : slice a 4 124 = slice b 4 124) {off : Nat} (h4 : 4 ≤ off)
    (h128 : off + 4 ≤ 128) : ld32 .little a off = ld32 .little b off := by
  unfold ld32 ld
  rw [hl]
  have e : slice a off 4 = slice b off 4 := by
    have h1 := slice_slice a 4 124 (off - 4) 4 (by omega)
    have h2 := slice_slice b 4 124 (off - 4) 4 (by omega)
    rw [show 4 + (off - 4) = off by omega] at h1 h2
    rw [← h1, ← h2, h]
  rw [e]

theorem dataLength_congr (p : Platform) (f : DdsFormat) {a b : Buf} (hl : a.length = b.length)
    (h : slice a 4 124 = slice b 4 124) : dataLength p f a = dataLength p f b := by
  unfold dataLength dataLengthUncompressed
  rw [ld32_congr hl h (off := 0x08) (by omega) (by omega), ld32_congr hl h (off := 0x0C) (by omega) (by omega),
    ld32_congr hl h (off := 0x10) (by omega) (by omega), ld32_congr hl h (off := 0x1C) (by omega) (by omega),
    ld32_congr hl h (off := 0x50) (by omega) (by omega), ld32_congr hl h (off := 0x58) (by omega) (by omega)]

theorem detect_congr {a b : Buf} (hl : a.length = b.length)
    (h : slice a 4 124 = slice b 4 124) : detectUncompressedFormat a = detectUncompressedFormat b := by
  unfold detectUncompressedFormat
  rw [ld32_congr hl h (off := 0x50) (by omega) (by omega), ld32_congr hl h (off := 0x58) (by omega) (by omega),
    ld32_congr hl h (off := 0x5C) (by omega) (by omega), ld32_congr hl h (off := 0x60) (by omega) (by omega),
    ld32_congr hl h (off := 0x64) (by omega) (by omega), ld32_congr hl h (off := 0x68) (by omega) (by omega)]

/-- The parser looks at the length, at bytes 4 to 127 and, in a DX10 file, at the next 20 bytes. -/
theorem parse_congr (p : Platform) {a b : Buf} (hl : a.length = b.length) (h : slice a 4 124 = slice b 4 124)
    (h10 : ld32 .little a 0x54 = some 0x30315844#32 → slice a 128 20 = slice b 128 20) :
    parseIgnoreMagic p a = parseIgnoreMagic p b := by
  unfold parseIgnoreMagic finish
  rw [hl]
  by_cases h128 : b.length < 128
  · rw [if_pos h128, if_pos h128]
  · rw [if_neg h128, if_neg h128]
    rw [detect_congr hl h]
    simp only [dataLength_congr p _ hl h]
    rw [ld32_congr hl h (off := 0x50) (by omega) (by omega)]
    have e54 := ld32_congr hl h (off := 0x54) (by omega) (by omega)
    rw [e54, ld32_some (b := b) (off := 0x54) (by omega)]
    simp only [Option.bind_eq_bind, Option.bind_some]
    by_cases hd : of32 .little (slice b 0x54 4) = 0x30315844#32
    · rw [if_pos hd, if_pos hd]
      have h20 := h10 (by rw [e54, ld32_some (by omega), hd])
      have : ld32 .little a 0x80 = ld32 .little b 0x80 := by
        unfold ld32 ld
        rw [hl]
        have h1 := slice_slice a 128 20 0 4 (by omega)
        have h2 := slice_slice b 128 20 0 4 (by omega)
        rw [show slice a 0x80 4 = slice b 0x80 4 by rw [← h1, ← h2, h20]]
      rw [this]
    · rw [if_neg hd, if_neg hd]

/-! ## Offsets -/

theorem finish_info {p : Platform} {b : Buf} {f : DdsFormat} {off : Nat} {info : DdsInfo}
    (h : finish p b f off = some (some info)) : info.format = f ∧ info.dataOffset = BitVec.ofNat 8 off := by
  unfold finish at h
  cases hd : dataLength p f b with
  | none => rw [hd] at h; simp at h
  | some l =>
    rw [hd] at h
    simp only [Option.bind_eq_bind, Option.bind_some, Option.pure_def, Option.some.injEq] at h
    rw [← h]
    exact ⟨rfl, rfl⟩

theorem finish_not_none {p : Platform} {b : Buf} {f : DdsFormat} {off : Nat} : finish p b f off ≠ some none := by
  unfold finish
  cases dataLength p f b <;> simp

/-- The header ends after 148 bytes in a DX10 file and after 128 bytes otherwise. -/
theorem parse_offset {p : Platform} {b : Buf} {info : DdsInfo} (h : parseIgnoreMagic p b = some (some info)) :
    (ld32 .little b 0x54 = some 0x30315844#32 ∧ info.dataOffset.toNat = 148 ∧ 148 ≤ b.length) ∨
    (ld32 .little b 0x54 ≠ some 0x30315844#32 ∧ info.dataOffset.toNat = 128 ∧ 128 ≤ b.length) := by
  unfold parseIgnoreMagic at h
  by_cases h128 : b.length < 128
  · rw [if_pos h128] at h; simp at h
  · rw [if_neg h128, ld32_some (b := b) (off := 0x54) (by omega)] at h
    simp only [Option.bind_eq_bind, Option.bind_some] at h
    rw [ld32_some (b := b) (off := 0x54) (by omega)]
    by_cases hd : of32 .little (slice b 0x54 4) = 0x30315844#32
    · rw [if_pos hd] at h
      left
      by_cases h148 : b.length < 128 + 20
      · rw [if_pos h148] at h; simp at h
      · rw [if_neg h148, ld32_some (b := b) (off := 0x80) (by omega), Option.bind_some] at h
        exact ⟨by rw [hd], by rw [(finish_info h).2]; rfl, by omega⟩
    · rw [if_neg hd, ld32_some (b := b) (off := 0x50) (by omega), Option.bind_some] at h
      right
      refine ⟨by simpa using hd, ?_, by omega⟩
      split at h
      · rw [(finish_info h).2]; rfl
      · split at h
        · cases hf : detectUncompressedFormat b with
          | none => rw [hf] at h; simp at h
          | some f => rw [hf, Option.bind_some] at h; rw [(finish_info h).2]; rfl
        · rw [(finish_info h).2]; rfl

theorem parse_offset_le {p : Platform} {b : Buf} {info : DdsInfo} (h : parseIgnoreMagic p b = some (some info)) :
    128 ≤ info.dataOffset.toNat ∧ info.dataOffset.toNat ≤ 148 ∧ info.dataOffset.toNat ≤ b.length := by
  rcases parse_offset h with ⟨_, h1, h2⟩ | ⟨_, h1, h2⟩ <;> omega

/-- Both file headers parse alike if the bytes after the magic agree up to the end of the header. -/
theorem parse_same_header {p : Platform} {a b : Buf} {info : DdsInfo} (h : parseIgnoreMagic p a = some (some info))
    (hl : b.length = a.length) (hh : slice b 4 (info.dataOffset.toNat - 4) = slice a 4 (info.dataOffset.toNat - 4)) :
    parseIgnoreMagic p b = some (some info) := by
  have e1 : slice a 4 124 = slice b 4 124 := by
    have h1 := slice_slice a 4 (info.dataOffset.toNat - 4) 0 124 (by have := parse_offset_le h; omega)
    have h2 := slice_slice b 4 (info.dataOffset.toNat - 4) 0 124 (by have := parse_offset_le h; omega)
    rw [← h1, ← h2, hh]
  rw [← h]
  refine (parse_congr p hl.symm e1 ?_).symm
  intro h10
  rcases parse_offset h with ⟨_, h3, _⟩ | ⟨h3, _⟩
  · rw [h3] at hh
    have h1 := slice_slice a 4 144 124 20 (by omega)
    have h2 := slice_slice b 4 144 124 20 (by omega)
    rw [show 148 - 4 = 144 from rfl] at hh
    rw [← h1, ← h2, hh]
  · exact absurd h10 h3

theorem likely_eq (b : Buf) :
    likelyDds b = some (decide (128 ≤ b.length ∧ of32 .little (slice b 0 4) = 0x20534444#32)) := by
  unfold likelyDds
  by_cases h : 128 ≤ b.length
  · rw [if_pos h, ld32_some (by omega)]
    simp [h]
  · rw [if_neg h]
    simp [h]

theorem parseDds_eq (p : Platform) (b : Buf) :
    parseDds p b = if 128 ≤ b.length ∧ of32 .little (slice b 0 4) = 0x20534444#32 then parseIgnoreMagic p b
      else some none := by
  unfold parseDds
  rw [likely_eq]
  by_cases h : 128 ≤ b.length ∧ of32 .little (slice b 0 4) = 0x20534444#32
  · simp [h]
  · rw [if_neg h]
    simp only [h]
    rfl

theorem parseDds_some {p : Platform} {b : Buf} {info : DdsInfo} (h : parseDds p b = some (some info)) :
    parseIgnoreMagic p b = some (some info) ∧ of32 .little (slice b 0 4) = 0x20534444#32 := by
  rw [parseDds_eq] at h
  split at h
  · next hc => exact ⟨h, hc.2⟩
  · simp at h

/-! ## Slices -/

theorem subslice_eq {b : Buf} {a e : Nat} (h1 : a ≤ e) (h2 : e ≤ b.length) :
    subslice b a e = some (slice b a (e - a)) := by
  unfold subslice
  rw [if_pos ⟨h1, h2⟩]

theorem copyFromSlice_eq {dst src : Buf} {a e : Nat} (h1 : a ≤ e) (h2 : e ≤ dst.length) (h3 : src.length = e - a) :
    copyFromSlice dst a e src = some (dst.take a ++ src ++ dst.drop e) := by
  unfold copyFromSlice
  rw [subslice_eq h1 h2]
  simp only [Option.bind_eq_bind, Option.bind_some]
  rw [slice_length_of_le (by omega), if_pos h3.symm]
  unfold st
  rw [if_pos (by omega), show a + src.length = e by omega]

theorem copyFromSlice_none {dst src : Buf} {a e : Nat} (h3 : src.length ≠ e - a) :
    copyFromSlice dst a e src = none := by
  unfold copyFromSlice subslice
  split
  · simp only [Option.bind_eq_bind, Option.bind_some]
    rw [slice_length_of_le (by omega), if_neg (by omega)]
  · rfl

theorem addUsize_eq {p : Platform} {a b : Nat} (h : a + b ≤ p.env.usizeMax) : p.addUsize a b = some (a + b) := by
  unfold Platform.addUsize
  rw [if_neg (by omega), Nat.mod_eq_of_lt (by omega)]

theorem slice_zero_eq_take (b : Buf) (n : Nat) : slice b 0 n = b.take n := by
  unfold slice
  rw [List.drop_zero]

theorem slice_to_end (b : Buf) (n : Nat) : slice b n (b.length - n) = b.drop n := by
  unfold slice
  rw [List.take_of_length_le (by simp)]

/-- The leftover copy: the only part that needs the output to be exactly as long as the input. -/
theorem copyLeftover_eq {input output : Buf} {x : Nat} (h1 : x ≤ input.length) (h2 : input.length ≤ output.length) :
    copyLeftover input output x =
      if x < input.length then
        if output.length = input.length then some (output.take x ++ input.drop x) else none
      else some output := by
  unfold copyLeftover
  by_cases hx : x < input.length
  · rw [if_pos hx, if_pos hx, subslice_eq h1 (by omega)]
    simp only [Option.bind_eq_bind, Option.bind_some]
    rw [slice_to_end]
    by_cases he : output.length = input.length
    · rw [if_pos he, copyFromSlice_eq (by omega) (by omega) (by simp [he]), List.drop_length, List.append_nil]
    · rw [if_neg he, copyFromSlice_none (by simp; omega)]
  · rw [if_neg hx, if_neg hx]

/-! ## The handler -/

/-- The output of a handler function put together: four bytes of magic or header word, the rest of the file header, the
texture data and what follows it. -/
def assemble (magic input tex rest : Buf) (off : Nat) : Buf := magic ++ slice input 4 (off - 4) ++ tex ++ rest

theorem assemble_length {magic input tex rest : Buf} {off : Nat} (hm : magic.length = 4) (h : 4 ≤ off)
    (ho : off ≤ input.length) : (assemble magic input tex rest off).length = off + tex.length + rest.length := by
  unfold assemble
  rw [List.length_append, List.length_append, List.length_append, hm, slice_length_of_le (by omega)]
  omega

/-- `transform_bundle` once the header is parsed and the file is long enough. -/
theorem transform_eq {σ E : Type} (p : Platform) (dbg : E → String) (bundle : Bundle σ E) (input output : Buf) (st : σ)
    {info : DdsInfo} {off len : Nat} (hp : parseDds p input = some (some info)) (hoff : info.dataOffset.toNat = off)
    (hlen : info.dataLength.toNat = len) (h1 : off + len ≤ input.length) (h2 : input.length ≤ output.length)
    (hu : off + len ≤ p.env.usizeMax) :
    transformBundle p dbg bundle input output st =
      match toTransformFormat info.format false with
      | .error e => some (input.take off ++ output.drop off, st, .error e)
      | .ok f =>
        match bundle.dispatchTransform p.env p.m dbg f (slice input off len) (slice output off len) st with
        | none => none
        | some (tex, st', .error e) => some (input.take off ++ tex ++ output.drop (off + len), st', .error e)
        | some (tex, st', .ok h) =>
          if off + len < input.length then
            if output.length = input.length then
              some (assemble (to32 .little h.word) input tex (input.drop (off + len)) off, st', .ok ())
            else none
          else some (assemble (to32 .little h.word) input tex (output.drop (off + len)) off, st', .ok ()) := by
  obtain ⟨o1, o2, o3⟩ := parse_offset_le (parseDds_some hp).1
  rw [hoff] at o1 o2 o3
  have htl : (input.take off).length = off := by simp; omega
  unfold transformBundle
  rw [if_neg (by omega), hp]
  simp only [Option.bind_eq_bind, Option.bind_some, hoff, hlen]
  rw [addUsize_eq hu]
  simp only [Option.bind_some]
  rw [if_neg (by omega), subslice_eq (by omega) (by omega), Option.bind_some,
    copyFromSlice_eq (by omega) (by omega) (by rw [slice_length_of_le (by omega)]), Option.bind_some, Nat.sub_zero,
    slice_zero_eq_take, List.take_zero, List.nil_append]
  cases toTransformFormat info.format false with
  | error e => rfl
  | ok f =>
    simp only []
    rw [subslice_eq (by omega) (by omega), Option.bind_some, subslice_eq (by omega) (by simp; omega), Option.bind_some,
      Nat.add_sub_cancel_left, slice_append_right _ _ _ 0 _ (by rw [htl]; omega)]
    have e0 : slice (output.drop off) 0 len = slice output off len := by unfold slice; rw [List.drop_zero]
    rw [e0]
    obtain ⟨tex, st', r, hd, hd1, _, _⟩ :=
      dispatchTransform_spec p.env p.m dbg bundle f (slice input off len) (slice output off len) st
    rw [slice_length_of_le (by omega)] at hd1
    rw [hd]
    simp only [Option.bind_some]
    have e1 : Dlt.st (input.take off ++ output.drop off) off tex =
        some (input.take off ++ tex ++ output.drop (off + len)) := by
      unfold Dlt.st
      rw [if_pos (by simp [hd1]; omega), List.take_left' htl, hd1, ← List.drop_drop, List.drop_left' htl, List.drop_drop]
    rw [e1]
    simp only [Option.bind_some]
    cases r with
    | error e => rfl
    | ok h =>
      simp only []
      have l1 : (input.take off ++ tex ++ output.drop (off + len)).length = output.length := by
        simp [hd1]; omega
      have l2 : (input.take off ++ tex).length = off + len := by simp [hd1]; omega
      rw [copyLeftover_eq h1 (by omega), l1, List.take_left' l2]
      have hw : ∀ rest : Buf, h.write p.m.endian (input.take off ++ tex ++ rest) 0 =
          some (assemble (to32 .little h.word) input tex rest off) := by
        intro rest
        rw [write_eq]
        unfold Dlt.st
        rw [to32_length, if_pos (by simp; omega), List.take_zero, List.nil_append]
        unfold assemble
        congr 1
        rw [show 0 + 4 = 4 from rfl, List.append_assoc (input.take off), List.drop_append_of_le_length (by omega),
          List.append_assoc, List.append_assoc]
        congr 2
        unfold slice
        rw [List.drop_take]
      by_cases hx : off + len < input.length
      · rw [if_pos hx, if_pos hx]
        by_cases he : output.length = input.length
        · rw [if_pos he, if_pos he, Option.bind_some, hw]
          rfl
        · rw [if_neg he, if_neg he]
          rfl
      · rw [if_neg hx, if_neg hx, Option.bind_some, hw]
        rfl

/-- `dispatch_untransform` never panics and keeps the length of the output slice. -/
theorem dispatchUntransform_spec (m : Machine) (h : TransformHeader) (input output : Buf) :
    ∃ o r, dispatchUntransform m h input output = some (o, r) ∧ o.length = output.length := by
  obtain ⟨h1, h2⟩ := Props.C36_dispatch_obeys_header m h input output
  by_cases hl : output.length < input.length
  · exact ⟨_, _, h1 hl, rfl⟩
  · obtain ⟨h3, h4, h5, h6⟩ := h2 (by omega)
    by_cases ht : 2 ≤ h.word.toNat % 16
    · exact ⟨_, _, h3 ht, rfl⟩
    · by_cases hv : h.word.toNat / 16 % 4 = 0
      · obtain ht | ht : h.word.toNat % 16 = 0 ∨ h.word.toNat % 16 = 1 := by omega
        · obtain ⟨h7, h8⟩ := h5 ht hv
          by_cases ha : input.length % 8 = 0
          · obtain ⟨o, h9, h10⟩ := h8 ha
            obtain ⟨e1, e2⟩ := Bc1.untransform_impl m (Props.wordSettings h.word.toNat) input output ha (by omega)
            dsimp only at e2
            rw [h9] at e2
            refine ⟨o, _, h10, ?_⟩
            rw [Option.some.inj e2, List.length_append, e1]; simp; omega
          · exact ⟨_, _, h7 ha, rfl⟩
        · obtain ⟨h7, h8⟩ := h6 ht hv
          by_cases ha : input.length % 16 = 0
          · obtain ⟨o, h9, h10⟩ := h8 ha
            obtain ⟨e1, e2⟩ := Bc2.untransform_impl m (Props.wordSettings h.word.toNat) input output ha (by omega)
            dsimp only at e2
            rw [h9] at e2
            refine ⟨o, _, h10, ?_⟩
            rw [Option.some.inj e2, List.length_append, e1]; simp; omega
          · exact ⟨_, _, h7 ha, rfl⟩
      · exact ⟨_, _, h4 (by omega) hv, rfl⟩

/-- `untransform` once the header is parsed and the file is long enough. -/
theorem untransform_eq (p : Platform) (input output : Buf)
    {info : DdsInfo} {off len : Nat} (hp : parseIgnoreMagic p input = some (some info))
    (hoff : info.dataOffset.toNat = off) (hlen : info.dataLength.toNat = len) (h1 : off + len ≤ input.length)
    (h2 : input.length ≤ output.length) (hu : off + len ≤ p.env.usizeMax) :
    untransform p input output =
      match dispatchUntransform p.m ⟨of32 .little (slice input 0 4)⟩ (slice input off len) (slice output off len) with
      | none => none
      | some (tex, .error e) =>
        some (assemble (to32 .little 0x20534444#32) input tex (output.drop (off + len)) off, .error e)
      | some (tex, .ok ()) =>
        if off + len < input.length then
          if output.length = input.length then
            some (assemble (to32 .little 0x20534444#32) input tex (input.drop (off + len)) off, .ok ())
          else none
        else some (assemble (to32 .little 0x20534444#32) input tex (output.drop (off + len)) off, .ok ()) := by
  obtain ⟨o1, o2, o3⟩ := parse_offset_le hp
  rw [hoff] at o1 o2 o3
  unfold untransform
  rw [if_neg (by omega), if_neg (by omega), read_eq _ _ _ (by omega)]
  simp only [Option.bind_eq_bind, Option.bind_some]
  rw [hp]
  simp only [Option.bind_some, hoff, hlen]
  rw [addUsize_eq hu]
  simp only [Option.bind_some]
  rw [if_neg (by omega), copyFromSlice_eq (by omega) (by omega) (by rw [to32_length]), Option.bind_some,
    subslice_eq (by omega) (by omega), Option.bind_some, List.take_zero, List.nil_append]
  have l4 : (to32 .little 0x20534444#32).length = 4 := to32_length _ _
  rw [copyFromSlice_eq (by omega) (by simp; omega) (by rw [slice_length_of_le (by omega)]), Option.bind_some,
    List.take_left' l4]
  have ed : (to32 .little 0x20534444#32 ++ output.drop 4).drop off = output.drop off := by
    rw [List.drop_append, l4, List.drop_of_length_le (by omega), List.nil_append, List.drop_drop]
    congr 1; omega
  rw [ed]
  have lh : (to32 .little 0x20534444#32 ++ slice input 4 (off - 4)).length = off := by
    rw [List.length_append, l4, slice_length_of_le (by omega)]; omega
  have lo : (output.drop off).length = output.length - off := by simp
  rw [subslice_eq (by omega) (by omega), Option.bind_some,
    subslice_eq (by omega) (by rw [List.length_append]; omega), Option.bind_some,
    Nat.add_sub_cancel_left, slice_append_right _ _ _ 0 _ (by omega)]
  have e0 : slice (output.drop off) 0 len = slice output off len := by unfold slice; rw [List.drop_zero]
  rw [e0]
  obtain ⟨tex, r, hd, ht⟩ := dispatchUntransform_spec p.m ⟨of32 .little (slice input 0 4)⟩ (slice input off len)
    (slice output off len)
  rw [slice_length_of_le (by omega)] at ht
  rw [hd, Option.bind_some]
  have e1 : Dlt.st (to32 .little 0x20534444#32 ++ slice input 4 (off - 4) ++ output.drop off) off tex =
      some (to32 .little 0x20534444#32 ++ slice input 4 (off - 4) ++ tex ++ output.drop (off + len)) := by
    unfold Dlt.st
    rw [if_pos (by rw [List.length_append]; omega), List.take_left' lh, ht, ← List.drop_drop, List.drop_left' lh,
      List.drop_drop]
  simp only []
  rw [e1]
  cases r with
  | error e => rfl
  | ok u =>
    simp only [Option.bind_some]
    have l1 : (to32 .little 0x20534444#32 ++ slice input 4 (off - 4) ++ tex ++ output.drop (off + len)).length =
        output.length := by
      rw [List.length_append, List.length_append, lh]; simp; omega
    have l2 : (to32 .little 0x20534444#32 ++ slice input 4 (off - 4) ++ tex).length = off + len := by
      rw [List.length_append, lh, ht]
    rw [copyLeftover_eq h1 (by omega), l1, List.take_left' l2]
    by_cases hx : off + len < input.length
    · rw [if_pos hx, if_pos hx]
      by_cases he : output.length = input.length
      · rw [if_pos he, if_pos he]
        rfl
      · rw [if_neg he, if_neg he]
        rfl
    · rw [if_neg hx, if_neg hx]
      rfl

end Dlt.Dds
