import Verif.Props.Dds
/-!
# C59: the DDS handler neither panics nor changes the size of the output
-/

namespace Dlt.Props

open Dlt.FileFormats Dlt.Dds Dlt.Embed

variable {σ E : Type}

theorem assemble_length {magic input tex rest : Buf} {off : Nat} (hm : magic.length = 4) (h4 : 4 ≤ off)
    (ho : off ≤ input.length) : (assemble magic input tex rest off).length = off + tex.length + rest.length := by
  unfold assemble
  rw [List.length_append, List.length_append, assemble_prefix_length hm h4 ho]

/-- The output keeps its size, on every platform. -/
theorem dds_keeps_length {p : Platform} (hu : 2 ^ 32 - 1 ≤ p.env.usizeMax) {dbg : E → String} {bundle : Bundle σ E}
    {input output o : Buf} {st st' : σ} {r : Except TransformError Unit}
    (h : transformBundle p dbg bundle input output st = some (o, st', r)) : o.length = output.length := by
  have h0 := h
  unfold transformBundle at h
  by_cases hl : output.length < input.length
  · rw [if_pos hl] at h
    simp only [Option.some.injEq, Prod.mk.injEq] at h
    rw [← h.1]
  rw [if_neg hl] at h
  cases hp : parseDds p input with
  | none => rw [hp] at h; simp at h
  | some i =>
    cases i with
    | none =>
      rw [hp] at h
      simp only [Option.bind_eq_bind, Option.bind_some, Option.pure_def, Option.some.injEq, Prod.mk.injEq] at h
      rw [← h.1]
    | some info =>
      rw [hp] at h
      simp only [Option.bind_eq_bind, Option.bind_some] at h
      have hle := parse_offset_le (parseDds_some hp).1
      have hoff := ((C33_parse p input).2.2.2.2 info (parseDds_some hp).1).2.2
      rcases addUsize_cases p hu (off := info.dataOffset.toNat) (by omega) info.dataLength.isLt with ⟨ha, hs⟩ | hs | ⟨t, hs, ht⟩
      · rw [hs, Option.bind_some] at h
        by_cases hx : input.length < info.dataOffset.toNat + info.dataLength.toNat
        · rw [if_pos hx] at h
          simp only [Option.pure_def, Option.some.injEq, Prod.mk.injEq] at h
          rw [← h.1]
        · rw [transform_eq p dbg bundle input output st hp rfl rfl (by omega) (by omega) ha] at h0
          cases hf : toTransformFormat info.format false with
          | error e =>
            rw [hf] at h0
            simp only [Option.some.injEq, Prod.mk.injEq] at h0
            rw [← h0.1]
            simp; omega
          | ok f =>
            rw [hf] at h0
            simp only [] at h0
            obtain ⟨tex, s2, r2, hd, hd1, _, _⟩ := dispatchTransform_spec p.env p.m dbg bundle f
              (slice input info.dataOffset.toNat info.dataLength.toNat)
              (slice output info.dataOffset.toNat info.dataLength.toNat) st
            rw [slice_length_of_le (by omega)] at hd1
            rw [hd] at h0
            have h4 : ∀ w : U32, (to32 .little w).length = 4 := fun w => to32_length _ _
            cases r2 with
            | error e =>
              simp only [Option.some.injEq, Prod.mk.injEq] at h0
              rw [← h0.1]
              simp; omega
            | ok w =>
              simp only [] at h0
              split at h0
              · split at h0
                · simp only [Option.some.injEq, Prod.mk.injEq] at h0
                  rw [← h0.1, assemble_length (h4 _) (by omega) (by omega)]
                  simp; omega
                · simp at h0
              · simp only [Option.some.injEq, Prod.mk.injEq] at h0
                rw [← h0.1, assemble_length (h4 _) (by omega) (by omega)]
                simp; omega
      · rw [hs] at h
        simp at h
      · rw [hs, Option.bind_some, if_neg (by omega), subslice_eq (by omega) (by omega), Option.bind_some,
          copyFromSlice_eq (by omega) (by omega) (by rw [slice_length_of_le (by omega)]), Option.bind_some] at h
        cases hf : toTransformFormat info.format false with
        | error e =>
          rw [hf] at h
          simp only [Option.pure_def, Option.some.injEq, Prod.mk.injEq] at h
          rw [← h.1]
          simp [slice]; omega
        | ok f =>
          rw [hf] at h
          simp only [] at h
          have hn : subslice input info.dataOffset.toNat t = none := by
            unfold subslice; rw [if_neg (by omega)]
          rw [Option.bind_some, hn] at h
          simp at h

theorem dds_keeps_length_untransform {p : Platform} (hw : Wide p) {input output o : Buf} {r : Except TransformError Unit}
    (h : untransform p input output = some (o, r)) : o.length = output.length := by
  have h0 := h
  unfold untransform at h
  by_cases h4 : input.length < 4
  · rw [if_pos h4] at h
    simp only [Option.some.injEq, Prod.mk.injEq] at h
    rw [← h.1]
  rw [if_neg h4] at h
  by_cases hl : output.length < input.length
  · rw [if_pos hl] at h
    simp only [Option.some.injEq, Prod.mk.injEq] at h
    rw [← h.1]
  rw [if_neg hl, read_eq _ _ _ (by omega)] at h
  simp only [Option.bind_eq_bind, Option.bind_some] at h
  cases hp : parseIgnoreMagic p input with
  | none => rw [hp] at h; simp at h
  | some i =>
    cases i with
    | none =>
      rw [hp] at h
      simp only [Option.bind_some, Option.pure_def, Option.some.injEq, Prod.mk.injEq] at h
      rw [← h.1]
    | some info =>
      have ha := wide_sum hw hp
      have hoff := ((C33_parse p input).2.2.2.2 info hp).2.2
      have hle := parse_offset_le hp
      by_cases hx : input.length < info.dataOffset.toNat + info.dataLength.toNat
      · rw [((C31_untransform_truncated_partial p hw input output (by omega)).2.2 info hp (by omega))] at h0
        simp only [Option.some.injEq, Prod.mk.injEq] at h0
        rw [← h0.1]
      · rw [untransform_eq p input output hp rfl rfl (by omega) (by omega) ha] at h0
        obtain ⟨tex, r2, hd, hd1⟩ := dispatchUntransform_spec p.m ⟨of32 .little (slice input 0 4)⟩
          (slice input info.dataOffset.toNat info.dataLength.toNat)
          (slice output info.dataOffset.toNat info.dataLength.toNat)
        rw [slice_length_of_le (by omega)] at hd1
        rw [hd] at h0
        have l4 : (to32 .little 0x20534444#32).length = 4 := to32_length _ _
        cases r2 with
        | error e =>
          simp only [Option.some.injEq, Prod.mk.injEq] at h0
          rw [← h0.1, assemble_length l4 (by omega) (by omega)]
          simp; omega
        | ok u =>
          simp only [] at h0
          split at h0
          · split at h0
            · simp only [Option.some.injEq, Prod.mk.injEq] at h0
              rw [← h0.1, assemble_length l4 (by omega) (by omega)]
              simp; omega
            · simp at h0
          · simp only [Option.some.injEq, Prod.mk.injEq] at h0
            rw [← h0.1, assemble_length l4 (by omega) (by omega)]
            simp; omega

/-- **C59.** Release builds with addresses of more than 32 bits, an output slice of the size of the input: for any bytes
whatever as input, any bundle, estimator and extension, both directions return a result (they do not panic) and the
output keeps its size; detection returns an answer. -/
theorem C59_dds_total (p : Platform) (hw : Wide p) (hc : p.overflowChecks = false) (dbg : E → String) (bundle : Bundle σ E)
    (input output : Buf) (st : σ) (hlen : output.length = input.length) :
    (∃ o st' r, transformBundle p dbg bundle input output st = some (o, st', r) ∧ o.length = output.length) ∧
    (∃ o r, untransform p input output = some (o, r) ∧ o.length = output.length) ∧
    (∀ ext, ∃ yes, canHandle p input ext = some yes) ∧ (∀ ext, ∃ yes, canHandleUntransform p input ext = some yes) := by
  have hu : 2 ^ 32 - 1 ≤ p.env.usizeMax := by unfold Wide at hw; omega
  have hpd : ∃ i, parseDds p input = some i := by
    by_cases hd : IsDds input
    · obtain ⟨info, hi⟩ := ((C33_parse p input).2.1 hd).2.1 hc
      exact ⟨_, hi⟩
    · exact ⟨_, (C33_parse p input).1 hd⟩
  have hpi : ∃ i, parseIgnoreMagic p input = some i := by
    have := parseIgnoreMagic_spec p input
    split at this
    · rw [if_neg (by simp [hc])] at this
      exact ⟨_, this⟩
    · exact ⟨_, this⟩
  refine ⟨?_, ?_, fun ext => ?_, fun ext => ?_⟩
  · suffices h : ∃ x, transformBundle p dbg bundle input output st = some x by
      obtain ⟨⟨o, st', r⟩, hx⟩ := h
      exact ⟨o, st', r, hx, dds_keeps_length hu hx⟩
    obtain ⟨i, hp⟩ := hpd
    cases i with
    | none =>
      unfold transformBundle
      rw [if_neg (by omega), hp]
      exact ⟨_, rfl⟩
    | some info =>
      have hsum := wide_sum hw (parseDds_some hp).1
      have hoff := ((C33_parse p input).2.2.2.2 info (parseDds_some hp).1).2.2
      by_cases hx : input.length < headerSize input + info.dataLength.toNat
      · exact ⟨_, (C31_transform_truncated_partial p hw dbg bundle input output st (by omega)).2.1 info hp hx⟩
      · rw [transform_eq p dbg bundle input output st hp rfl rfl (by omega) (by omega) hsum]
        cases toTransformFormat info.format false with
        | error e => exact ⟨_, rfl⟩
        | ok f =>
          simp only []
          obtain ⟨tex, s2, r2, hd, _⟩ := dispatchTransform_spec p.env p.m dbg bundle f
            (slice input info.dataOffset.toNat info.dataLength.toNat)
            (slice output info.dataOffset.toNat info.dataLength.toNat) st
          rw [hd]
          cases r2 with
          | error e => exact ⟨_, rfl⟩
          | ok w =>
            simp only []
            split
            · exact ⟨_, rfl⟩
            · exact ⟨_, rfl⟩
  · suffices h : ∃ x, untransform p input output = some x by
      obtain ⟨⟨o, r⟩, hx⟩ := h
      exact ⟨o, r, hx, dds_keeps_length_untransform hw hx⟩
    obtain ⟨i, hp⟩ := hpi
    by_cases h4 : input.length < 4
    · exact ⟨_, (C31_untransform_truncated_partial p hw input output (by omega)).1 h4⟩
    cases i with
    | none =>
      unfold untransform
      rw [if_neg h4, if_neg (by omega), read_eq _ _ _ (by omega), hp]
      exact ⟨_, rfl⟩
    | some info =>
      have hsum := wide_sum hw hp
      have hoff := ((C33_parse p input).2.2.2.2 info hp).2.2
      by_cases hx : input.length < headerSize input + info.dataLength.toNat
      · exact ⟨_, (C31_untransform_truncated_partial p hw input output (by omega)).2.2 info hp hx⟩
      · rw [untransform_eq p input output hp rfl rfl (by omega) (by omega) hsum]
        obtain ⟨tex, r2, hd, _⟩ := dispatchUntransform_spec p.m ⟨of32 .little (slice input 0 4)⟩
          (slice input info.dataOffset.toNat info.dataLength.toNat)
          (slice output info.dataOffset.toNat info.dataLength.toNat)
        rw [hd]
        cases r2 with
        | error e => exact ⟨_, rfl⟩
        | ok u =>
          simp only []
          split
          · exact ⟨_, rfl⟩
          · exact ⟨_, rfl⟩
  · obtain ⟨i, hp⟩ := hpd
    unfold canHandle
    rw [hp]
    split
    · split <;> exact ⟨_, rfl⟩
    · exact ⟨_, rfl⟩
  · obtain ⟨i, hp⟩ := hpi
    unfold canHandleUntransform
    rw [hp]
    simp only []
    split
    · split
      · exact ⟨_, rfl⟩
      · split <;> exact ⟨_, rfl⟩
    · split <;> exact ⟨_, rfl⟩

/-- Without the hypotheses it is false: overflow checks (`C30_panics`, `C31_truncated_panics`), 32-bit addresses
(`C31_truncated_panics`), a larger output (`C27_larger_buffer_panics`).  With them: a real file goes through. -/
example : Wide somePlatform ∧ somePlatform.overflowChecks = false ∧
    (transformBundle somePlatform (fun _ : Unit => "") (Bundle.defaultAll (σ := Unit)) smallFile
      (List.replicate 137 7) ()).isSome := by
  refine ⟨by unfold Wide; decide, rfl, by decide +kernel⟩

end Dlt.Props
