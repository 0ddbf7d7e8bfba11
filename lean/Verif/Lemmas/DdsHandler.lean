import Verif.Props.DdsParse
/-!
# DDS handler: successful calls
-/

namespace Dlt.Dds

open Dlt.Embed Dlt.FileFormats Dlt.Props

/-! ## Parts of the assembled output -/

theorem assemble_magic {magic input tex rest : Buf} {off : Nat} (hm : magic.length = 4) :
    slice (assemble magic input tex rest off) 0 4 = magic := by
  unfold assemble slice
  rw [List.drop_zero, List.append_assoc, List.append_assoc, List.take_left' hm]

theorem assemble_header {magic input tex rest : Buf} {off : Nat} (hm : magic.length = 4) (ho : off ≤ input.length) :
    slice (assemble magic input tex rest off) 4 (off - 4) = slice input 4 (off - 4) := by
  unfold assemble
  have hl : (slice input 4 (off - 4)).length = off - 4 ∨ off < 4 := by
    by_cases h : 4 ≤ off
    · exact .inl (slice_length_of_le (by omega))
    · exact .inr (by omega)
  rw [List.append_assoc, List.append_assoc, slice_append_right _ _ _ 0 _ (by omega)]
  rcases hl with hl | hl
  · unfold slice at hl ⊢
    rw [List.drop_zero, List.take_left' hl]
  · rw [show off - 4 = 0 by omega]
    unfold slice
    simp

theorem assemble_prefix_length {magic input : Buf} {off : Nat} (hm : magic.length = 4) (h4 : 4 ≤ off)
    (ho : off ≤ input.length) : (magic ++ slice input 4 (off - 4)).length = off := by
  rw [List.length_append, hm, slice_length_of_le (by omega)]
  omega

theorem assemble_tex {magic input tex rest : Buf} {off : Nat} (hm : magic.length = 4) (h4 : 4 ≤ off)
    (ho : off ≤ input.length) : slice (assemble magic input tex rest off) off tex.length = tex := by
  unfold assemble
  rw [List.append_assoc _ tex, slice, List.drop_left' (assemble_prefix_length hm h4 ho), List.take_left' rfl]

theorem assemble_rest {magic input tex rest : Buf} {off : Nat} (hm : magic.length = 4) (h4 : 4 ≤ off)
    (ho : off ≤ input.length) : (assemble magic input tex rest off).drop (off + tex.length) = rest := by
  unfold assemble
  exact List.drop_left' (by rw [List.length_append, assemble_prefix_length hm h4 ho])

/-- A file is put together from its parts. -/
theorem assemble_self {input : Buf} {off len : Nat} (h4 : 4 ≤ off) :
    assemble (slice input 0 4) input (slice input off len) (input.drop (off + len)) off = input := by
  unfold assemble slice
  have e1 : (input.drop 0).take 4 ++ (input.drop 4).take (off - 4) = input.take off := by
    rw [List.drop_zero, ← List.take_add, show 4 + (off - 4) = off by omega]
  rw [e1, ← List.take_add, List.take_append_drop]

/-! ## Addresses -/

/-- `data_offset + data_length` is computed exactly, or the call panics, or the result is less than the offset. -/
theorem addUsize_cases (p : Platform) (hu : 2 ^ 32 - 1 ≤ p.env.usizeMax) {off len : Nat} (ho : off < 2 ^ 32)
    (hl : len < 2 ^ 32) :
    (off + len ≤ p.env.usizeMax ∧ p.addUsize off len = some (off + len)) ∨ p.addUsize off len = none ∨
    ∃ t, p.addUsize off len = some t ∧ t < off := by
  by_cases h : off + len ≤ p.env.usizeMax
  · exact .inl ⟨h, addUsize_eq h⟩
  · right
    unfold Platform.addUsize
    by_cases hc : p.overflowChecks = true
    · exact .inl (if_pos ⟨hc, by omega⟩)
    · refine .inr ⟨_, if_neg (fun h => hc h.1), ?_⟩
      rw [Nat.mod_eq_sub_mod (by omega), Nat.mod_eq_of_lt (by omega)]
      omega

/-- The sum does not overflow on a platform whose addresses have more than 32 bits. -/
def Wide (p : Platform) : Prop := 2 ^ 32 + 147 ≤ p.env.usizeMax

theorem wide_sum {p : Platform} (hw : Wide p) {b : Buf} {info : DdsInfo}
    (h : parseIgnoreMagic p b = some (some info)) :
    info.dataOffset.toNat + info.dataLength.toNat ≤ p.env.usizeMax := by
  have := parse_offset_le h
  have := info.dataLength.isLt
  unfold Wide at hw
  omega

/-! ## Successful calls -/

theorem transform_ok {σ E : Type} {p : Platform} (hu : 2 ^ 32 - 1 ≤ p.env.usizeMax) {dbg : E → String}
    {bundle : Bundle σ E} {input output o : Buf} {st st' : σ}
    (h : transformBundle p dbg bundle input output st = some (o, st', .ok ())) :
    ∃ info f tex w, parseDds p input = some (some info) ∧
      info.dataOffset.toNat + info.dataLength.toNat ≤ input.length ∧
      info.dataOffset.toNat + info.dataLength.toNat ≤ p.env.usizeMax ∧
      input.length ≤ output.length ∧
      toTransformFormat info.format false = .ok f ∧
      bundle.dispatchTransform p.env p.m dbg f (slice input info.dataOffset.toNat info.dataLength.toNat)
        (slice output info.dataOffset.toNat info.dataLength.toNat) st = some (tex, st', .ok w) ∧
      tex.length = info.dataLength.toNat ∧
      (info.dataOffset.toNat + info.dataLength.toNat < input.length → output.length = input.length) ∧
      o = assemble (to32 .little w.word) input tex
        (if info.dataOffset.toNat + info.dataLength.toNat < input.length then
          input.drop (info.dataOffset.toNat + info.dataLength.toNat)
        else output.drop (info.dataOffset.toNat + info.dataLength.toNat)) info.dataOffset.toNat := by
  have h0 := h
  unfold transformBundle at h
  by_cases hl : output.length < input.length
  · rw [if_pos hl] at h
    simp at h
  rw [if_neg hl] at h
  cases hp : parseDds p input with
  | none => rw [hp] at h; simp at h
  | some i =>
    cases i with
    | none => rw [hp] at h; simp at h
    | some info =>
      rw [hp] at h
      simp only [Option.bind_eq_bind, Option.bind_some] at h
      have hle := parse_offset_le (parseDds_some hp).1
      rcases addUsize_cases p hu (off := info.dataOffset.toNat) (by omega) info.dataLength.isLt with ⟨ha, hs⟩ | hs | ⟨t, hs, ht⟩
      · have hin : info.dataOffset.toNat + info.dataLength.toNat ≤ input.length := by
          rw [hs, Option.bind_some] at h
          by_cases hx : input.length < info.dataOffset.toNat + info.dataLength.toNat
          · rw [if_pos hx] at h
            simp at h
          · omega
        rw [transform_eq p dbg bundle input output st hp rfl rfl hin (by omega) ha] at h0
        cases hf : toTransformFormat info.format false with
        | error e => rw [hf] at h0; simp at h0
        | ok f =>
          rw [hf] at h0
          simp only [] at h0
          obtain ⟨tex, s2, r, hd, hd1, _, _⟩ := dispatchTransform_spec p.env p.m dbg bundle f
            (slice input info.dataOffset.toNat info.dataLength.toNat)
            (slice output info.dataOffset.toNat info.dataLength.toNat) st
          rw [slice_length_of_le (by omega)] at hd1
          rw [hd] at h0
          cases r with
          | error e => simp at h0
          | ok w =>
            simp only [] at h0
            by_cases hx : info.dataOffset.toNat + info.dataLength.toNat < input.length
            · rw [if_pos hx] at h0
              by_cases he : output.length = input.length
              · rw [if_pos he] at h0
                simp only [Option.some.injEq, Prod.mk.injEq, and_true] at h0
                obtain ⟨h1, rfl⟩ := h0
                exact ⟨info, f, tex, w, rfl, hin, ha, by omega, hf, hd, hd1, fun _ => he, by rw [if_pos hx, h1]⟩
              · rw [if_neg he] at h0
                simp at h0
            · rw [if_neg hx] at h0
              simp only [Option.some.injEq, Prod.mk.injEq, and_true] at h0
              obtain ⟨h1, rfl⟩ := h0
              exact ⟨info, f, tex, w, rfl, hin, ha, by omega, hf, hd, hd1, fun h => absurd h hx, by rw [if_neg hx, h1]⟩
      · rw [hs] at h
        simp at h
      · exfalso
        rw [hs, Option.bind_some, if_neg (by omega), subslice_eq (by omega) (by omega), Option.bind_some,
          copyFromSlice_eq (by omega) (by omega) (by rw [slice_length_of_le (by omega)]), Option.bind_some] at h
        cases hf : toTransformFormat info.format false with
        | error e => rw [hf] at h; simp at h
        | ok f =>
          rw [hf] at h
          simp only [] at h
          have hn : subslice input info.dataOffset.toNat t = none := by
            unfold subslice; rw [if_neg (by omega)]
          rw [Option.bind_some, hn] at h
          simp at h

theorem untransform_ok {p : Platform} (hu : 2 ^ 32 - 1 ≤ p.env.usizeMax) {input output o : Buf}
    (h : untransform p input output = some (o, .ok ())) :
    ∃ info, parseIgnoreMagic p input = some (some info) ∧
      info.dataOffset.toNat + info.dataLength.toNat ≤ input.length ∧
      info.dataOffset.toNat + info.dataLength.toNat ≤ p.env.usizeMax ∧
      input.length ≤ output.length ∧
      ∃ tex, dispatchUntransform p.m ⟨of32 .little (slice input 0 4)⟩
        (slice input info.dataOffset.toNat info.dataLength.toNat)
        (slice output info.dataOffset.toNat info.dataLength.toNat) = some (tex, .ok ()) := by
  have h0 := h
  unfold untransform at h
  by_cases h4 : input.length < 4
  · rw [if_pos h4] at h
    simp at h
  rw [if_neg h4] at h
  by_cases hl : output.length < input.length
  · rw [if_pos hl] at h
    simp at h
  rw [if_neg hl, read_eq _ _ _ (by omega)] at h
  simp only [Option.bind_eq_bind, Option.bind_some] at h
  cases hp : parseIgnoreMagic p input with
  | none => rw [hp] at h; simp at h
  | some i =>
    cases i with
    | none => rw [hp] at h; simp at h
    | some info =>
      rw [hp] at h
      simp only [Option.bind_some] at h
      have hle := parse_offset_le hp
      rcases addUsize_cases p hu (off := info.dataOffset.toNat) (by omega) info.dataLength.isLt with ⟨ha, hs⟩ | hs | ⟨t, hs, ht⟩
      · have hin : info.dataOffset.toNat + info.dataLength.toNat ≤ input.length := by
          rw [hs, Option.bind_some] at h
          by_cases hx : input.length < info.dataOffset.toNat + info.dataLength.toNat
          · rw [if_pos hx] at h
            simp at h
          · omega
        refine ⟨info, rfl, hin, ha, by omega, ?_⟩
        rw [untransform_eq p input output hp rfl rfl hin (by omega) ha] at h0
        obtain ⟨tex, r, hd, _⟩ := dispatchUntransform_spec p.m ⟨of32 .little (slice input 0 4)⟩
          (slice input info.dataOffset.toNat info.dataLength.toNat)
          (slice output info.dataOffset.toNat info.dataLength.toNat)
        rw [hd] at h0
        cases r with
        | error e => simp at h0
        | ok u => exact ⟨tex, hd⟩
      · rw [hs] at h
        simp at h
      · exfalso
        have l4 : (to32 .little 0x20534444#32).length = 4 := to32_length _ _
        have hn : subslice input info.dataOffset.toNat t = none := by
          unfold subslice; rw [if_neg (by omega)]
        rw [hs, Option.bind_some, if_neg (by omega), copyFromSlice_eq (by omega) (by omega) (by rw [to32_length]),
          Option.bind_some, subslice_eq (by omega) (by omega), Option.bind_some,
          copyFromSlice_eq (by omega) (by simp; omega) (by rw [slice_length_of_le (by omega)]), Option.bind_some,
          Option.bind_some, hn] at h
        simp at h

/-- Platforms differ in parsing only by panicking. -/
theorem parse_platform {p p' : Platform} (hc : p'.overflowChecks = true → p.overflowChecks = true) {b : Buf}
    {info : DdsInfo} (h : parseIgnoreMagic p b = some (some info)) : parseIgnoreMagic p' b = some (some info) := by
  rw [parseIgnoreMagic_spec] at h ⊢
  split at h
  · next h1 =>
    rw [if_pos h1]
    split at h
    · simp at h
    · next h2 => rw [if_neg (fun h3 => h2 ⟨hc h3.1, h3.2⟩), h]
  · simp at h

end Dlt.Dds
