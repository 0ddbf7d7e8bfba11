import Verif.Model.NormCalls
import Verif.Props.Normalize
/-!
# C108: documented calls of block normalization in debug builds
-/

namespace Dlt.Props

open Dlt.Norm

/-! ## What the documentation allows -/

/-- Two buffers have no byte in common. -/
def NoCommonByte (a b len : Nat) : Prop := ∀ x, ¬ (a ≤ x ∧ x < a + len ∧ b ≤ x ∧ x < b + len)

/-- "They must either be completely separate or identical." -/
def Supported (a b len : Nat) : Prop := a = b ∨ NoCommonByte a b len

theorem noCommonByte_iff {a b len : Nat} (h : len ≠ 0) : NoCommonByte a b len ↔ a + len ≤ b ∨ b + len ≤ a := by
  constructor
  · intro hd
    have h1 := hd a
    have h2 := hd b
    omega
  · intro ho x hx
    omega

theorem assertApart_iff {a b len : Nat} : assertApart a b len = true ↔ Supported a b len := by
  unfold assertApart Supported
  by_cases h : len = 0
  · subst h
    have : NoCommonByte a b 0 := fun x hx => by omega
    simp only [Bool.or_eq_true, beq_iff_eq, decide_eq_true_eq]
    constructor
    · exact fun _ => .inr this
    · intro _; omega
  · rw [noCommonByte_iff h]
    simp [or_assoc]

/-- **C108**, BC1: calls as documented return in a debug build what they return in a release build; calls with buffers that partly
overlap panic. -/
theorem C108_bc1 (inAddr : Nat) (len : Nat) (hl : len % 8 = 0) :
    (∀ outAddr src out mode, (Supported inAddr outAddr len →
        Bc1.normalizeBlocksDebug inAddr outAddr src out len mode = Bc1.normalizeBlocks src out len mode) ∧
      (¬ Supported inAddr outAddr len → Bc1.normalizeBlocksDebug inAddr outAddr src out len mode = none)) ∧
    (∀ outAddrs i outs, outAddrs.length = 3 → ((∀ o ∈ outAddrs, Supported inAddr o len) →
        Bc1.allModesDebug inAddr outAddrs i outs len = Bc1.allModes i outs len) ∧
      ((∃ o ∈ outAddrs, ¬ Supported inAddr o len) → Bc1.allModesDebug inAddr outAddrs i outs len = none)) := by
  refine ⟨fun outAddr src out mode => ⟨fun h => ?_, fun h => ?_⟩, fun outAddrs i outs h3 => ⟨fun h => ?_, fun ⟨o, ho, h⟩ => ?_⟩⟩
  · unfold Bc1.normalizeBlocksDebug
    rw [if_pos (assertApart_iff.mpr h)]
    by_cases hm : mode = .none
    · rw [if_pos hm]
      unfold Bc1.normalizeBlocks
      rw [if_pos hm]
    · rw [if_neg hm, if_pos hl]
  · unfold Bc1.normalizeBlocksDebug
    rw [if_neg fun hc => h (assertApart_iff.mp hc)]
  · unfold Bc1.allModesDebug
    rw [if_pos hl, if_pos h3, if_pos (List.all_eq_true.mpr fun o ho => assertApart_iff.mpr (h o ho))]
  · unfold Bc1.allModesDebug
    rw [if_pos hl, if_pos h3, if_neg fun hc => h (assertApart_iff.mp (List.all_eq_true.mp hc o ho))]

/-- **C108**, BC2. -/
theorem C108_bc2 (inAddr : Nat) (len : Nat) (hl : len % 16 = 0) :
    (∀ outAddr src out mode, (Supported inAddr outAddr len →
        Bc2.normalizeBlocksDebug inAddr outAddr src out len mode = Bc2.normalizeBlocks src out len mode) ∧
      (¬ Supported inAddr outAddr len → Bc2.normalizeBlocksDebug inAddr outAddr src out len mode = none)) ∧
    (∀ outAddrs i outs, outAddrs.length = 3 → ((∀ o ∈ outAddrs, Supported inAddr o len) →
        Bc2.allModesDebug inAddr outAddrs i outs len = Bc2.allModes i outs len) ∧
      ((∃ o ∈ outAddrs, ¬ Supported inAddr o len) → Bc2.allModesDebug inAddr outAddrs i outs len = none)) := by
  refine ⟨fun outAddr src out mode => ⟨fun h => ?_, fun h => ?_⟩, fun outAddrs i outs h3 => ⟨fun h => ?_, fun ⟨o, ho, h⟩ => ?_⟩⟩
  · unfold Bc2.normalizeBlocksDebug
    rw [if_pos hl, if_pos (assertApart_iff.mpr h)]
  · unfold Bc2.normalizeBlocksDebug
    rw [if_pos hl, if_neg fun hc => h (assertApart_iff.mp hc)]
  · unfold Bc2.allModesDebug
    rw [if_pos hl, if_pos h3, if_pos (List.all_eq_true.mpr fun o ho => assertApart_iff.mpr (h o ho))]
  · unfold Bc2.allModesDebug
    rw [if_pos hl, if_pos h3, if_neg fun hc => h (assertApart_iff.mp (List.all_eq_true.mp hc o ho))]

/-- **C108**, BC3, partial: `normalize_blocks` as documented; of `normalize_blocks_all_modes` only the calls where all output buffers are
separate from the input.  The documentation also allows the input to be one of the output buffers, see `C108_bc3_in_place`. -/
theorem C108_bc3_partial (inAddr : Nat) (len : Nat) (hl : len % 16 = 0) :
    (∀ outAddr src out am cm, (Supported inAddr outAddr len →
        Bc3.normalizeBlocksDebug inAddr outAddr src out len am cm = Bc3.normalizeBlocks src out len am cm) ∧
      (¬ Supported inAddr outAddr len → Bc3.normalizeBlocksDebug inAddr outAddr src out len am cm = none)) ∧
    (∀ outAddrs i outs, ((∀ o ∈ outAddrs, NoCommonByte inAddr o len) →
        Bc3.allModesDebug inAddr outAddrs i outs len = Bc3.allModes i outs len) ∧
      ((∃ o ∈ outAddrs, ¬ Supported inAddr o len) → Bc3.allModesDebug inAddr outAddrs i outs len = none)) := by
  refine ⟨fun outAddr src out am cm => ⟨fun h => ?_, fun h => ?_⟩, fun outAddrs i outs => ⟨fun h => ?_, fun ⟨o, ho, h⟩ => ?_⟩⟩
  · unfold Bc3.normalizeBlocksDebug
    rw [if_pos hl, if_pos (assertApart_iff.mpr h)]
  · unfold Bc3.normalizeBlocksDebug
    rw [if_pos hl, if_neg fun hc => h (assertApart_iff.mp hc)]
  · unfold Bc3.allModesDebug
    rw [if_pos hl, if_pos]
    refine List.all_eq_true.mpr fun o ho => ?_
    by_cases h0 : len = 0
    · simp only [Bool.or_eq_true, decide_eq_true_eq]
      omega
    · simpa using (noCommonByte_iff h0).mp (h o ho)
  · unfold Bc3.allModesDebug
    rw [if_pos hl, if_neg]
    intro hc
    have h0 : len ≠ 0 := fun h0 => h (.inr fun x hx => by omega)
    have := List.all_eq_true.mp hc o ho
    exact h (.inr ((noCommonByte_iff h0).mpr (by simpa using this)))

/-- **C108, negation.** BC3: with the input as one of the output buffers, which is documented as supported, `normalize_blocks_all_modes` panics
in every debug build unless there is nothing to do. -/
theorem C108_bc3_in_place (inAddr : Nat) (len : Nat) (h0 : len ≠ 0) (outAddrs : List Nat) (h : inAddr ∈ outAddrs) (i : Input) (outs : List Buf) :
    Bc3.allModesDebug inAddr outAddrs i outs len = none := by
  unfold Bc3.allModesDebug
  by_cases hl : len % 16 = 0
  · rw [if_pos hl, if_neg]
    intro hc
    have := List.all_eq_true.mp hc _ h
    simp at this
    omega
  · rw [if_neg hl]

/-! ## Examples -/

/-- The same call in a release build (it writes all twelve buffers) and in a debug build (it panics). -/
example :
    let block : Buf := [5, 5, 0, 0, 0, 0, 0, 0, 0x1F, 0, 0x1F, 0, 0, 0, 0, 0]
    let outs : List Buf := block :: List.replicate 11 (List.replicate 16 0)
    let addrs := (List.range 12).map fun k => 4096 + 64 * k
    (Bc3.allModes (.output 0) outs 16).isSome = true ∧ Bc3.allModesDebug 4096 addrs (.output 0) outs 16 = none ∧
    (Bc3.allModesDebug 1024 addrs (.separate block) outs 16).isSome = true := by decide +kernel

/-- A supported call, in place; and an overlap of eight bytes. -/
example : Supported 4096 4096 16 ∧ ¬ Supported 4096 4104 16 ∧ Supported 4096 4112 16 := by
  refine ⟨.inl rfl, fun h => ?_, .inr fun x hx => by omega⟩
  rcases h with h | h
  · omega
  · exact h 4104 (by omega)

end Dlt.Props
