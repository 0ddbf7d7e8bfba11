import Verif.Props.Alloc
/-!
# C78: what counts as a fault

The theorems of C78 say that the transforms run without a fault.  Here is what that excludes: a slot that was never filled, and a block that
is not live, or not live any more, is never released.
-/

namespace Dlt.Props
open Alloc

/-- Releasing blocks in turn works exactly if each is live as often as it is released; what is left is the rest. -/
theorem dropArray_iff : ∀ (bs : List Block) (h h' : Heap),
    dropArray bs h = some h' ↔ (∀ b, bs.count b ≤ h.live.count b) ∧ h' = { h with live := bs.foldl List.erase h.live }
  | [], h, h' => by
    simp only [dropArray, Option.some.injEq, List.count_nil, Nat.zero_le, implies_true, List.foldl_nil, true_and]
    exact eq_comm
  | b :: bs, h, h' => by
    simp only [dropArray, drop]
    by_cases hb : b ∈ h.live
    · rw [if_pos hb]
      have ih := dropArray_iff bs { h with live := h.live.erase b } h'
      simp only [Option.bind_eq_bind, Option.bind_some, ih, List.foldl_cons]
      refine and_congr ?_ Iff.rfl
      have h1 : 0 < h.live.count b := List.count_pos_iff.mpr hb
      constructor
      · intro k c
        have := k c
        by_cases hc : b = c
        · subst hc
          rw [List.count_erase_self] at this
          rw [List.count_cons_self]
          omega
        · rw [List.count_erase_of_ne (Ne.symm hc)] at this
          rwa [List.count_cons_of_ne hc]
      · intro k c
        have := k c
        by_cases hc : b = c
        · subst hc
          rw [List.count_erase_self]
          rw [List.count_cons_self] at this
          omega
        · rw [List.count_erase_of_ne (Ne.symm hc)]
          rwa [List.count_cons_of_ne hc] at this
    · rw [if_neg hb]
      simp only [Option.bind_eq_bind, Option.bind_none, reduceCtorEq, false_iff, not_and]
      intro k
      have := k b
      rw [List.count_cons_self, List.count_eq_zero_of_not_mem hb] at this
      omega

/-- **C78** (faults): the clean-up of `FixedRawAllocArray::new` and of its owner works exactly on slots that are all filled, with blocks that
are live as often as they are released. -/
theorem C78_faults (slots : List (Option Block)) (h h' : Heap) :
    dropSlots slots h = some h' ↔
      ∃ bs : List Block, slots = bs.map some ∧ (∀ b, bs.count b ≤ h.live.count b) ∧ h' = { h with live := bs.foldl List.erase h.live } := by
  constructor
  · intro e
    have full : ∀ (slots : List (Option Block)) (h : Heap), dropSlots slots h = some h' → ∃ bs : List Block, slots = bs.map some := by
      intro slots
      induction slots with
      | nil => exact fun _ _ => ⟨[], rfl⟩
      | cons x rest ih =>
        intro h e
        cases x with
        | none => simp [dropSlots] at e
        | some b =>
          simp only [dropSlots] at e
          cases hd : drop b h with
          | none => simp [hd] at e
          | some h1 =>
            simp only [hd, Option.bind_eq_bind, Option.bind_some] at e
            obtain ⟨bs, rfl⟩ := ih h1 e
            exact ⟨b :: bs, rfl⟩
    obtain ⟨bs, rfl⟩ := full slots h e
    rw [dropSlots_some, dropArray_iff] at e
    exact ⟨bs, rfl, e⟩
  · rintro ⟨bs, rfl, e⟩
    rw [dropSlots_some, dropArray_iff]
    exact e

/-- A live block, the same block twice, and an empty slot. -/
example :
    dropSlots [some ⟨0, 64, 10⟩] oneBlock = some ⟨[], 1, 10⟩ ∧ dropSlots [some ⟨0, 64, 10⟩, some ⟨0, 64, 10⟩] oneBlock = none ∧
    dropSlots [none] oneBlock = none := by decide

end Dlt.Props
