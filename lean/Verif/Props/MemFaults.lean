import Verif.Lemmas.Mem
/-!
# C10: what counts as touching memory

C10 says that the transforms run without a fault and leave the rest of the output as it was.  Here is what that excludes: an access
of which any byte lies outside the buffer is a fault, also one of no bytes behind the end.
-/

namespace Dlt.Props

/-- **C10** (loads): a load works exactly if all its bytes lie inside the buffer, and gives these bytes. -/
theorem C10_loads (b : Buf) (off n : Nat) (r : Buf) :
    ld b off n = some r ↔ off + n ≤ b.length ∧ r.length = n ∧ ∀ k, k < n → r[k]? = b[off + k]? := by
  unfold ld
  by_cases h : off + n ≤ b.length
  · rw [if_pos h]
    simp only [Option.some.injEq, h, true_and]
    constructor
    · rintro rfl
      refine ⟨by simp only [slice, List.length_take, List.length_drop]; omega, fun k hk => ?_⟩
      simp only [slice, List.getElem?_take, List.getElem?_drop, if_pos hk]
    · rintro ⟨h1, h2⟩
      apply List.ext_getElem?
      intro k
      simp only [slice, List.getElem?_take, List.getElem?_drop]
      by_cases hk : k < n
      · rw [if_pos hk, h2 k hk]
      · rw [if_neg hk, List.getElem?_eq_none (by omega)]
  · rw [if_neg h]
    simp [h]

/-- **C10** (stores): a store works exactly if all its bytes lie inside the buffer; it changes these and no others. -/
theorem C10_stores (b : Buf) (off : Nat) (bs r : Buf) :
    st b off bs = some r ↔ off + bs.length ≤ b.length ∧ r.length = b.length ∧ (∀ k, k < bs.length → r[off + k]? = bs[k]?) ∧
      ∀ p, p < off ∨ off + bs.length ≤ p → r[p]? = b[p]? := by
  unfold st
  by_cases h : off + bs.length ≤ b.length
  · rw [if_pos h]
    simp only [Option.some.injEq, h, true_and]
    have ht : (b.take off).length = off := by rw [List.length_take]; omega
    have inside : ∀ k, k < bs.length → (b.take off ++ bs ++ b.drop (off + bs.length))[off + k]? = bs[k]? := by
      intro k hk
      rw [List.append_assoc, List.getElem?_append_right (by omega), List.getElem?_append_left (by omega), ht, Nat.add_sub_cancel_left]
    have outside : ∀ p, p < off ∨ off + bs.length ≤ p → (b.take off ++ bs ++ b.drop (off + bs.length))[p]? = b[p]? := by
      rintro p (hp | hp)
      · rw [List.append_assoc, List.getElem?_append_left (by omega), List.getElem?_take, if_pos hp]
      · rw [List.getElem?_append_right (by rw [List.length_append, ht]; omega), List.length_append, ht, List.getElem?_drop]
        congr 1
        omega
    have hl : (b.take off ++ bs ++ b.drop (off + bs.length)).length = b.length := by
      rw [List.length_append, List.length_append, ht, List.length_drop]
      omega
    constructor
    · rintro rfl
      exact ⟨hl, inside, outside⟩
    · rintro ⟨h1, h2, h3⟩
      apply List.ext_getElem?
      intro p
      by_cases hp : p < off ∨ off + bs.length ≤ p
      · rw [outside p hp, h3 p hp]
      · have := inside (p - off) (by omega)
        have h4 := h2 (p - off) (by omega)
        rw [show off + (p - off) = p by omega] at this h4
        rw [this, h4]
  · rw [if_neg h]
    simp [h]

/-- A loop ends in `r` after `k` passes: the condition holds before each pass, each pass runs without a fault, and the condition fails then. -/
inductive LoopEnds {σ : Type} (cond : σ → Bool) (body : σ → Option σ) : Nat → σ → σ → Prop
  | done {s : σ} (h : cond s = false) : LoopEnds cond body 0 s s
  | pass {k : Nat} {s t r : σ} (h : cond s = true) (hb : body s = some t) (hr : LoopEnds cond body k t r) : LoopEnds cond body (k + 1) s r

/-- **C10** (loops): a loop of the model gives a result exactly if it ends without a fault, within its fuel. -/
theorem C10_loops {σ : Type} (cond : σ → Bool) (body : σ → Option σ) :
    ∀ (fuel : Nat) (s r : σ), whileM fuel cond body s = some r ↔ ∃ k, k < fuel ∧ LoopEnds cond body k s r
  | 0, s, r => by simp [whileM]
  | fuel + 1, s, r => by
    rw [whileM]
    by_cases hc : cond s = true
    · rw [if_pos hc]
      constructor
      · intro h
        cases hb : body s with
        | none => simp [hb] at h
        | some t =>
          rw [hb, Option.bind_some, C10_loops cond body fuel t r] at h
          obtain ⟨k, hk, hr⟩ := h
          exact ⟨k + 1, by omega, .pass hc hb hr⟩
      · rintro ⟨k, hk, hr⟩
        cases hr with
        | done h => rw [hc] at h; cases h
        | pass h hb hr =>
          rw [hb, Option.bind_some, C10_loops cond body fuel]
          exact ⟨_, by omega, hr⟩
    · rw [if_neg hc]
      constructor
      · intro h
        cases h
        exact ⟨0, by omega, .done (by simpa using hc)⟩
      · rintro ⟨k, hk, hr⟩
        cases hr with
        | done h => rfl
        | pass h hb hr => exact absurd h hc

/-- A loop that walks over a buffer: it ends, and it faults if the condition lets it go too far. -/
example :
    whileM 9 (fun p : Nat × Buf => decide (p.1 < 4)) (fun p => (st p.2 p.1 [7, 7]).map fun b => (p.1 + 2, b)) (0, [1, 2, 3, 4, 5]) =
      some (4, [7, 7, 7, 7, 5]) ∧
    whileM 9 (fun p : Nat × Buf => decide (p.1 < 5)) (fun p => (st p.2 p.1 [7, 7]).map fun b => (p.1 + 2, b)) (0, [1, 2, 3, 4, 5]) = none := by
  decide

/-- Inside, across the end, and behind it. -/
example :
    ld [1, 2, 3, 4] 1 2 = some [2, 3] ∧ ld [1, 2, 3, 4] 3 2 = none ∧ ld [1, 2, 3, 4] 5 0 = none ∧
    st [1, 2, 3, 4] 1 [7, 8] = some [1, 7, 8, 4] ∧ st [1, 2, 3, 4] 3 [7, 8] = none := by decide

end Dlt.Props
