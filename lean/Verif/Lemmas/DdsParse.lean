import Verif.Lemmas.Dds
/-!
# DDS: what the parser computes
-/

namespace Dlt.Dds

open Dlt.Embed

/-! ## Flags and numbers -/

theorem flag_iff (x : U32) (k : Nat) (hk : k < 32) : x &&& BitVec.ofNat 32 (2 ^ k) ≠ 0 ↔ x.toNat / 2 ^ k % 2 = 1 := by
  have h1 : BitVec.ofNat 32 (2 ^ k) = BitVec.twoPow 32 k := by
    apply BitVec.eq_of_toNat_eq
    simp
  rw [h1, BitVec.and_twoPow, BitVec.getLsbD, Nat.testBit_eq_decide_div_mod_eq]
  by_cases h : x.toNat / 2 ^ k % 2 = 1
  · have : BitVec.twoPow 32 k ≠ 0 := by
      intro h2
      have h3 := congrArg BitVec.toNat h2
      rw [BitVec.toNat_twoPow_of_lt hk] at h3
      have := Nat.two_pow_pos k
      simp at h3
    simpa [h] using this
  · simp [h]

theorem halve_toNat (w : U32) : (halve w).toNat = max (w.toNat / 2) 1 := by
  unfold halve
  have h2 : (w / 2#32).toNat = w.toNat / 2 := by rw [BitVec.toNat_udiv]; rfl
  by_cases h : w / 2#32 = 0
  · rw [if_pos h]
    rw [h] at h2
    have : (0 : U32).toNat = 0 := rfl
    have : (1#32).toNat = 1 := rfl
    omega
  · rw [if_neg h, h2]
    have : w.toNat / 2 ≠ 0 := fun h3 => h (BitVec.eq_of_toNat_eq (by rw [h2, h3]; rfl))
    omega

theorem divCeil4_toNat (w : U32) : (divCeil4 w).toNat = (w.toNat + 3) / 4 := by
  have hw := w.isLt
  unfold divCeil4
  have hm : (w % 4#32).toNat = w.toNat % 4 := by rw [BitVec.toNat_umod]; rfl
  have hd : (w / 4#32).toNat = w.toNat / 4 := by rw [BitVec.toNat_udiv]; rfl
  by_cases h : w % 4#32 = 0
  · rw [if_neg (by simp [h]), hd]
    rw [h] at hm
    have : (0 : U32).toNat = 0 := rfl
    omega
  · rw [if_pos h, BitVec.toNat_add, hd]
    have : w.toNat % 4 ≠ 0 := fun h3 => h (BitVec.eq_of_toNat_eq (by rw [hm, h3]; rfl))
    have : (1#32).toNat = 1 := rfl
    omega

theorem satAdd_toNat (a b : U32) : (satAdd a b).toNat = min (a.toNat + b.toNat) (2 ^ 32 - 1) := by
  have := a.isLt
  have := b.isLt
  unfold satAdd
  by_cases h : 2 ^ 32 ≤ a.toNat + b.toNat
  · rw [if_pos h]
    have : (0xFFFFFFFF#32).toNat = 2 ^ 32 - 1 := rfl
    omega
  · rw [if_neg h, BitVec.toNat_add]
    omega

/-- Two multiplications in a row: they succeed unless overflow is checked and the product is too large. -/
theorem mul_mul (p : Platform) (a b c : U32) (hc : 0 < c.toNat) :
    (p.overflowChecks = true ∧ 2 ^ 32 ≤ a.toNat * b.toNat * c.toNat →
      (p.mul32 a b).bind (fun x => p.mul32 x c) = none) ∧
    (¬ (p.overflowChecks = true ∧ 2 ^ 32 ≤ a.toNat * b.toNat * c.toNat) →
      ∃ y, (p.mul32 a b).bind (fun x => p.mul32 x c) = some y ∧ y.toNat = a.toNat * b.toNat * c.toNat % 2 ^ 32) := by
  unfold Platform.mul32
  by_cases h1 : p.overflowChecks = true ∧ 2 ^ 32 ≤ a.toNat * b.toNat
  · rw [if_pos h1]
    have : a.toNat * b.toNat ≤ a.toNat * b.toNat * c.toNat := Nat.le_mul_of_pos_right _ hc
    exact ⟨fun _ => rfl, fun h => absurd ⟨h1.1, by omega⟩ h⟩
  · rw [if_neg h1, Option.bind_some]
    have hab : p.overflowChecks = true → (a * b).toNat = a.toNat * b.toNat := by
      intro h
      rw [BitVec.toNat_mul, Nat.mod_eq_of_lt]
      exact Nat.lt_of_not_le fun h2 => h1 ⟨h, h2⟩
    refine ⟨fun h => if_pos ⟨h.1, by rw [hab h.1]; exact h.2⟩, fun h => ⟨a * b * c, if_neg ?_, ?_⟩⟩
    · rintro ⟨h2, h3⟩
      rw [hab h2] at h3
      exact h ⟨h2, h3⟩
    · rw [BitVec.toNat_mul, BitVec.toNat_mul, Nat.mod_mul_mod]

/-! ## Mip levels -/

/-- The size of a dimension at mip level `i`. -/
def dim (w i : Nat) : Nat := if i = 0 then w else max (w / 2 ^ i) 1

theorem dim_halve (w i : Nat) : dim (max (w / 2) 1) i = dim w (i + 1) := by
  unfold dim
  rw [if_neg (by omega : i + 1 ≠ 0)]
  by_cases hi : i = 0
  · rw [if_pos hi, hi]
  · rw [if_neg hi, Nat.pow_succ, Nat.mul_comm, ← Nat.div_div_eq_div_mul]
    by_cases h : w / 2 = 0
    · rw [h, Nat.zero_div]
      have : 1 < 2 ^ i := Nat.one_lt_two_pow hi
      rw [show max 0 1 = 1 from rfl, Nat.div_eq_of_lt this]
      rfl
    · rw [Nat.max_eq_left (by omega : 1 ≤ w / 2)]

/-- The sum of `f i` for `i < n`. -/
def total (n : Nat) (f : Nat → Nat) : Nat := ((List.range n).map f).sum

theorem total_zero (f : Nat → Nat) : total 0 f = 0 := rfl

theorem total_succ (n : Nat) (f : Nat → Nat) : total (n + 1) f = f 0 + total n (fun i => f (i + 1)) := by
  unfold total
  rw [List.range_succ_eq_map, List.map_cons, List.sum_cons, List.map_map]
  rfl

theorem total_congr {n : Nat} {f g : Nat → Nat} (h : ∀ i, i < n → f i = g i) : total n f = total n g := by
  unfold total
  congr 1
  apply List.map_congr_left
  intro i hi
  exact h i (List.mem_range.1 hi)

theorem le_total {n : Nat} {f : Nat → Nat} : ∀ {i : Nat}, i < n → f i ≤ total n f := by
  induction n generalizing f with
  | zero => intro i hi; omega
  | succ n ih =>
    intro i hi
    rw [total_succ]
    cases i with
    | zero => omega
    | succ i =>
      have := ih (f := fun i => f (i + 1)) (i := i) (by omega)
      omega

/-- The loop over the levels of a block compressed texture. -/
theorem blockLevels_eq (p : Platform) (bs : U32) (hb : 0 < bs.toNat) : ∀ (n : Nat) (t w h : U32) (f : Nat → Nat),
    (∀ i, f i = (dim w.toNat i + 3) / 4 * ((dim h.toNat i + 3) / 4) * bs.toNat) →
    ((p.overflowChecks = true ∧ ∃ i, i < n ∧ 2 ^ 32 ≤ f i) → blockLevels p bs n t w h = none) ∧
    (¬ (p.overflowChecks = true ∧ ∃ i, i < n ∧ 2 ^ 32 ≤ f i) →
      ∃ r, blockLevels p bs n t w h = some r ∧ r.toNat = min (t.toNat + total n (fun i => f i % 2 ^ 32)) (2 ^ 32 - 1))
  | 0, t, w, h, f, hf => by
    have := t.isLt
    exact ⟨fun ⟨_, i, hi, _⟩ => by omega, fun _ => ⟨t, rfl, by rw [total_zero]; omega⟩⟩
  | n + 1, t, w, h, f, hf => by
    have hbind : blockLevels p bs (n + 1) t w h =
        ((p.mul32 (divCeil4 w) (divCeil4 h)).bind fun x => p.mul32 x bs).bind
          fun level => blockLevels p bs n (satAdd t level) (halve w) (halve h) := by
      rw [blockLevels, Option.bind_assoc]
      rfl
    have hm := mul_mul p (divCeil4 w) (divCeil4 h) bs hb
    rw [divCeil4_toNat, divCeil4_toNat] at hm
    have hf0 : f 0 = (w.toNat + 3) / 4 * ((h.toNat + 3) / 4) * bs.toNat := hf 0
    rw [← hf0] at hm
    have hf' : ∀ i, f (i + 1) = (dim (halve w).toNat i + 3) / 4 * ((dim (halve h).toNat i + 3) / 4) * bs.toNat := by
      intro i
      rw [hf, halve_toNat, halve_toNat, dim_halve, dim_halve]
    rw [hbind]
    by_cases h0 : p.overflowChecks = true ∧ 2 ^ 32 ≤ f 0
    · rw [hm.1 h0]
      exact ⟨fun _ => rfl, fun h => absurd ⟨h0.1, 0, by omega, h0.2⟩ h⟩
    · obtain ⟨y, hy1, hy2⟩ := hm.2 h0
      rw [hy1, Option.bind_some]
      obtain ⟨ih1, ih2⟩ := blockLevels_eq p bs hb n (satAdd t y) (halve w) (halve h) (fun i => f (i + 1)) hf'
      refine ⟨fun ⟨hc, i, hi, hl⟩ => ih1 ⟨hc, ?_⟩, fun hn => ?_⟩
      · cases i with
        | zero => exact absurd ⟨hc, hl⟩ h0
        | succ i => exact ⟨i, by omega, hl⟩
      · obtain ⟨r, hr1, hr2⟩ := ih2 (fun ⟨hc, i, hi, hl⟩ => hn ⟨hc, i + 1, by omega, hl⟩)
        refine ⟨r, hr1, ?_⟩
        rw [hr2, satAdd_toNat, hy2, total_succ]
        omega

/-- The loop over the levels of an uncompressed texture. -/
theorem pixelLevels_eq (p : Platform) (bpp : U32) (hb : 0 < bpp.toNat) : ∀ (n : Nat) (t w h : U32) (f : Nat → Nat),
    (∀ i, f i = dim w.toNat i * dim h.toNat i * bpp.toNat) →
    ((p.overflowChecks = true ∧ ∃ i, i < n ∧ 2 ^ 32 ≤ f i) → pixelLevels p bpp n t w h = none) ∧
    (¬ (p.overflowChecks = true ∧ ∃ i, i < n ∧ 2 ^ 32 ≤ f i) →
      ∃ r, pixelLevels p bpp n t w h = some r ∧ r.toNat = min (t.toNat + total n (fun i => f i % 2 ^ 32)) (2 ^ 32 - 1))
  | 0, t, w, h, f, hf => by
    have := t.isLt
    exact ⟨fun ⟨_, i, hi, _⟩ => by omega, fun _ => ⟨t, rfl, by rw [total_zero]; omega⟩⟩
  | n + 1, t, w, h, f, hf => by
    have hbind : pixelLevels p bpp (n + 1) t w h =
        ((p.mul32 w h).bind fun x => p.mul32 x bpp).bind
          fun level => pixelLevels p bpp n (satAdd t level) (halve w) (halve h) := by
      rw [pixelLevels, Option.bind_assoc]
      rfl
    have hm := mul_mul p w h bpp hb
    have hf0 : f 0 = w.toNat * h.toNat * bpp.toNat := hf 0
    rw [← hf0] at hm
    have hf' : ∀ i, f (i + 1) = dim (halve w).toNat i * dim (halve h).toNat i * bpp.toNat := by
      intro i
      rw [hf, halve_toNat, halve_toNat, dim_halve, dim_halve]
    rw [hbind]
    by_cases h0 : p.overflowChecks = true ∧ 2 ^ 32 ≤ f 0
    · rw [hm.1 h0]
      exact ⟨fun _ => rfl, fun h => absurd ⟨h0.1, 0, by omega, h0.2⟩ h⟩
    · obtain ⟨y, hy1, hy2⟩ := hm.2 h0
      rw [hy1, Option.bind_some]
      obtain ⟨ih1, ih2⟩ := pixelLevels_eq p bpp hb n (satAdd t y) (halve w) (halve h) (fun i => f (i + 1)) hf'
      refine ⟨fun ⟨hc, i, hi, hl⟩ => ih1 ⟨hc, ?_⟩, fun hn => ?_⟩
      · cases i with
        | zero => exact absurd ⟨hc, hl⟩ h0
        | succ i => exact ⟨i, by omega, hl⟩
      · obtain ⟨r, hr1, hr2⟩ := ih2 (fun ⟨hc, i, hi, hl⟩ => hn ⟨hc, i + 1, by omega, hl⟩)
        refine ⟨r, hr1, ?_⟩
        rw [hr2, satAdd_toNat, hy2, total_succ]
        omega

end Dlt.Dds
