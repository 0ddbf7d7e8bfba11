import Verif.Props.Auto
/-!
# C16: validation in the safe slice functions
-/

namespace Dlt.Props

/-! ## BC1 -/

/-- **C16** (BC1, `transform`): it never panics; a length that is no multiple of 8 is reported first, then a short
output, with the output untouched; otherwise it succeeds with the result of the core function, and only then. -/
theorem C16_bc1_transform_validation (m : Machine) (input output : Buf) (s : ColourSettings) :
    (input.length % 8 ≠ 0 →
      Bc1.transformSafe m input output s = some (output, .error (.invalidLength input.length))) ∧
    (input.length % 8 = 0 → output.length < input.length →
      Bc1.transformSafe m input output s =
        some (output, .error (.outputBufferTooSmall input.length output.length))) ∧
    (input.length % 8 = 0 → input.length ≤ output.length → ∃ out',
      Bc1.transformWithSettings m input output input.length s = some out' ∧
      Bc1.transformSafe m input output s = some (out', .ok ()) ∧
      out'.length = output.length ∧ out'.drop input.length = output.drop input.length) := by
  refine ⟨fun h => ?_, fun h h2 => ?_, fun h h2 => ?_⟩
  · unfold Bc1.transformSafe; rw [if_pos h]
  · unfold Bc1.transformSafe; rw [if_neg (by simp [h]), if_pos h2]
  · obtain ⟨hl, hr⟩ := Bc1.transform_impl m s input output h h2
    refine ⟨_, hr, ?_, by simp [hl]; omega, by rw [List.drop_left' hl]⟩
    unfold Bc1.transformSafe
    rw [if_neg (by simp [h]), if_neg (by omega)]
    simp only [hr]
    rfl

/-- **C16** (BC1, `untransform`): it never panics; a length that is no multiple of 8 is reported first, then a short
output, with the output untouched; otherwise it succeeds with the result of the core function, and only then. -/
theorem C16_bc1_untransform_validation (m : Machine) (input output : Buf) (s : ColourSettings) :
    (input.length % 8 ≠ 0 →
      Bc1.untransformSafe m input output s = some (output, .error (.invalidLength input.length))) ∧
    (input.length % 8 = 0 → output.length < input.length →
      Bc1.untransformSafe m input output s =
        some (output, .error (.outputBufferTooSmall input.length output.length))) ∧
    (input.length % 8 = 0 → input.length ≤ output.length → ∃ out',
      Bc1.untransformWithSettings m input output input.length s = some out' ∧
      Bc1.untransformSafe m input output s = some (out', .ok ()) ∧
      out'.length = output.length ∧ out'.drop input.length = output.drop input.length) := by
  refine ⟨fun h => ?_, fun h h2 => ?_, fun h h2 => ?_⟩
  · unfold Bc1.untransformSafe; rw [if_pos h]
  · unfold Bc1.untransformSafe; rw [if_neg (by simp [h]), if_pos h2]
  · obtain ⟨hl, hr⟩ := Bc1.untransform_impl m s input output h h2
    refine ⟨_, hr, ?_, by simp [hl]; omega, by rw [List.drop_left' hl]⟩
    unfold Bc1.untransformSafe
    rw [if_neg (by simp [h]), if_neg (by omega)]
    simp only [hr]
    rfl

/-- **C16** (BC1, automatic): the same checks in the same order, and no panic whatever the estimator does. -/
theorem C16_bc1_auto_validation {σ E : Type} (env : Env) (m : Machine) (est : Estimator σ E) (useAll : Bool)
    (input output : Buf) (st : σ) :
    (input.length % 8 ≠ 0 → Bc1.transformAutoSafe env m est useAll input output st =
      some (output, st, .error (.invalidLength input.length))) ∧
    (input.length % 8 = 0 → output.length < input.length →
      Bc1.transformAutoSafe env m est useAll input output st =
        some (output, st, .error (.outputBufferTooSmall input.length output.length))) ∧
    (input.length % 8 = 0 → input.length ≤ output.length → ∃ out' st' r,
      Bc1.transformAutoSafe env m est useAll input output st = some (out', st', r) ∧
      out'.length = output.length ∧ out'.drop input.length = output.drop input.length ∧
      (∀ n, r ≠ .error (.invalidLength n)) ∧ (∀ n k, r ≠ .error (.outputBufferTooSmall n k)) ∧
      ∀ s, r = .ok s → Bc1.transformSafe m input output s = some (out', .ok ()) ∧
        ∀ m' : Machine, m'.endian = m.endian → ∀ buf : Buf, input.length ≤ buf.length →
          ∃ u, Bc1.untransformSafe m' (out'.take input.length) buf s = some (u, .ok ()) ∧
            u.take input.length = input) := by
  refine ⟨fun h => ?_, fun h h2 => ?_, fun h h2 => ?_⟩
  · unfold Bc1.transformAutoSafe; rw [if_pos h]
  · unfold Bc1.transformAutoSafe; rw [if_neg (by simp [h]), if_pos h2]
  · obtain ⟨out', st', r, h1, h3, h4, h5⟩ := C17_bc1_auto_reports_used env m est useAll input output st h h2
    refine ⟨out', st', r.mapError .determineBest, ?_, h3, h4, ?_, ?_, ?_⟩
    · unfold Bc1.transformAutoSafe
      rw [if_neg (by simp [h]), if_neg (by omega), h1]
      rfl
    · intro n; cases r <;> simp [Except.mapError]
    · intro n k; cases r <;> simp [Except.mapError]
    · intro s hs
      have hs' : r = .ok s := by cases r <;> simp_all [Except.mapError]
      obtain ⟨h6, h7⟩ := h5 s hs'
      obtain ⟨o, h8, h9, _⟩ := (C16_bc1_transform_validation m input output s).2.2 h h2
      rw [h6, Option.some.injEq] at h8
      subst h8
      refine ⟨h9, fun m' hm buf hb => ?_⟩
      obtain ⟨u, h10, h11⟩ := h7 m' hm buf hb
      have hl : (out'.take input.length).length = input.length := by simp; omega
      obtain ⟨o2, h12, h13, _⟩ := (C16_bc1_untransform_validation m' (out'.take input.length) buf s).2.2
        (by rw [hl]; exact h) (by omega)
      rw [hl, h10, Option.some.injEq] at h12
      subst h12
      exact ⟨u, h13, h11⟩

/-! ## BC2 -/

/-- **C16** (BC2, `transform`): it never panics; a length that is no multiple of 16 is reported first, then a short
output, with the output untouched; otherwise it succeeds with the result of the core function, and only then. -/
theorem C16_bc2_transform_validation (m : Machine) (input output : Buf) (s : ColourSettings) :
    (input.length % 16 ≠ 0 →
      Bc2.transformSafe m input output s = some (output, .error (.invalidLength input.length))) ∧
    (input.length % 16 = 0 → output.length < input.length →
      Bc2.transformSafe m input output s =
        some (output, .error (.outputBufferTooSmall input.length output.length))) ∧
    (input.length % 16 = 0 → input.length ≤ output.length → ∃ out',
      Bc2.transformWithSettings m input output input.length s = some out' ∧
      Bc2.transformSafe m input output s = some (out', .ok ()) ∧
      out'.length = output.length ∧ out'.drop input.length = output.drop input.length) := by
  refine ⟨fun h => ?_, fun h h2 => ?_, fun h h2 => ?_⟩
  · unfold Bc2.transformSafe; rw [if_pos h]
  · unfold Bc2.transformSafe; rw [if_neg (by simp [h]), if_pos h2]
  · obtain ⟨hl, hr⟩ := Bc2.transform_impl m s input output h h2
    refine ⟨_, hr, ?_, by simp [hl]; omega, by rw [List.drop_left' hl]⟩
    unfold Bc2.transformSafe
    rw [if_neg (by simp [h]), if_neg (by omega)]
    simp only [hr]
    rfl

/-- **C16** (BC2, `untransform`): it never panics; a length that is no multiple of 16 is reported first, then a short
output, with the output untouched; otherwise it succeeds with the result of the core function, and only then. -/
theorem C16_bc2_untransform_validation (m : Machine) (input output : Buf) (s : ColourSettings) :
    (input.length % 16 ≠ 0 →
      Bc2.untransformSafe m input output s = some (output, .error (.invalidLength input.length))) ∧
    (input.length % 16 = 0 → output.length < input.length →
      Bc2.untransformSafe m input output s =
        some (output, .error (.outputBufferTooSmall input.length output.length))) ∧
    (input.length % 16 = 0 → input.length ≤ output.length → ∃ out',
      Bc2.untransformWithSettings m input output input.length s = some out' ∧
      Bc2.untransformSafe m input output s = some (out', .ok ()) ∧
      out'.length = output.length ∧ out'.drop input.length = output.drop input.length) := by
  refine ⟨fun h => ?_, fun h h2 => ?_, fun h h2 => ?_⟩
  · unfold Bc2.untransformSafe; rw [if_pos h]
  · unfold Bc2.untransformSafe; rw [if_neg (by simp [h]), if_pos h2]
  · obtain ⟨hl, hr⟩ := Bc2.untransform_impl m s input output h h2
    refine ⟨_, hr, ?_, by simp [hl]; omega, by rw [List.drop_left' hl]⟩
    unfold Bc2.untransformSafe
    rw [if_neg (by simp [h]), if_neg (by omega)]
    simp only [hr]
    rfl

/-- **C16** (BC2, automatic): the same checks in the same order, and no panic whatever the estimator does. -/
theorem C16_bc2_auto_validation {σ E : Type} (env : Env) (m : Machine) (est : Estimator σ E) (useAll : Bool)
    (input output : Buf) (st : σ) :
    (input.length % 16 ≠ 0 → Bc2.transformAutoSafe env m est useAll input output st =
      some (output, st, .error (.invalidLength input.length))) ∧
    (input.length % 16 = 0 → output.length < input.length →
      Bc2.transformAutoSafe env m est useAll input output st =
        some (output, st, .error (.outputBufferTooSmall input.length output.length))) ∧
    (input.length % 16 = 0 → input.length ≤ output.length → ∃ out' st' r,
      Bc2.transformAutoSafe env m est useAll input output st = some (out', st', r) ∧
      out'.length = output.length ∧ out'.drop input.length = output.drop input.length ∧
      (∀ n, r ≠ .error (.invalidLength n)) ∧ (∀ n k, r ≠ .error (.outputBufferTooSmall n k)) ∧
      ∀ s, r = .ok s → Bc2.transformSafe m input output s = some (out', .ok ()) ∧
        ∀ m' : Machine, m'.endian = m.endian → ∀ buf : Buf, input.length ≤ buf.length →
          ∃ u, Bc2.untransformSafe m' (out'.take input.length) buf s = some (u, .ok ()) ∧
            u.take input.length = input) := by
  refine ⟨fun h => ?_, fun h h2 => ?_, fun h h2 => ?_⟩
  · unfold Bc2.transformAutoSafe; rw [if_pos h]
  · unfold Bc2.transformAutoSafe; rw [if_neg (by simp [h]), if_pos h2]
  · obtain ⟨out', st', r, h1, h3, h4, h5⟩ := C18_bc2_auto_reports_used env m est useAll input output st h h2
    refine ⟨out', st', r.mapError .determineBest, ?_, h3, h4, ?_, ?_, ?_⟩
    · unfold Bc2.transformAutoSafe
      rw [if_neg (by simp [h]), if_neg (by omega), h1]
      rfl
    · intro n; cases r <;> simp [Except.mapError]
    · intro n k; cases r <;> simp [Except.mapError]
    · intro s hs
      have hs' : r = .ok s := by cases r <;> simp_all [Except.mapError]
      obtain ⟨h6, h7⟩ := h5 s hs'
      obtain ⟨o, h8, h9, _⟩ := (C16_bc2_transform_validation m input output s).2.2 h h2
      rw [h6, Option.some.injEq] at h8
      subst h8
      refine ⟨h9, fun m' hm buf hb => ?_⟩
      obtain ⟨u, h10, h11⟩ := h7 m' hm buf hb
      have hl : (out'.take input.length).length = input.length := by simp; omega
      obtain ⟨o2, h12, h13, _⟩ := (C16_bc2_untransform_validation m' (out'.take input.length) buf s).2.2
        (by rw [hl]; exact h) (by omega)
      rw [hl, h10, Option.some.injEq] at h12
      subst h12
      exact ⟨u, h13, h11⟩

/-! ## BC3 -/

/-- **C16** (BC3, `transform`): it never panics; a length that is no multiple of 16 is reported first, then a short
output, with the output untouched; otherwise it succeeds with the result of the core function, and only then. -/
theorem C16_bc3_transform_validation (m : Machine) (input output : Buf) (s : Bc3.Settings) :
    (input.length % 16 ≠ 0 →
      Bc3.transformSafe m input output s = some (output, .error (.invalidLength input.length))) ∧
    (input.length % 16 = 0 → output.length < input.length →
      Bc3.transformSafe m input output s =
        some (output, .error (.outputBufferTooSmall input.length output.length))) ∧
    (input.length % 16 = 0 → input.length ≤ output.length → ∃ out',
      Bc3.transformWithSettings m input output input.length s = some out' ∧
      Bc3.transformSafe m input output s = some (out', .ok ()) ∧
      out'.length = output.length ∧ out'.drop input.length = output.drop input.length) := by
  refine ⟨fun h => ?_, fun h h2 => ?_, fun h h2 => ?_⟩
  · unfold Bc3.transformSafe; rw [if_pos h]
  · unfold Bc3.transformSafe; rw [if_neg (by simp [h]), if_pos h2]
  · obtain ⟨hl, hr⟩ := Bc3.transform_impl m s input output h h2
    refine ⟨_, hr, ?_, by simp [hl]; omega, by rw [List.drop_left' hl]⟩
    unfold Bc3.transformSafe
    rw [if_neg (by simp [h]), if_neg (by omega)]
    simp only [hr]
    rfl

/-- **C16** (BC3, `untransform`): it never panics; a length that is no multiple of 16 is reported first, then a short
output, with the output untouched; otherwise it succeeds with the result of the core function, and only then. -/
theorem C16_bc3_untransform_validation (m : Machine) (input output : Buf) (s : Bc3.Settings) :
    (input.length % 16 ≠ 0 →
      Bc3.untransformSafe m input output s = some (output, .error (.invalidLength input.length))) ∧
    (input.length % 16 = 0 → output.length < input.length →
      Bc3.untransformSafe m input output s =
        some (output, .error (.outputBufferTooSmall input.length output.length))) ∧
    (input.length % 16 = 0 → input.length ≤ output.length → ∃ out',
      Bc3.untransformWithSettings m input output input.length s = some out' ∧
      Bc3.untransformSafe m input output s = some (out', .ok ()) ∧
      out'.length = output.length ∧ out'.drop input.length = output.drop input.length) := by
  refine ⟨fun h => ?_, fun h h2 => ?_, fun h h2 => ?_⟩
  · unfold Bc3.untransformSafe; rw [if_pos h]
  · unfold Bc3.untransformSafe; rw [if_neg (by simp [h]), if_pos h2]
  · obtain ⟨hl, hr⟩ := Bc3.untransform_impl m s input output h h2
    refine ⟨_, hr, ?_, by simp [hl]; omega, by rw [List.drop_left' hl]⟩
    unfold Bc3.untransformSafe
    rw [if_neg (by simp [h]), if_neg (by omega)]
    simp only [hr]
    rfl

/-- **C16** (BC3, automatic): the same checks in the same order, and no panic whatever the estimator does. -/
theorem C16_bc3_auto_validation {σ E : Type} (env : Env) (m : Machine) (est : Estimator σ E) (useAll : Bool)
    (input output : Buf) (st : σ) :
    (input.length % 16 ≠ 0 → Bc3.transformAutoSafe env m est useAll input output st =
      some (output, st, .error (.invalidLength input.length))) ∧
    (input.length % 16 = 0 → output.length < input.length →
      Bc3.transformAutoSafe env m est useAll input output st =
        some (output, st, .error (.outputBufferTooSmall input.length output.length))) ∧
    (input.length % 16 = 0 → input.length ≤ output.length → ∃ out' st' r,
      Bc3.transformAutoSafe env m est useAll input output st = some (out', st', r) ∧
      out'.length = output.length ∧ out'.drop input.length = output.drop input.length ∧
      (∀ n, r ≠ .error (.invalidLength n)) ∧ (∀ n k, r ≠ .error (.outputBufferTooSmall n k)) ∧
      ∀ s, r = .ok s → Bc3.transformSafe m input output s = some (out', .ok ()) ∧
        ∀ m' : Machine, m'.endian = m.endian → ∀ buf : Buf, input.length ≤ buf.length →
          ∃ u, Bc3.untransformSafe m' (out'.take input.length) buf s = some (u, .ok ()) ∧
            u.take input.length = input) := by
  refine ⟨fun h => ?_, fun h h2 => ?_, fun h h2 => ?_⟩
  · unfold Bc3.transformAutoSafe; rw [if_pos h]
  · unfold Bc3.transformAutoSafe; rw [if_neg (by simp [h]), if_pos h2]
  · obtain ⟨out', st', r, h1, h3, h4, h5⟩ := C19_bc3_auto_reports_used env m est useAll input output st h h2
    refine ⟨out', st', r.mapError .determineBest, ?_, h3, h4, ?_, ?_, ?_⟩
    · unfold Bc3.transformAutoSafe
      rw [if_neg (by simp [h]), if_neg (by omega), h1]
      rfl
    · intro n; cases r <;> simp [Except.mapError]
    · intro n k; cases r <;> simp [Except.mapError]
    · intro s hs
      have hs' : r = .ok s := by cases r <;> simp_all [Except.mapError]
      obtain ⟨h6, h7⟩ := h5 s hs'
      obtain ⟨o, h8, h9, _⟩ := (C16_bc3_transform_validation m input output s).2.2 h h2
      rw [h6, Option.some.injEq] at h8
      subst h8
      refine ⟨h9, fun m' hm buf hb => ?_⟩
      obtain ⟨u, h10, h11⟩ := h7 m' hm buf hb
      have hl : (out'.take input.length).length = input.length := by simp; omega
      obtain ⟨o2, h12, h13, _⟩ := (C16_bc3_untransform_validation m' (out'.take input.length) buf s).2.2
        (by rw [hl]; exact h) (by omega)
      rw [hl, h10, Option.some.injEq] at h12
      subst h12
      exact ⟨u, h13, h11⟩

/-- C16: all three cases occur. -/
example :
    Bc1.transformSafe (.other .little fun _ => 0) (List.replicate 7 0) [] ⟨.v1, true⟩ =
      some ([], .error (.invalidLength 7)) ∧
    Bc2.untransformSafe (.other .little fun _ => 0) (List.replicate 16 0) (List.replicate 15 3) ⟨.v1, true⟩ =
      some (List.replicate 15 3, .error (.outputBufferTooSmall 16 15)) ∧
    Bc3.transformSafe (.other .little fun _ => 0) [1, 2, 3, 4, 5, 6, 7, 8, 9, 10, 11, 12, 13, 14, 15, 16]
      (List.replicate 17 7) ⟨.none, true, true⟩ =
      some ([1, 2, 3, 4, 5, 6, 7, 8, 9, 10, 11, 12, 13, 14, 15, 16, 7], .ok ()) :=
  ⟨rfl, rfl, rfl⟩

end Dlt.Props
