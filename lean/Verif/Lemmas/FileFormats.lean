import Verif.Model.FileFormats
import Verif.Lemmas.Embed
import Verif.Props.Builders
/-!
# Dispatch of transforms
-/

namespace Dlt.FileFormats

open Dlt.Embed Dlt.Props

/-- What a successful call of the BC1 builder of a bundle means. -/
theorem bc1_details {σ E : Type} (env : Env) (m : Machine) (dbg : E → String) (b : Bc1Builder σ E)
    (input output : Buf) (st : σ) :
    ∃ o st' r, b.transformSliceWithDetails env m dbg input output st = some (o, st', r) ∧
      o.length = output.length ∧ o.drop input.length = output.drop input.length ∧
      ∀ s, r = .ok s → input.length % 8 = 0 ∧ input.length ≤ output.length ∧
        Bc1.transformWithSettings m input output input.length s = some o := by
  cases b with
  | manual b =>
    obtain ⟨h1, h2, h3⟩ := C42_bc1_manual_transform m b input output
    unfold Bc1Builder.transformSliceWithDetails
    by_cases h8 : input.length % 8 = 0
    · by_cases hl : input.length ≤ output.length
      · obtain ⟨o, h4, h5⟩ := h3 h8 hl
        obtain ⟨o', h6, _, h7, h9⟩ := (C16_bc1_transform_validation m input output b.getSettings).2.2 h8 hl
        rw [h4] at h6
        obtain rfl : o = o' := by simpa using h6
        refine ⟨o, st, .ok b.getSettings, by simp only [h5]; rfl, h7, h9, ?_⟩
        intro s hs
        obtain rfl : b.getSettings = s := by simpa using hs
        exact ⟨h8, hl, h4⟩
      · refine ⟨output, st, _, by simp only [h2 h8 (by omega)]; rfl, rfl, rfl, ?_⟩
        intro s hs; simp [Except.mapError, Except.map] at hs
    · refine ⟨output, st, _, by simp only [h1 h8]; rfl, rfl, rfl, ?_⟩
      intro s hs; simp [Except.mapError, Except.map] at hs
  | auto b =>
    obtain ⟨h1, h2, h3⟩ := C16_bc1_auto_validation env m b.estimator b.useAll input output st
    unfold Bc1Builder.transformSliceWithDetails
    by_cases h8 : input.length % 8 = 0
    · by_cases hl : input.length ≤ output.length
      · obtain ⟨o, st', r, h4, h5, h6, _, _, h7⟩ := h3 h8 hl
        cases r with
        | error e =>
          refine ⟨o, st', _, by simp only [Bc1.AutoBuilder.transform, h4]; rfl, h5, h6, ?_⟩
          intro s hs; simp [Except.mapError, Except.map] at hs
        | ok t =>
          obtain ⟨mb, hmb⟩ : ∃ mb, b.transform env m input output st = some (o, st', .ok mb) :=
            ⟨_, by simp only [Bc1.AutoBuilder.transform, h4]; rfl⟩
          obtain ⟨h9, _⟩ := C42_bc1_auto_reuse env m m rfl b input output o st st' mb hmb
          obtain ⟨o', h10, h11⟩ := (C42_bc1_manual_transform m mb input output).2.2 h8 hl
          rw [h9] at h11
          obtain rfl : o = o' := by simpa using h11
          refine ⟨o, st', .ok mb.getSettings, by simp only [hmb]; rfl, h5, h6, ?_⟩
          intro s hs
          obtain rfl : mb.getSettings = s := by simpa using hs
          exact ⟨h8, hl, h10⟩
      · refine ⟨output, st, _, by simp only [Bc1.AutoBuilder.transform, h2 h8 (by omega)]; rfl, rfl, rfl, ?_⟩
        intro s hs; simp [Except.mapError, Except.map] at hs
    · refine ⟨output, st, _, by simp only [Bc1.AutoBuilder.transform, h1 h8]; rfl, rfl, rfl, ?_⟩
      intro s hs; simp [Except.mapError, Except.map] at hs

/-- What a successful call of the BC2 builder of a bundle means. -/
theorem bc2_details {σ E : Type} (env : Env) (m : Machine) (dbg : E → String) (b : Bc2Builder σ E)
    (input output : Buf) (st : σ) :
    ∃ o st' r, b.transformSliceWithDetails env m dbg input output st = some (o, st', r) ∧
      o.length = output.length ∧ o.drop input.length = output.drop input.length ∧
      ∀ s, r = .ok s → input.length % 16 = 0 ∧ input.length ≤ output.length ∧
        Bc2.transformWithSettings m input output input.length s = some o := by
  cases b with
  | manual b =>
    obtain ⟨h1, h2, h3⟩ := C42_bc2_manual_transform m b input output
    unfold Bc2Builder.transformSliceWithDetails
    by_cases h8 : input.length % 16 = 0
    · by_cases hl : input.length ≤ output.length
      · obtain ⟨o, h4, h5⟩ := h3 h8 hl
        obtain ⟨o', h6, _, h7, h9⟩ := (C16_bc2_transform_validation m input output b.getSettings).2.2 h8 hl
        rw [h4] at h6
        obtain rfl : o = o' := by simpa using h6
        refine ⟨o, st, .ok b.getSettings, by simp only [h5]; rfl, h7, h9, ?_⟩
        intro s hs
        obtain rfl : b.getSettings = s := by simpa using hs
        exact ⟨h8, hl, h4⟩
      · refine ⟨output, st, _, by simp only [h2 h8 (by omega)]; rfl, rfl, rfl, ?_⟩
        intro s hs; simp [Except.mapError, Except.map] at hs
    · refine ⟨output, st, _, by simp only [h1 h8]; rfl, rfl, rfl, ?_⟩
      intro s hs; simp [Except.mapError, Except.map] at hs
  | auto b =>
    obtain ⟨h1, h2, h3⟩ := C16_bc2_auto_validation env m b.estimator b.useAll input output st
    unfold Bc2Builder.transformSliceWithDetails
    by_cases h8 : input.length % 16 = 0
    · by_cases hl : input.length ≤ output.length
      · obtain ⟨o, st', r, h4, h5, h6, _, _, h7⟩ := h3 h8 hl
        cases r with
        | error e =>
          refine ⟨o, st', _, by simp only [Bc2.AutoBuilder.transform, h4]; rfl, h5, h6, ?_⟩
          intro s hs; simp [Except.mapError, Except.map] at hs
        | ok t =>
          obtain ⟨mb, hmb⟩ : ∃ mb, b.transform env m input output st = some (o, st', .ok mb) :=
            ⟨_, by simp only [Bc2.AutoBuilder.transform, h4]; rfl⟩
          obtain ⟨h9, _⟩ := C42_bc2_auto_reuse env m m rfl b input output o st st' mb hmb
          obtain ⟨o', h10, h11⟩ := (C42_bc2_manual_transform m mb input output).2.2 h8 hl
          rw [h9] at h11
          obtain rfl : o = o' := by simpa using h11
          refine ⟨o, st', .ok mb.getSettings, by simp only [hmb]; rfl, h5, h6, ?_⟩
          intro s hs
          obtain rfl : mb.getSettings = s := by simpa using hs
          exact ⟨h8, hl, h10⟩
      · refine ⟨output, st, _, by simp only [Bc2.AutoBuilder.transform, h2 h8 (by omega)]; rfl, rfl, rfl, ?_⟩
        intro s hs; simp [Except.mapError, Except.map] at hs
    · refine ⟨output, st, _, by simp only [Bc2.AutoBuilder.transform, h1 h8]; rfl, rfl, rfl, ?_⟩
      intro s hs; simp [Except.mapError, Except.map] at hs

/-- What `dispatch_transform` does: it never panics, keeps the length of the output slice and the part behind the
input's length, and if it succeeds the output is the core transform with the settings recorded in the header. -/
theorem dispatchTransform_spec {σ E : Type} (env : Env) (m : Machine) (dbg : E → String) (b : Bundle σ E)
    (f : TransformFormat) (input output : Buf) (st : σ) :
    ∃ o st' r, b.dispatchTransform env m dbg f input output st = some (o, st', r) ∧
      o.length = output.length ∧ o.drop input.length = output.drop input.length ∧
      ∀ h, r = .ok h → input.length ≤ output.length ∧ ∃ s : ColourSettings,
        (f = .bc1 ∧ b.bc1 ≠ none ∧ h = Embed.bc1.toHeader s ∧ input.length % 8 = 0 ∧
          Bc1.transformWithSettings m input output input.length s = some o) ∨
        (f = .bc2 ∧ b.bc2 ≠ none ∧ h = Embed.bc2.toHeader s ∧ input.length % 16 = 0 ∧
          Bc2.transformWithSettings m input output input.length s = some o) := by
  unfold Bundle.dispatchTransform
  by_cases hl : output.length < input.length
  · rw [if_pos hl]
    exact ⟨_, _, _, rfl, rfl, rfl, fun h hh => by simp at hh⟩
  · rw [if_neg hl]
    cases f with
    | bc1 =>
      cases hb : b.bc1 with
      | none => exact ⟨_, _, _, rfl, rfl, rfl, fun h hh => by simp at hh⟩
      | some builder =>
        obtain ⟨o, st', r, h1, h2, h3, h4⟩ := bc1_details env m dbg builder input output st
        refine ⟨o, st', r.map Embed.bc1.toHeader, by simp only [h1]; rfl, h2, h3, ?_⟩
        intro h hh
        cases r with
        | error e => simp [Except.map] at hh
        | ok s =>
          obtain ⟨h5, h6, h7⟩ := h4 s rfl
          exact ⟨h6, s, .inl ⟨rfl, by simp, by simpa [Except.map] using hh.symm, h5, h7⟩⟩
    | bc2 =>
      cases hb : b.bc2 with
      | none => exact ⟨_, _, _, rfl, rfl, rfl, fun h hh => by simp at hh⟩
      | some builder =>
        obtain ⟨o, st', r, h1, h2, h3, h4⟩ := bc2_details env m dbg builder input output st
        refine ⟨o, st', r.map Embed.bc2.toHeader, by simp only [h1]; rfl, h2, h3, ?_⟩
        intro h hh
        cases r with
        | error e => simp [Except.map] at hh
        | ok s =>
          obtain ⟨h5, h6, h7⟩ := h4 s rfl
          exact ⟨h6, s, .inr ⟨rfl, by simp, by simpa [Except.map] using hh.symm, h5, h7⟩⟩
    | _ => exact ⟨_, _, _, rfl, rfl, rfl, fun h hh => by simp at hh⟩

end Dlt.FileFormats
