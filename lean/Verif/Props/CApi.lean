import Verif.Lemmas.CApi
/-!
# C40, C41: the C API
-/

namespace Dlt.Props

open Dlt.CApi

variable {b : Bc} {σ : Type}

/-! ## C40: what a builder holds -/

/-- The variant that the header of the C library assigns to a number (color_565.rs:65-91, `#[repr(u8)]`). -/
def modeOfNumber : Nat → Option Variant
  | 0 => some .v1
  | 1 => some .v2
  | 2 => some .v3
  | 3 => some .none
  | _ => none

/-- The settings that the automatic transform of the Rust library reports for a call in state `s`. -/
def reportedSettings (env : Env) (m : Machine) (s : State b σ) : Event σ → Option ColourSettings
  | .autoTransform p data dataLen output outputLen _ _ => do
    let x ← s.auto p
    match autoSafe b env m x.estimator.ops x.useAll (bytesAt s.mem data dataLen) (bytesAt s.mem output outputLen) s.st with
    | some (_, _, .ok c) => some c
    | _ => none
  | _ => none

/-- The decorrelation mode last given to the builder at `p`, read off the history from its newest event back:
by a setter, by a reset or the creation (variant 1), by cloning, or by the automatic transform; `none` if there is no
such builder. -/
def lastMode (env : Env) (m : Machine) : List (State b σ × Event σ × Reply) → Nat → Option Variant
  | [], _ => none
  | (s, e, r) :: h, p => match e with
    | .newManual a => if p = a then some .v1 else lastMode env m h p
    | .freeManual q => if p = q then none else lastMode env m h p
    | .cloneManual q a => if q ≠ 0 ∧ p = a then lastMode env m h q else lastMode env m h p
    | .setDecorrelationMode q mode => if p = q then modeOfNumber mode else lastMode env m h p
    | .resetToDefaults q => if p = q then some .v1 else lastMode env m h p
    | .autoTransform _ _ _ _ _ _ a =>
      if r = .code .success ∧ p = a then (reportedSettings env m s e).map (·.decorr) else lastMode env m h p
    | _ => lastMode env m h p

/-- The split flag last given to the builder at `p`, likewise. -/
def lastSplit (env : Env) (m : Machine) : List (State b σ × Event σ × Reply) → Nat → Option Bool
  | [], _ => none
  | (s, e, r) :: h, p => match e with
    | .newManual a => if p = a then some true else lastSplit env m h p
    | .freeManual q => if p = q then none else lastSplit env m h p
    | .cloneManual q a => if q ≠ 0 ∧ p = a then lastSplit env m h q else lastSplit env m h p
    | .setSplitColourEndpoints q split => if p = q then some split else lastSplit env m h p
    | .resetToDefaults q => if p = q then some true else lastSplit env m h p
    | .autoTransform _ _ _ _ _ _ a =>
      if r = .code .success ∧ p = a then (reportedSettings env m s e).map (·.split) else lastSplit env m h p
    | _ => lastSplit env m h p

theorem modeOfNumber_eq (x : Nat) : modeOfNumber x = (apiVariantOfRepr x).map ApiVariant.toInternal := by
  match x with
  | 0 => rfl
  | 1 => rfl
  | 2 => rfl
  | 3 => rfl
  | n + 4 => rfl

theorem canGive_iff (s : State b σ) (a : Nat) :
    s.canGive a = true ↔ a ≠ 0 ∧ s.manual a = none ∧ s.auto a = none ∧ s.ests a = none := by
  simp [State.canGive, and_assoc]

/-- What a history says about the builders. -/
def Holds (env : Env) (m : Machine) (h : List (State b σ × Event σ × Reply)) (s : State b σ) : Prop :=
  s.manual 0 = none ∧ ∀ p, p ≠ 0 →
    (s.manual p).map (fun x => (settings b x).decorr) = lastMode env m h p ∧
    (s.manual p).map (fun x => (settings b x).split) = lastSplit env m h p

theorem manualCall_manual {f : b.Manual → Buf → Buf → Option (Buf × Except (BcError String) Unit)} {s s' : State b σ}
    {i il o ol p : Nat} {c : Code} (h : manualCall f s i il o ol p = some (s', c)) :
    s'.manual = s.manual ∧ s'.auto = s.auto ∧ s'.ests = s.ests := by
  unfold manualCall at h
  split at h
  · cases h; exact ⟨rfl, rfl, rfl⟩
  split at h
  · cases h; exact ⟨rfl, rfl, rfl⟩
  split at h
  · cases h; exact ⟨rfl, rfl, rfl⟩
  split at h
  · cases hm : s.manual p with
    | none => simp [hm] at h
    | some x =>
      cases hf : f x (bytesAt s.mem i il) (bytesAt s.mem o ol) with
      | none => simp [hm, hf] at h
      | some y =>
        obtain ⟨out, r⟩ := y
        cases r with
        | error e =>
          simp only [hm, hf, Option.bind_eq_bind, Option.bind_some, Option.pure_def, Option.some.injEq, Prod.mk.injEq] at h
          obtain ⟨rfl, _⟩ := h
          exact ⟨rfl, rfl, rfl⟩
        | ok u =>
          simp only [hm, hf, Option.bind_eq_bind, Option.bind_some, Option.pure_def, Option.some.injEq, Prod.mk.injEq] at h
          obtain ⟨rfl, _⟩ := h
          exact ⟨rfl, rfl, rfl⟩
  · simp at h

/-- What a call of the automatic transform does to the builders. -/
theorem auto_manual {env : Env} {m : Machine} {s s' : State b σ} {p d dl o ol cell a : Nat} {c : Code}
    (h : autoTransform env m s p d dl o ol cell a = some (s', c)) :
    (c ≠ .success ∧ s'.manual = s.manual) ∨
    (c = .success ∧ a ≠ 0 ∧ s.manual a = none ∧ ∃ x, s'.manual = upd s.manual a (some x) ∧
      reportedSettings env m s (.autoTransform p d dl o ol cell a) = some (settings b x)) := by
  unfold autoTransform at h
  split at h
  · cases h; exact .inl ⟨by simp, rfl⟩
  split at h
  · cases h; exact .inl ⟨by simp, rfl⟩
  split at h
  · cases h; exact .inl ⟨by simp, rfl⟩
  split at h
  · cases h; exact .inl ⟨by simp, rfl⟩
  split at h
  · cases hm : s.auto p with
    | none => simp [hm] at h
    | some x =>
      obtain ⟨o', st', r, h1, _⟩ := auto_total b env m x.estimator.ops x.useAll (bytesAt s.mem d dl) (bytesAt s.mem o ol) s.st
      obtain ⟨h2, h3⟩ := autoTransform_eq b env m x.estimator.ops x.useAll (bytesAt s.mem d dl) (bytesAt s.mem o ol) s.st o' st'
      cases r with
      | error e =>
        obtain ⟨e', h4, _⟩ := h3 e h1
        simp only [hm, h4, Option.bind_eq_bind, Option.bind_some, Option.pure_def, Option.some.injEq, Prod.mk.injEq] at h
        obtain ⟨rfl, rfl⟩ := h
        exact .inl ⟨by cases e' <;> simp [Code.ofError], rfl⟩
      | ok k =>
        obtain ⟨y, h4, h5⟩ := h2 k h1
        simp only [hm, h4, Option.bind_eq_bind, Option.bind_some, Option.pure_def] at h
        split at h
        · rename_i hg
          simp only [Option.some.injEq, Prod.mk.injEq] at h
          obtain ⟨rfl, rfl⟩ := h
          rw [canGive_iff] at hg
          refine .inr ⟨rfl, hg.1, hg.2.1, y, rfl, ?_⟩
          simp [reportedSettings, hm, h1, h5]
        · simp at h
  · simp at h

theorem holds_step {env : Env} {m : Machine} {h : List (State b σ × Event σ × Reply)} {s s' : State b σ} {e : Event σ}
    {r : Reply} (H : Holds env m h s) (hs : step env m s e = some (s', r)) : Holds env m ((s, e, r) :: h) s' := by
  obtain ⟨H0, H⟩ := H
  have same : s'.manual = s.manual → (∀ p, lastMode env m ((s, e, r) :: h) p = lastMode env m h p) →
      (∀ p, lastSplit env m ((s, e, r) :: h) p = lastSplit env m h p) → Holds env m ((s, e, r) :: h) s' := by
    intro h1 h2 h3
    refine ⟨by rw [h1]; exact H0, fun p hp => ?_⟩
    rw [h1, h2, h3]; exact H p hp
  have one : ∀ a v, a ≠ 0 → s'.manual = upd s.manual a v →
      v.map (fun x => (settings b x).decorr) = lastMode env m ((s, e, r) :: h) a →
      v.map (fun x => (settings b x).split) = lastSplit env m ((s, e, r) :: h) a →
      (∀ p, p ≠ a → lastMode env m ((s, e, r) :: h) p = lastMode env m h p) →
      (∀ p, p ≠ a → lastSplit env m ((s, e, r) :: h) p = lastSplit env m h p) →
      Holds env m ((s, e, r) :: h) s' := by
    intro a v ha h1 h2 h3 h4 h5
    refine ⟨by rw [h1, upd_ne _ _ (Ne.symm ha)]; exact H0, fun p hp => ?_⟩
    by_cases hpa : p = a
    · subst hpa
      rw [h1, upd_self]; exact ⟨h2, h3⟩
    · rw [h1, upd_ne _ _ hpa, h4 p hpa, h5 p hpa]; exact H p hp
  cases e with
  | newManual a =>
    simp only [step, newManual] at hs
    split at hs
    · rename_i hg
      rw [canGive_iff] at hg
      simp only [Option.map_some, Option.some.injEq, Prod.mk.injEq] at hs
      obtain ⟨rfl, rfl⟩ := hs
      refine one a (some b.new) hg.1 rfl ?_ ?_ (fun p hp => ?_) (fun p hp => ?_)
      · simp [lastMode, settings_new]
      · simp [lastSplit, settings_new]
      · simp [lastMode, hp]
      · simp [lastSplit, hp]
    · simp at hs
  | freeManual q =>
    simp only [step, freeManual] at hs
    split at hs
    · rename_i hq
      cases hx : s.manual q with
      | none => simp [hx] at hs
      | some x =>
        simp only [hx, Option.bind_eq_bind, Option.bind_some, Option.pure_def, Option.map_some, Option.some.injEq, Prod.mk.injEq] at hs
        obtain ⟨rfl, rfl⟩ := hs
        refine one q none hq rfl ?_ ?_ (fun p hp => ?_) (fun p hp => ?_)
        · simp [lastMode]
        · simp [lastSplit]
        · simp [lastMode, hp]
        · simp [lastSplit, hp]
    · rename_i hq
      simp only [ne_eq, Decidable.not_not] at hq
      simp only [Option.map_some, Option.some.injEq, Prod.mk.injEq] at hs
      obtain ⟨rfl, rfl⟩ := hs
      refine ⟨H0, fun p hp => ?_⟩
      have : p ≠ q := by rw [hq]; exact hp
      simp only [lastMode, lastSplit, if_neg this]
      exact H p hp
  | cloneManual q a =>
    simp only [step, cloneManual] at hs
    split at hs
    · rename_i hq
      simp only [Option.map_some, Option.some.injEq, Prod.mk.injEq] at hs
      obtain ⟨rfl, rfl⟩ := hs
      refine same rfl (fun p => ?_) (fun p => ?_)
      · simp [lastMode, hq]
      · simp [lastSplit, hq]
    · rename_i hq
      cases hx : s.manual q with
      | none => simp [hx] at hs
      | some x =>
        simp only [hx, Option.bind_eq_bind, Option.bind_some, Option.pure_def] at hs
        split at hs
        · rename_i hg
          rw [canGive_iff] at hg
          simp only [Option.map_some, Option.some.injEq, Prod.mk.injEq] at hs
          obtain ⟨rfl, rfl⟩ := hs
          obtain ⟨h1, h2⟩ := H q hq
          rw [hx] at h1 h2
          refine one a (some x) hg.1 rfl ?_ ?_ (fun p hp => ?_) (fun p hp => ?_)
          · simpa [lastMode, hq] using h1
          · simpa [lastSplit, hq] using h2
          · simp [lastMode, hp]
          · simp [lastSplit, hp]
        · simp at hs
  | setDecorrelationMode q mode =>
    simp only [step, setDecorrelationMode] at hs
    cases hv : apiVariantOfRepr mode with
    | none => simp [hv] at hs
    | some v =>
      simp only [hv, Option.bind_eq_bind, Option.bind_some] at hs
      split at hs
      · rename_i hq
        simp only [Option.pure_def, Option.map_some, Option.some.injEq, Prod.mk.injEq] at hs
        obtain ⟨rfl, rfl⟩ := hs
        refine ⟨H0, fun p hp => ?_⟩
        have : p ≠ q := by rw [hq]; exact hp
        simp only [lastMode, lastSplit, if_neg this]
        exact H p hp
      · rename_i hq
        cases hx : s.manual q with
        | none => simp [hx] at hs
        | some x =>
          simp only [hx, Option.bind_some, Option.pure_def, Option.map_some, Option.some.injEq, Prod.mk.injEq] at hs
          obtain ⟨rfl, rfl⟩ := hs
          obtain ⟨_, h2⟩ := H q hq
          rw [hx] at h2
          refine one q _ hq rfl ?_ ?_ (fun p hp => ?_) (fun p hp => ?_)
          · simp [lastMode, settings_mode, modeOfNumber_eq, hv]
          · simpa [lastSplit, settings_mode] using h2
          · simp [lastMode, hp]
          · simp [lastSplit]
  | setSplitColourEndpoints q c =>
    simp only [step, setSplitColourEndpoints] at hs
    split at hs
    · rename_i hq
      simp only [Option.map_some, Option.some.injEq, Prod.mk.injEq] at hs
      obtain ⟨rfl, rfl⟩ := hs
      refine ⟨H0, fun p hp => ?_⟩
      have : p ≠ q := by rw [hq]; exact hp
      simp only [lastMode, lastSplit, if_neg this]
      exact H p hp
    · rename_i hq
      cases hx : s.manual q with
      | none => simp [hx] at hs
      | some x =>
        simp only [hx, Option.bind_eq_bind, Option.bind_some, Option.pure_def, Option.map_some, Option.some.injEq, Prod.mk.injEq] at hs
        obtain ⟨rfl, rfl⟩ := hs
        obtain ⟨h1, _⟩ := H q hq
        rw [hx] at h1
        refine one q _ hq rfl ?_ ?_ (fun p hp => ?_) (fun p hp => ?_)
        · simpa [lastMode, settings_split] using h1
        · simp [lastSplit, settings_split]
        · simp [lastMode]
        · simp [lastSplit, hp]
  | resetToDefaults q =>
    simp only [step, resetToDefaults] at hs
    split at hs
    · rename_i hq
      simp only [Option.map_some, Option.some.injEq, Prod.mk.injEq] at hs
      obtain ⟨rfl, rfl⟩ := hs
      refine ⟨H0, fun p hp => ?_⟩
      have : p ≠ q := by rw [hq]; exact hp
      simp only [lastMode, lastSplit, if_neg this]
      exact H p hp
    · rename_i hq
      cases hx : s.manual q with
      | none => simp [hx] at hs
      | some x =>
        simp only [hx, Option.bind_eq_bind, Option.bind_some, Option.pure_def, Option.map_some, Option.some.injEq, Prod.mk.injEq] at hs
        obtain ⟨rfl, rfl⟩ := hs
        refine one q _ hq rfl ?_ ?_ (fun p hp => ?_) (fun p hp => ?_)
        · simp [lastMode, settings_new]
        · simp [lastSplit, settings_new]
        · simp [lastMode, hp]
        · simp [lastSplit, hp]
  | manualTransform i il o ol p =>
    simp only [step, manualTransform, Option.map_eq_some_iff, Prod.mk.injEq] at hs
    obtain ⟨⟨s1, c⟩, h1, rfl, rfl⟩ := hs
    exact same (manualCall_manual h1).1 (fun _ => rfl) (fun _ => rfl)
  | manualUntransform i il o ol p =>
    simp only [step, manualUntransform, Option.map_eq_some_iff, Prod.mk.injEq] at hs
    obtain ⟨⟨s1, c⟩, h1, rfl, rfl⟩ := hs
    exact same (manualCall_manual h1).1 (fun _ => rfl) (fun _ => rfl)
  | autoTransform p d dl o ol cell a =>
    simp only [step, Option.map_eq_some_iff, Prod.mk.injEq] at hs
    obtain ⟨⟨s1, c⟩, h1, rfl, rfl⟩ := hs
    rcases auto_manual h1 with ⟨hc, hm⟩ | ⟨hc, ha, _, x, hm, hr⟩
    · refine same hm (fun p => ?_) (fun p => ?_)
      · simp [lastMode, hc]
      · simp [lastSplit, hc]
    · refine one a (some x) ha hm ?_ ?_ (fun p hp => ?_) (fun p hp => ?_)
      · simp [lastMode, hc, hr]
      · simp [lastSplit, hc, hr]
      · simp [lastMode, hp]
      · simp [lastSplit, hp]
  | newAuto est a =>
    simp only [step, Option.map_eq_some_iff, Prod.mk.injEq] at hs
    obtain ⟨⟨s1, c⟩, h1, rfl, rfl⟩ := hs
    refine same ?_ (fun _ => rfl) (fun _ => rfl)
    simp only [newAuto] at h1
    split at h1
    · simp only [Option.some.injEq, Prod.mk.injEq] at h1
      rw [← h1.1]
    · cases he : s.ests est with
      | none => simp [he] at h1
      | some x =>
        simp only [he, Option.bind_eq_bind, Option.bind_some, Option.pure_def] at h1
        split at h1
        · simp only [Option.some.injEq, Prod.mk.injEq] at h1
          rw [← h1.1]
        · simp at h1
  | freeAuto q =>
    simp only [step, Option.map_eq_some_iff, Prod.mk.injEq] at hs
    obtain ⟨s1, h1, rfl, rfl⟩ := hs
    refine same ?_ (fun _ => rfl) (fun _ => rfl)
    simp only [freeAuto] at h1
    split at h1
    · cases he : s.auto q with
      | none => simp [he] at h1
      | some x =>
        simp only [he, Option.bind_eq_bind, Option.bind_some, Option.pure_def, Option.some.injEq] at h1
        rw [← h1]
    · simp only [Option.some.injEq] at h1
      rw [← h1]
  | setUseAll q u =>
    simp only [step, Option.map_eq_some_iff, Prod.mk.injEq] at hs
    obtain ⟨⟨s1, c⟩, h1, rfl, rfl⟩ := hs
    refine same ?_ (fun _ => rfl) (fun _ => rfl)
    simp only [setUseAll] at h1
    split at h1
    · simp only [Option.some.injEq, Prod.mk.injEq] at h1
      rw [← h1.1]
    · cases he : s.auto q with
      | none => simp [he] at h1
      | some x =>
        simp only [he, Option.bind_eq_bind, Option.bind_some, Option.pure_def, Option.some.injEq, Prod.mk.injEq] at h1
        rw [← h1.1]
  | newLtu lz a =>
    simp only [step, Option.map_eq_some_iff, Prod.mk.injEq] at hs
    obtain ⟨⟨s1, c⟩, h1, rfl, rfl⟩ := hs
    refine same ?_ (fun _ => rfl) (fun _ => rfl)
    simp only [newLtu] at h1
    split at h1
    · simp only [Option.some.injEq, Prod.mk.injEq] at h1
      rw [← h1.1]
    · simp at h1
  | freeLtu q =>
    simp only [step, Option.map_eq_some_iff, Prod.mk.injEq] at hs
    obtain ⟨s1, h1, rfl, rfl⟩ := hs
    refine same ?_ (fun _ => rfl) (fun _ => rfl)
    simp only [freeLtu] at h1
    split at h1
    · cases he : s.ests q with
      | none => simp [he] at h1
      | some x =>
        simp only [he, Option.bind_eq_bind, Option.bind_some, Option.pure_def, Option.some.injEq] at h1
        rw [← h1]
    · simp only [Option.some.injEq] at h1
      rw [← h1]
  | write p bs =>
    simp only [step, Option.some.injEq, Prod.mk.injEq] at hs
    obtain ⟨rfl, rfl⟩ := hs
    exact same rfl (fun _ => rfl) (fun _ => rfl)
  | writeEst p x =>
    simp only [step] at hs
    split at hs
    · simp only [Option.some.injEq, Prod.mk.injEq] at hs
      obtain ⟨rfl, rfl⟩ := hs
      exact same rfl (fun _ => rfl) (fun _ => rfl)
    · simp at hs
  | writeCell p x =>
    simp only [step, Option.some.injEq, Prod.mk.injEq] at hs
    obtain ⟨rfl, rfl⟩ := hs
    exact same rfl (fun _ => rfl) (fun _ => rfl)

/-- **C40** (state): in every history that starts without builders, there is a builder at a non-null address exactly if
one was created there and not freed since, and it holds the mode and the split flag last given to it. -/
theorem C40_holds_last_set {env : Env} {m : Machine} {s0 s : State b σ} {h : List (State b σ × Event σ × Reply)}
    (h0 : ∀ p, s0.manual p = none) (H : History env m s0 h s) (p : Nat) (hp : p ≠ 0) :
    (s.manual p).map (fun x => (settings b x).decorr) = lastMode env m h p ∧
    (s.manual p).map (fun x => (settings b x).split) = lastSplit env m h p := by
  have : Holds env m h s := by
    induction H with
    | nil => exact ⟨h0 0, fun p _ => by simp [h0, lastMode, lastSplit]⟩
    | cons _ hs ih => exact holds_step ih hs
  exact this.2 p hp

/-- The events that are meant to change the builder at `p` or to end its life. -/
def Targets (p : Nat) : Event σ → Prop
  | .freeManual q => q = p
  | .setDecorrelationMode q _ => q = p
  | .setSplitColourEndpoints q _ => q = p
  | .resetToDefaults q => q = p
  | _ => False

/-- **C40** (independence): nothing that happens to other builders, among them clones and originals, and no
transform changes a builder. -/
theorem C40_independent {env : Env} {m : Machine} {s s' : State b σ} {e : Event σ} {r : Reply}
    (hs : step env m s e = some (s', r)) (p : Nat) (x : b.Manual) (hx : s.manual p = some x) (he : ¬ Targets p e) :
    s'.manual p = some x := by
  have keep : s'.manual = s.manual → s'.manual p = some x := fun h => by rw [h]; exact hx
  have fresh : ∀ {a : Nat} {y : Option b.Manual}, s.manual a = none → s'.manual = upd s.manual a y →
      s'.manual p = some x := by
    intro a y ha h
    have : p ≠ a := fun e => by rw [e, ha] at hx; cases hx
    rw [h, upd_ne _ _ this]; exact hx
  have other : ∀ {q : Nat} {y : Option b.Manual}, q ≠ p → s'.manual = upd s.manual q y →
      s'.manual p = some x := by
    intro q y hq h
    rw [h, upd_ne _ _ (Ne.symm hq)]; exact hx
  cases e with
  | newManual a =>
    simp only [step, newManual] at hs
    split at hs
    · rename_i hg
      rw [canGive_iff] at hg
      simp only [Option.map_some, Option.some.injEq, Prod.mk.injEq] at hs
      exact fresh hg.2.1 (by rw [← hs.1])
    · simp at hs
  | freeManual q =>
    simp only [step, freeManual] at hs
    split at hs
    · cases hy : s.manual q with
      | none => simp [hy] at hs
      | some y =>
        simp only [hy, Option.bind_eq_bind, Option.bind_some, Option.pure_def, Option.map_some, Option.some.injEq, Prod.mk.injEq] at hs
        exact other (q := q) he (by rw [← hs.1])
    · simp only [Option.map_some, Option.some.injEq, Prod.mk.injEq] at hs
      exact keep (by rw [← hs.1])
  | cloneManual q a =>
    simp only [step, cloneManual] at hs
    split at hs
    · simp only [Option.map_some, Option.some.injEq, Prod.mk.injEq] at hs
      exact keep (by rw [← hs.1])
    · cases hy : s.manual q with
      | none => simp [hy] at hs
      | some y =>
        simp only [hy, Option.bind_eq_bind, Option.bind_some, Option.pure_def] at hs
        split at hs
        · rename_i hg
          rw [canGive_iff] at hg
          simp only [Option.map_some, Option.some.injEq, Prod.mk.injEq] at hs
          exact fresh hg.2.1 (by rw [← hs.1])
        · simp at hs
  | setDecorrelationMode q mode =>
    simp only [step, setDecorrelationMode] at hs
    cases hv : apiVariantOfRepr mode with
    | none => simp [hv] at hs
    | some v =>
      simp only [hv, Option.bind_eq_bind, Option.bind_some] at hs
      split at hs
      · simp only [Option.pure_def, Option.map_some, Option.some.injEq, Prod.mk.injEq] at hs
        exact keep (by rw [← hs.1])
      · cases hy : s.manual q with
        | none => simp [hy] at hs
        | some y =>
          simp only [hy, Option.bind_some, Option.pure_def, Option.map_some, Option.some.injEq, Prod.mk.injEq] at hs
          exact other (q := q) he (by rw [← hs.1])
  | setSplitColourEndpoints q c =>
    simp only [step, setSplitColourEndpoints] at hs
    split at hs
    · simp only [Option.map_some, Option.some.injEq, Prod.mk.injEq] at hs
      exact keep (by rw [← hs.1])
    · cases hy : s.manual q with
      | none => simp [hy] at hs
      | some y =>
        simp only [hy, Option.bind_eq_bind, Option.bind_some, Option.pure_def, Option.map_some, Option.some.injEq, Prod.mk.injEq] at hs
        exact other (q := q) he (by rw [← hs.1])
  | resetToDefaults q =>
    simp only [step, resetToDefaults] at hs
    split at hs
    · simp only [Option.map_some, Option.some.injEq, Prod.mk.injEq] at hs
      exact keep (by rw [← hs.1])
    · cases hy : s.manual q with
      | none => simp [hy] at hs
      | some y =>
        simp only [hy, Option.bind_eq_bind, Option.bind_some, Option.pure_def, Option.map_some, Option.some.injEq, Prod.mk.injEq] at hs
        exact other (q := q) he (by rw [← hs.1])
  | manualTransform i il o ol q =>
    simp only [step, manualTransform, Option.map_eq_some_iff, Prod.mk.injEq] at hs
    obtain ⟨⟨s1, c⟩, h1, rfl, rfl⟩ := hs
    exact keep (manualCall_manual h1).1
  | manualUntransform i il o ol q =>
    simp only [step, manualUntransform, Option.map_eq_some_iff, Prod.mk.injEq] at hs
    obtain ⟨⟨s1, c⟩, h1, rfl, rfl⟩ := hs
    exact keep (manualCall_manual h1).1
  | autoTransform q d dl o ol cell a =>
    simp only [step, Option.map_eq_some_iff, Prod.mk.injEq] at hs
    obtain ⟨⟨s1, c⟩, h1, rfl, rfl⟩ := hs
    rcases auto_manual h1 with ⟨_, hm⟩ | ⟨_, _, h3, y, hm, _⟩
    · exact keep hm
    · exact fresh h3 hm
  | newAuto est a =>
    simp only [step, Option.map_eq_some_iff, Prod.mk.injEq] at hs
    obtain ⟨⟨s1, c⟩, h1, rfl, rfl⟩ := hs
    refine keep ?_
    simp only [newAuto] at h1
    split at h1
    · simp only [Option.some.injEq, Prod.mk.injEq] at h1
      rw [← h1.1]
    · cases he : s.ests est with
      | none => simp [he] at h1
      | some x =>
        simp only [he, Option.bind_eq_bind, Option.bind_some, Option.pure_def] at h1
        split at h1
        · simp only [Option.some.injEq, Prod.mk.injEq] at h1
          rw [← h1.1]
        · simp at h1
  | freeAuto q =>
    simp only [step, Option.map_eq_some_iff, Prod.mk.injEq] at hs
    obtain ⟨s1, h1, rfl, rfl⟩ := hs
    refine keep ?_
    simp only [freeAuto] at h1
    split at h1
    · cases he : s.auto q with
      | none => simp [he] at h1
      | some x =>
        simp only [he, Option.bind_eq_bind, Option.bind_some, Option.pure_def, Option.some.injEq] at h1
        rw [← h1]
    · simp only [Option.some.injEq] at h1
      rw [← h1]
  | setUseAll q u =>
    simp only [step, Option.map_eq_some_iff, Prod.mk.injEq] at hs
    obtain ⟨⟨s1, c⟩, h1, rfl, rfl⟩ := hs
    refine keep ?_
    simp only [setUseAll] at h1
    split at h1
    · simp only [Option.some.injEq, Prod.mk.injEq] at h1
      rw [← h1.1]
    · cases he : s.auto q with
      | none => simp [he] at h1
      | some x =>
        simp only [he, Option.bind_eq_bind, Option.bind_some, Option.pure_def, Option.some.injEq, Prod.mk.injEq] at h1
        rw [← h1.1]
  | newLtu lz a =>
    simp only [step, Option.map_eq_some_iff, Prod.mk.injEq] at hs
    obtain ⟨⟨s1, c⟩, h1, rfl, rfl⟩ := hs
    refine keep ?_
    simp only [newLtu] at h1
    split at h1
    · simp only [Option.some.injEq, Prod.mk.injEq] at h1
      rw [← h1.1]
    · simp at h1
  | freeLtu q =>
    simp only [step, Option.map_eq_some_iff, Prod.mk.injEq] at hs
    obtain ⟨s1, h1, rfl, rfl⟩ := hs
    refine keep ?_
    simp only [freeLtu] at h1
    split at h1
    · cases he : s.ests q with
      | none => simp [he] at h1
      | some x =>
        simp only [he, Option.bind_eq_bind, Option.bind_some, Option.pure_def, Option.some.injEq] at h1
        rw [← h1]
    · simp only [Option.some.injEq] at h1
      rw [← h1]
  | write q bs =>
    simp only [step, Option.some.injEq, Prod.mk.injEq] at hs
    exact keep (by rw [← hs.1])
  | writeEst q x =>
    simp only [step] at hs
    split at hs
    · simp only [Option.some.injEq, Prod.mk.injEq] at hs
      exact keep (by rw [← hs.1])
    · simp at hs
  | writeCell q x =>
    simp only [step, Option.some.injEq, Prod.mk.injEq] at hs
    exact keep (by rw [← hs.1])

/-- **C40** (null): a null builder is ignored by every function that returns nothing, and its clone is null. -/
theorem C40_null_ignored (s : State b σ) (a mode : Nat) (split : Bool) (hmode : mode < 4) :
    freeManual s 0 = some s ∧ cloneManual s 0 a = some (s, 0) ∧ setDecorrelationMode s 0 mode = some s ∧
    setSplitColourEndpoints s 0 split = some s ∧ resetToDefaults s 0 = some s ∧ freeAuto s 0 = some s := by
  refine ⟨rfl, rfl, ?_, rfl, rfl, rfl⟩
  match mode, hmode with
  | 0, _ => rfl
  | 1, _ => rfl
  | 2, _ => rfl
  | 3, _ => rfl

/-! ## Calls that transform -/

/-- What the call of a transform must do, `f` being the function of the core library, `B` the block size and
`c` the settings: report a bad length, report a short buffer, or else store the first `inputLen` bytes of
the result.  Nothing else changes. -/
structure CallSpec {C : Type} (f : Buf → Buf → Nat → ColourSettings → Option Buf) (B : Nat) (bad short ok : C)
    (c : ColourSettings) (s s' : State b σ) (input inputLen output outputLen : Nat) (code : C) : Prop where
  invalid : inputLen % B ≠ 0 → code = bad ∧ s' = s
  small : inputLen % B = 0 → outputLen < inputLen → code = short ∧ s' = s
  done : inputLen % B = 0 → inputLen ≤ outputLen → code = ok ∧ ∃ out,
    f (bytesAt s.mem input inputLen) (bytesAt s.mem output outputLen) inputLen c = some out ∧
    bytesAt s'.mem output inputLen = out.take inputLen ∧
    (∀ q, q < output ∨ output + inputLen ≤ q → s'.mem q = s.mem q) ∧
    s' = { s with mem := s'.mem }

/-- The memory after a call that leaves the end of its output alone. -/
theorem stored (mem : Nat → Byte) (o ol n : Nat) (out : Buf) (hl : out.length = ol) (hn : n ≤ ol)
    (hd : out.drop n = (bytesAt mem o ol).drop n) :
    bytesAt (putBytes mem o out) o n = out.take n ∧
    ∀ q, q < o ∨ o + n ≤ q → putBytes mem o out q = mem q := by
  refine ⟨bytesAt_putBytes mem o out (by omega), fun q hq => ?_⟩
  by_cases h : q < o ∨ o + out.length ≤ q
  · exact putBytes_out mem o out h
  · obtain ⟨i, rfl⟩ : ∃ i, q = o + i := ⟨q - o, by omega⟩
    have hi : i < out.length := by omega
    rw [putBytes_in mem o out hi]
    have h1 : (out.drop n)[i - n]? = ((bytesAt mem o ol).drop n)[i - n]? := by rw [hd]
    rw [List.getElem?_drop, List.getElem?_drop, show n + (i - n) = i by omega, bytesAt_getElem? _ _ _ _ (by omega),
      List.getElem?_eq_getElem hi, Option.some.injEq] at h1
    exact h1

theorem manual_call_spec {f : b.Manual → Buf → Buf → Option (Buf × Except (BcError String) Unit)}
    {g : Buf → Buf → ColourSettings → Option (Buf × Except ValidationError Unit)}
    {core : Buf → Buf → Nat → ColourSettings → Option Buf}
    (hf : ∀ x i o, f x i o = (g i o (settings b x)).map fun r => (r.1, r.2.mapError .fromValidation))
    (hg : ∀ i o c, (i.length % blockSize b ≠ 0 → g i o c = some (o, .error (.invalidLength i.length))) ∧
      (i.length % blockSize b = 0 → o.length < i.length →
        g i o c = some (o, .error (.outputBufferTooSmall i.length o.length))) ∧
      (i.length % blockSize b = 0 → i.length ≤ o.length → ∃ out', core i o i.length c = some out' ∧
        g i o c = some (out', .ok ()) ∧ out'.length = o.length ∧ out'.drop i.length = o.drop i.length))
    (s : State b σ) {i il o ol p : Nat} {x : b.Manual} (hx : s.manual p = some x) (hp : p ≠ 0) (hi : i ≠ 0) (ho : o ≠ 0)
    (hd : disjoint i il o ol = true) :
    ∃ s' code, manualCall f s i il o ol p = some (s', code) ∧
      CallSpec core (blockSize b) .invalidLength .outputBufferTooSmall .success (settings b x) s s' i il o ol code := by
  unfold manualCall
  rw [if_neg hi, if_neg ho, if_neg hp, if_pos hd, hx]
  obtain ⟨h1, h2, h3⟩ := hg (bytesAt s.mem i il) (bytesAt s.mem o ol) (settings b x)
  simp only [bytesAt_length] at h1 h2 h3
  by_cases c1 : il % blockSize b = 0
  · by_cases c2 : il ≤ ol
    · obtain ⟨out, e1, e2, e3, e4⟩ := h3 c1 c2
      have hr : f x (bytesAt s.mem i il) (bytesAt s.mem o ol) = some (out, .ok ()) := by rw [hf, e2]; rfl
      simp only [Option.bind_eq_bind, Option.bind_some, hr]
      obtain ⟨e5, e6⟩ := stored s.mem o ol il out e3 c2 e4
      exact ⟨_, _, rfl, ⟨fun h => absurd c1 h, fun _ h => by omega, fun _ _ => ⟨rfl, out, e1, e5, e6, rfl⟩⟩⟩
    · have hr : f x (bytesAt s.mem i il) (bytesAt s.mem o ol) =
          some (bytesAt s.mem o ol, .error (.outputBufferTooSmall il ol)) := by rw [hf, h2 c1 (by omega)]; rfl
      simp only [Option.bind_eq_bind, Option.bind_some, hr, putBytes_bytesAt]
      exact ⟨_, _, rfl, ⟨fun h => absurd c1 h, fun _ _ => ⟨rfl, rfl⟩, fun _ h => absurd h c2⟩⟩
  · have hr : f x (bytesAt s.mem i il) (bytesAt s.mem o ol) =
        some (bytesAt s.mem o ol, .error (.invalidLength il)) := by rw [hf, h1 c1]; rfl
    simp only [Option.bind_eq_bind, Option.bind_some, hr, putBytes_bytesAt]
    exact ⟨_, _, rfl, ⟨fun _ => ⟨rfl, rfl⟩, fun h => absurd h c1, fun h => absurd h c1⟩⟩

/-- **C40** (transform): a call of `Transform` or `Untransform` with a builder of which the history says that mode `v`
and split flag `c` were set last does what the core function does with these settings, and reports it. -/
theorem C40_transform_uses_last_set {env : Env} {m : Machine} {s0 s : State b σ} {h : List (State b σ × Event σ × Reply)}
    (h0 : ∀ p, s0.manual p = none) (H : History env m s0 h s) {p : Nat} (hp : p ≠ 0) {v : Variant} {c : Bool}
    (hv : lastMode env m h p = some v) (hc : lastSplit env m h p = some c)
    {i il o ol : Nat} (hi : i ≠ 0) (ho : o ≠ 0) (hd : disjoint i il o ol = true) :
    (∃ s' code, manualTransform m s i il o ol p = some (s', code) ∧
      CallSpec (encode b m) (blockSize b) .invalidLength .outputBufferTooSmall .success ⟨v, c⟩ s s' i il o ol code) ∧
    (∃ s' code, manualUntransform m s i il o ol p = some (s', code) ∧
      CallSpec (decode b m) (blockSize b) .invalidLength .outputBufferTooSmall .success ⟨v, c⟩ s s' i il o ol code) := by
  obtain ⟨h1, h2⟩ := C40_holds_last_set h0 H p hp
  rw [hv] at h1
  rw [hc] at h2
  obtain ⟨x, hx, hxv⟩ := Option.map_eq_some_iff.mp h1
  rw [hx] at h2
  have hset : settings b x = ⟨v, c⟩ := by
    simp only [Option.map_some, Option.some.injEq] at h2
    cases hs : settings b x with
    | mk d k => rw [hs] at h2 hxv; simp_all
  rw [← hset]
  exact ⟨manual_call_spec (transform_eq b m) (core_transform b m) s hx hp hi ho hd,
    manual_call_spec (untransform_eq b m) (core_untransform b m) s hx hp hi ho hd⟩

/-! ## C41: null pointers and result codes -/

/-- **C41** (manual builder, null pointers): the code names the first null argument in the order input, output,
builder, and nothing is touched. -/
theorem C41_manual_nulls (m : Machine) (s : State b σ) (i il o ol p : Nat) :
    (i = 0 → manualTransform m s i il o ol p = some (s, .nullDataPointer) ∧
      manualUntransform m s i il o ol p = some (s, .nullDataPointer)) ∧
    (i ≠ 0 → o = 0 → manualTransform m s i il o ol p = some (s, .nullOutputBufferPointer) ∧
      manualUntransform m s i il o ol p = some (s, .nullOutputBufferPointer)) ∧
    (i ≠ 0 → o ≠ 0 → p = 0 → manualTransform m s i il o ol p = some (s, .nullManualTransformBuilderPointer) ∧
      manualUntransform m s i il o ol p = some (s, .nullManualTransformBuilderPointer)) := by
  unfold manualTransform manualUntransform manualCall
  refine ⟨fun h => ?_, fun h h' => ?_, fun h h' h'' => ?_⟩ <;> simp [*]

/-- **C41** (manual builder, result): with valid arguments the code is `Success` exactly if the length is a multiple of the
block size and fits the output, which is exactly if the Rust builder succeeds. -/
theorem C41_manual_result (m : Machine) (s : State b σ) {i il o ol p : Nat} {x : b.Manual} (hx : s.manual p = some x)
    (hp : p ≠ 0) (hi : i ≠ 0) (ho : o ≠ 0) (hd : disjoint i il o ol = true) :
    (∃ s' code, manualTransform m s i il o ol p = some (s', code) ∧
      (code = .success ↔ il % blockSize b = 0 ∧ il ≤ ol) ∧
      (code = .success ↔ ∃ out, b.transform m x (bytesAt s.mem i il) (bytesAt s.mem o ol) = some (out, .ok ())) ∧
      CallSpec (encode b m) (blockSize b) .invalidLength .outputBufferTooSmall .success (settings b x) s s' i il o ol code) ∧
    (∃ s' code, manualUntransform m s i il o ol p = some (s', code) ∧
      (code = .success ↔ il % blockSize b = 0 ∧ il ≤ ol) ∧
      (code = .success ↔ ∃ out, b.untransform m x (bytesAt s.mem i il) (bytesAt s.mem o ol) = some (out, .ok ())) ∧
      CallSpec (decode b m) (blockSize b) .invalidLength .outputBufferTooSmall .success (settings b x) s s' i il o ol code) := by
  have key : ∀ {f : b.Manual → Buf → Buf → Option (Buf × Except (BcError String) Unit)}
      {g : Buf → Buf → ColourSettings → Option (Buf × Except ValidationError Unit)}
      {core : Buf → Buf → Nat → ColourSettings → Option Buf}
      (_ : ∀ x i o, f x i o = (g i o (settings b x)).map fun r => (r.1, r.2.mapError .fromValidation))
      (_ : ∀ i o c, (i.length % blockSize b ≠ 0 → g i o c = some (o, .error (.invalidLength i.length))) ∧
        (i.length % blockSize b = 0 → o.length < i.length →
          g i o c = some (o, .error (.outputBufferTooSmall i.length o.length))) ∧
        (i.length % blockSize b = 0 → i.length ≤ o.length → ∃ out', core i o i.length c = some out' ∧
          g i o c = some (out', .ok ()) ∧ out'.length = o.length ∧ out'.drop i.length = o.drop i.length)),
      ∃ s' code, manualCall f s i il o ol p = some (s', code) ∧
      (code = .success ↔ il % blockSize b = 0 ∧ il ≤ ol) ∧
      (code = .success ↔ ∃ out, f x (bytesAt s.mem i il) (bytesAt s.mem o ol) = some (out, .ok ())) ∧
      CallSpec core (blockSize b) .invalidLength .outputBufferTooSmall .success (settings b x) s s' i il o ol code := by
    intro f g core hf hg
    obtain ⟨s', code, h1, h2⟩ := manual_call_spec hf hg s hx hp hi ho hd
    refine ⟨s', code, h1, ?_, ?_, h2⟩
    · by_cases c1 : il % blockSize b = 0
      · by_cases c2 : il ≤ ol
        · simp [(h2.done c1 c2).1, c1, c2]
        · simp [(h2.small c1 (by omega)).1, c2]
      · simp [(h2.invalid c1).1, c1]
    · obtain ⟨g1, g2, g3⟩ := hg (bytesAt s.mem i il) (bytesAt s.mem o ol) (settings b x)
      simp only [bytesAt_length] at g1 g2 g3
      rw [hf]
      by_cases c1 : il % blockSize b = 0
      · by_cases c2 : il ≤ ol
        · obtain ⟨out, _, e2, _⟩ := g3 c1 c2
          simp [(h2.done c1 c2).1, e2, Except.mapError]
        · simp [(h2.small c1 (by omega)).1, g2 c1 (by omega), Except.mapError]
      · simp [(h2.invalid c1).1, g1 c1, Except.mapError]
  exact ⟨key (transform_eq b m) (core_transform b m), key (untransform_eq b m) (core_untransform b m)⟩

/-- **C41** (automatic builder, null pointers): a null estimator gives a null builder; the code names the first null
argument in the order builder, data, output, result, and nothing is touched, not even the variable for the result. -/
theorem C41_auto_nulls (env : Env) (m : Machine) (s : State b σ) (p d dl o ol cell a : Nat) (useAll : Bool) :
    newAuto s 0 a = some (s, 0) ∧ setUseAll s 0 useAll = some (s, .nullBuilderPointer) ∧
    (p = 0 → autoTransform env m s p d dl o ol cell a = some (s, .nullBuilderPointer)) ∧
    (p ≠ 0 → d = 0 → autoTransform env m s p d dl o ol cell a = some (s, .nullDataPointer)) ∧
    (p ≠ 0 → d ≠ 0 → o = 0 → autoTransform env m s p d dl o ol cell a = some (s, .nullOutputBufferPointer)) ∧
    (p ≠ 0 → d ≠ 0 → o ≠ 0 → cell = 0 →
      autoTransform env m s p d dl o ol cell a = some (s, .nullManualBuilderOutputPointer)) := by
  refine ⟨rfl, rfl, ?_⟩
  unfold autoTransform
  refine ⟨fun h => ?_, fun h h' => ?_, fun h h' h'' => ?_, fun h h' h'' h3 => ?_⟩ <;> simp [*]

/-- **C41** (automatic builder, result), for every C estimator: with valid arguments the call returns; the code is
`InvalidLength` or `OutputBufferTooSmall` exactly for those arguments, with the output untouched; on `Success` the variable
points to a new builder, with which the manual transform gives the bytes in the output; on failure the variable is
null and there is no new builder; only the output and the variable change. -/
theorem C41_auto_result (env : Env) (m : Machine) (s : State b σ) {p d dl o ol cell a : Nat} {x : CAuto σ}
    (hx : s.auto p = some x) (hp : p ≠ 0) (hd : d ≠ 0) (ho : o ≠ 0) (hc : cell ≠ 0) (hdj : disjoint d dl o ol = true)
    (ha : s.canGive a = true) :
    ∃ s' code, autoTransform env m s p d dl o ol cell a = some (s', code) ∧
      (code = .invalidLength ↔ dl % blockSize b ≠ 0) ∧
      (code = .outputBufferTooSmall ↔ dl % blockSize b = 0 ∧ ol < dl) ∧
      (code ∈ [Code.invalidLength, .outputBufferTooSmall] → s'.mem = s.mem ∧ s'.st = s.st) ∧
      code ∈ [Code.success, .invalidLength, .outputBufferTooSmall, .allocationFailed, .sizeEstimationFailed] ∧
      (code = .success → s'.cells cell = a ∧ a ≠ 0 ∧ ∃ y out, s'.manual a = some y ∧
        encode b m (bytesAt s.mem d dl) (bytesAt s.mem o ol) dl (settings b y) = some out ∧
        bytesAt s'.mem o dl = out.take dl) ∧
      (code ≠ .success → s'.cells cell = 0 ∧ s'.manual = s.manual) ∧
      (code = .success ↔ ∃ out st c, autoSafe b env m x.estimator.ops x.useAll (bytesAt s.mem d dl) (bytesAt s.mem o ol) s.st =
        some (out, st, .ok c)) ∧
      (∀ q, q < o ∨ o + dl ≤ q → s'.mem q = s.mem q) ∧ (∀ q, q ≠ cell → s'.cells q = s.cells q) ∧
      (∀ q, q ≠ a → s'.manual q = s.manual q) ∧ s'.auto = s.auto ∧ s'.ests = s.ests ∧ s'.details = s.details := by
  obtain ⟨out, st', r, h1, h2, h3, h4, h5⟩ :=
    auto_total b env m x.estimator.ops x.useAll (bytesAt s.mem d dl) (bytesAt s.mem o ol) s.st
  obtain ⟨h6, h7⟩ := autoTransform_eq b env m x.estimator.ops x.useAll (bytesAt s.mem d dl) (bytesAt s.mem o ol) s.st out st'
  simp only [bytesAt_length] at h2 h3 h4 h5
  have hmem : ∀ q, q < o ∨ o + dl ≤ q → putBytes s.mem o out q = s.mem q := by
    intro q hq
    by_cases c1 : dl % blockSize b = 0
    · by_cases c2 : dl ≤ ol
      · exact (stored s.mem o ol dl out h2 c2 (h5 c1 c2).1).2 q hq
      · rw [(h4 c1 (by omega)).1, putBytes_bytesAt]
    · rw [(h3 c1).1, putBytes_bytesAt]
  have hgive := (canGive_iff s a).mp ha
  unfold autoTransform
  rw [if_neg hp, if_neg hd, if_neg ho, if_neg hc, if_pos hdj, hx]
  cases r with
  | ok c =>
    have c1 : dl % blockSize b = 0 := by
      by_cases c1 : dl % blockSize b = 0
      · exact c1
      · have := (h3 c1).2.2; simp at this
    have c2 : dl ≤ ol := by
      by_cases c2 : dl ≤ ol
      · exact c2
      · have := (h4 c1 (by omega)).2.2; simp at this
    obtain ⟨y, h8, h9⟩ := h6 c h1
    have hg : State.canGive { s with mem := putBytes s.mem o out, st := st' } a = true := ha
    simp only [Option.bind_eq_bind, Option.bind_some, h8]
    rw [if_pos hg]
    refine ⟨_, _, rfl, by simp [c1], by simp [c2], by simp, by simp, fun _ => ⟨upd_self _ _ _, hgive.1, y, out,
      upd_self _ _ _, ?_, bytesAt_putBytes _ _ _ (by omega)⟩, by simp, by simp [h1], hmem, fun q hq => upd_ne _ _ hq,
      fun q hq => upd_ne _ _ hq, rfl, rfl, rfl⟩
    rw [h9]
    exact (h5 c1 c2).2.2.2 c rfl
  | error e =>
    obtain ⟨e', h8, h9⟩ := h7 e h1
    simp only [Option.bind_eq_bind, Option.bind_some, h8]
    have hcode : (Code.ofError e' = .invalidLength ↔ dl % blockSize b ≠ 0) ∧
        (Code.ofError e' = .outputBufferTooSmall ↔ dl % blockSize b = 0 ∧ ol < dl) := by
      rw [h9]
      by_cases c1 : dl % blockSize b = 0
      · by_cases c2 : dl ≤ ol
        · obtain ⟨_, n1, n2, _⟩ := h5 c1 c2
          cases e with
          | invalidLength n => exact absurd rfl (n1 n)
          | outputBufferTooSmall n k => exact absurd rfl (n2 n k)
          | allocate => simp [AutoResult.code, c1, c2]
          | sizeEstimation e => simp [AutoResult.code, c1, c2]
        · have := (h4 c1 (by omega)).2.2
          simp only [Except.error.injEq] at this
          subst this
          simp [AutoResult.code, c1]; omega
      · have := (h3 c1).2.2
        simp only [Except.error.injEq] at this
        subst this
        simp [AutoResult.code, c1]
    refine ⟨_, _, rfl, hcode.1, hcode.2, ?_, ?_, ?_, fun _ => ⟨upd_self _ _ _, rfl⟩, ?_, hmem, fun q hq => upd_ne _ _ hq,
      fun q _ => rfl, rfl, rfl, rfl⟩
    · intro hm
      simp only [List.mem_cons, List.not_mem_nil, or_false, hcode.1, hcode.2] at hm
      dsimp only
      rcases hm with c1 | ⟨c1, c2⟩
      · rw [(h3 c1).1, (h3 c1).2.1, putBytes_bytesAt]; exact ⟨rfl, rfl⟩
      · rw [(h4 c1 c2).1, (h4 c1 c2).2.1, putBytes_bytesAt]; exact ⟨rfl, rfl⟩
    · cases e' <;> simp [Code.ofError]
    · intro h; cases e' <;> simp [Code.ofError] at h
    · rw [h1]
      cases e' <;> simp [Code.ofError]

/-- **C41** (C estimators): the library sees the size that the C function stored exactly if the function returned 0, and an
error with its code otherwise; what the function stored is then not looked at. -/
theorem C41_estimator (e : CEst σ) (st st' : σ) (data : Buf) (len n : Nat) (code : BitVec 32) (size : Nat) :
    (e.maxSize st len 0 = (st', code, size) →
      e.ops.maxSize st len = (st', if code = 0 then .ok size else .error code)) ∧
    (e.estimate st data n 0 = (st', code, size) →
      e.ops.estimate st data n = (st', if code = 0 then .ok size else .error code)) := by
  refine ⟨fun h => ?_, fun h => ?_⟩ <;> simp only [CEst.ops, cResult, h] <;> rfl

/-- **C41** (codes): the numbers and the messages tell the codes apart; 0 is `Success` and nothing else. -/
theorem C41_codes_distinct (x y : Code) :
    (x.toNat = y.toNat → x = y) ∧ (errorMessage b x = errorMessage b y → x = y) ∧ (x.toNat = 0 ↔ x = .success) := by
  refine ⟨?_, ?_, ?_⟩
  · cases x <;> cases y <;> simp [Code.toNat]
  · cases b <;> cases x <;> cases y <;> simp [errorMessage]
  · cases x <;> simp [Code.toNat]

/-- **C40** (overlap): the condition under which the calls are specified says exactly that no byte belongs to both buffers. -/
theorem C40_disjoint (p n q k : Nat) : disjoint p n q k = true ↔ ¬ ∃ a, (p ≤ a ∧ a < p + n) ∧ (q ≤ a ∧ a < q + k) := by
  simp only [disjoint, Bool.or_eq_true, decide_eq_true_eq]
  constructor
  · rintro h ⟨a, h1, h2⟩
    omega
  · intro h
    by_cases hpq : p ≤ q
    · have : ¬ ((p ≤ q ∧ q < p + n) ∧ (q ≤ q ∧ q < q + k)) := fun h1 => h ⟨q, h1⟩
      omega
    · have : ¬ ((p ≤ p ∧ p < p + n) ∧ (q ≤ p ∧ p < q + k)) := fun h1 => h ⟨p, h1⟩
      omega

example : disjoint 100 8 108 8 = true ∧ disjoint 108 8 100 8 = true ∧ disjoint 100 9 108 8 = false ∧ disjoint 103 0 100 8 = true := by decide

/-- **C41** (core C API, codes): the numbers tell the codes apart; 0 is `Success` and nothing else. -/
theorem C41_core_codes_distinct (x y : CoreCode) : (x.toNat = y.toNat → x = y) ∧ (x.toNat = 0 ↔ x = .success) ∧ x.toNat < 9 := by
  refine ⟨?_, ?_, ?_⟩
  · cases x <;> cases y <;> simp [CoreCode.toNat]
  · cases x <;> simp [CoreCode.toNat]
  · cases x <;> simp [CoreCode.toNat]

/-! ## The core C API -/

/-- **C41** (core C API, null pointers): the first null argument is reported and nothing is touched. -/
theorem C41_core_nulls (env : Env) (m : Machine) (s : State b σ) (i il o ol est det mode : Nat) (split useAll : Bool)
    (hmode : mode < 4) :
    (∀ f : Buf → Buf → ColourSettings → Option (Buf × Except ValidationError Unit),
      (i = 0 → coreCall f s i il o ol split mode = some (s, .nullDataPointer)) ∧
      (i ≠ 0 → o = 0 → coreCall f s i il o ol split mode = some (s, .nullOutputBufferPointer))) ∧
    (i = 0 → coreTransformAuto env m s i il o ol est useAll det = some (s, .nullDataPointer)) ∧
    (i ≠ 0 → o = 0 → coreTransformAuto env m s i il o ol est useAll det = some (s, .nullOutputBufferPointer)) ∧
    (i ≠ 0 → o ≠ 0 → est = 0 → coreTransformAuto env m s i il o ol est useAll det = some (s, .nullEstimatorPointer)) ∧
    (i ≠ 0 → o ≠ 0 → est ≠ 0 → det = 0 →
      coreTransformAuto env m s i il o ol est useAll det = some (s, .nullTransformSettingsPointer)) := by
  have hset : ∃ c, coreSettings split mode = some c := by
    match mode, hmode with
    | 0, _ => exact ⟨_, rfl⟩
    | 1, _ => exact ⟨_, rfl⟩
    | 2, _ => exact ⟨_, rfl⟩
    | 3, _ => exact ⟨_, rfl⟩
  obtain ⟨c, hc⟩ := hset
  refine ⟨fun f => ⟨fun h => ?_, fun h h' => ?_⟩, fun h => ?_, fun h h' => ?_, fun h h' h'' => ?_, fun h h' h'' h3 => ?_⟩
  · simp [coreCall, hc, h]
  · simp [coreCall, hc, h, h']
  all_goals simp [coreTransformAuto, *]

/-- The variant that the header of the core C library assigns to a number (common color_565/decorrelate.rs:72-84). -/
def coreModeOfNumber : Nat → Option Variant
  | 0 => some .none
  | 1 => some .v1
  | 2 => some .v2
  | 3 => some .v3
  | _ => none

/-- **C41** (core C API, manual): `dltbcNcore_transform` and `dltbcNcore_untransform` do what the core functions do with
the settings that the caller passed and report it. -/
theorem C41_core_result (m : Machine) (s : State b σ) {i il o ol mode : Nat} {split : Bool} {v : Variant}
    (hv : coreModeOfNumber mode = some v) (hi : i ≠ 0) (ho : o ≠ 0) (hd : disjoint i il o ol = true) :
    (∃ s' code, coreCall (coreTransform b m) s i il o ol split mode = some (s', code) ∧
      CallSpec (encode b m) (blockSize b) .invalidDataLength .outputBufferTooSmall .success ⟨v, split⟩ s s' i il o ol code) ∧
    (∃ s' code, coreCall (coreUntransform b m) s i il o ol split mode = some (s', code) ∧
      CallSpec (decode b m) (blockSize b) .invalidDataLength .outputBufferTooSmall .success ⟨v, split⟩ s s' i il o ol code) := by
  have hset : coreSettings split mode = some ⟨v, split⟩ := by
    match mode, hv with
    | 0, h => cases h; rfl
    | 1, h => cases h; rfl
    | 2, h => cases h; rfl
    | 3, h => cases h; rfl
  have key : ∀ {g : Buf → Buf → ColourSettings → Option (Buf × Except ValidationError Unit)}
      {core : Buf → Buf → Nat → ColourSettings → Option Buf}
      (_ : ∀ i o c, (i.length % blockSize b ≠ 0 → g i o c = some (o, .error (.invalidLength i.length))) ∧
        (i.length % blockSize b = 0 → o.length < i.length →
          g i o c = some (o, .error (.outputBufferTooSmall i.length o.length))) ∧
        (i.length % blockSize b = 0 → i.length ≤ o.length → ∃ out', core i o i.length c = some out' ∧
          g i o c = some (out', .ok ()) ∧ out'.length = o.length ∧ out'.drop i.length = o.drop i.length)),
      ∃ s' code, coreCall g s i il o ol split mode = some (s', code) ∧
      CallSpec core (blockSize b) .invalidDataLength .outputBufferTooSmall .success ⟨v, split⟩ s s' i il o ol code := by
    intro g core hg
    unfold coreCall
    rw [hset]
    simp only [Option.bind_eq_bind, Option.bind_some]
    rw [if_neg hi, if_neg ho, if_pos hd]
    obtain ⟨h1, h2, h3⟩ := hg (bytesAt s.mem i il) (bytesAt s.mem o ol) ⟨v, split⟩
    simp only [bytesAt_length] at h1 h2 h3
    by_cases c1 : il % blockSize b = 0
    · by_cases c2 : il ≤ ol
      · obtain ⟨out, e1, e2, e3, e4⟩ := h3 c1 c2
        simp only [Option.bind_some, e2]
        obtain ⟨e5, e6⟩ := stored s.mem o ol il out e3 c2 e4
        exact ⟨_, _, rfl, ⟨fun h => absurd c1 h, fun _ h => by omega, fun _ _ => ⟨rfl, out, e1, e5, e6, rfl⟩⟩⟩
      · simp only [Option.bind_some, h2 c1 (by omega), putBytes_bytesAt]
        exact ⟨_, _, rfl, ⟨fun h => absurd c1 h, fun _ _ => ⟨rfl, rfl⟩, fun _ h => absurd h c2⟩⟩
    · simp only [Option.bind_some, h1 c1, putBytes_bytesAt]
      exact ⟨_, _, rfl, ⟨fun _ => ⟨rfl, rfl⟩, fun h => absurd h c1, fun h => absurd h c1⟩⟩
  exact ⟨key (core_transform b m), key (core_untransform b m)⟩

/-- **C41** (core C API, automatic): as for the stable API; on success the settings are stored, on failure they are
left alone.  A failed allocation gets the code of a failed estimation. -/
theorem C41_core_auto_result (env : Env) (m : Machine) (s : State b σ) {d dl o ol est det : Nat} {useAll : Bool} {x : CEst σ}
    (hx : s.ests est = some x) (he : est ≠ 0) (hd : d ≠ 0) (ho : o ≠ 0) (hc : det ≠ 0) (hdj : disjoint d dl o ol = true) :
    ∃ s' code, coreTransformAuto env m s d dl o ol est useAll det = some (s', code) ∧
      (code = .invalidDataLength ↔ dl % blockSize b ≠ 0) ∧
      (code = .outputBufferTooSmall ↔ dl % blockSize b = 0 ∧ ol < dl) ∧
      code ∈ [CoreCode.success, .invalidDataLength, .outputBufferTooSmall, .sizeEstimationError] ∧
      (code = .success → ∃ out, encode b m (bytesAt s.mem d dl) (bytesAt s.mem o ol) dl (s'.details det) = some out ∧
        bytesAt s'.mem o dl = out.take dl) ∧
      (code ≠ .success → s'.details = s.details) ∧
      (code = .success ↔ ∃ out st c, autoSafe b env m x.ops useAll (bytesAt s.mem d dl) (bytesAt s.mem o ol) s.st =
        some (out, st, .ok c)) ∧
      (∀ q, q < o ∨ o + dl ≤ q → s'.mem q = s.mem q) ∧ (∀ q, q ≠ det → s'.details q = s.details q) ∧
      s'.manual = s.manual ∧ s'.auto = s.auto ∧ s'.ests = s.ests ∧ s'.cells = s.cells := by
  obtain ⟨out, st', r, h1, h2, h3, h4, h5⟩ :=
    auto_total b env m x.ops useAll (bytesAt s.mem d dl) (bytesAt s.mem o ol) s.st
  simp only [bytesAt_length] at h2 h3 h4 h5
  have hmem : ∀ q, q < o ∨ o + dl ≤ q → putBytes s.mem o out q = s.mem q := by
    intro q hq
    by_cases c1 : dl % blockSize b = 0
    · by_cases c2 : dl ≤ ol
      · exact (stored s.mem o ol dl out h2 c2 (h5 c1 c2).1).2 q hq
      · rw [(h4 c1 (by omega)).1, putBytes_bytesAt]
    · rw [(h3 c1).1, putBytes_bytesAt]
  have hcore := coreAuto_eq b env m x.ops useAll (bytesAt s.mem d dl) (bytesAt s.mem o ol) s.st
  rw [h1] at hcore
  unfold coreTransformAuto
  rw [if_neg hd, if_neg ho, if_neg he, if_neg hc, if_pos hdj, hx]
  cases r with
  | ok c =>
    have c1 : dl % blockSize b = 0 := by
      by_cases c1 : dl % blockSize b = 0
      · exact c1
      · have := (h3 c1).2.2; simp at this
    have c2 : dl ≤ ol := by
      by_cases c2 : dl ≤ ol
      · exact c2
      · have := (h4 c1 (by omega)).2.2; simp at this
    simp only [Option.map_some, Except.mapError] at hcore
    simp only [Option.bind_eq_bind, Option.bind_some, hcore]
    refine ⟨_, _, rfl, by simp [c1], by simp [c2], by simp, fun _ => ⟨out, ?_, bytesAt_putBytes _ _ _ (by omega)⟩,
      by simp, by simp [h1], hmem, fun q hq => upd_ne _ _ hq, rfl, rfl, rfl, rfl⟩
    dsimp only
    rw [upd_self]
    exact (h5 c1 c2).2.2.2 c rfl
  | error e =>
    simp only [Option.map_some, Except.mapError] at hcore
    simp only [Option.bind_eq_bind, Option.bind_some, hcore]
    have hcode : (e.coreCode = .invalidDataLength ↔ dl % blockSize b ≠ 0) ∧
        (e.coreCode = .outputBufferTooSmall ↔ dl % blockSize b = 0 ∧ ol < dl) := by
      by_cases c1 : dl % blockSize b = 0
      · by_cases c2 : dl ≤ ol
        · obtain ⟨_, n1, n2, _⟩ := h5 c1 c2
          cases e with
          | invalidLength n => exact absurd rfl (n1 n)
          | outputBufferTooSmall n k => exact absurd rfl (n2 n k)
          | allocate => simp [AutoResult.coreCode, c1, c2]
          | sizeEstimation e => simp [AutoResult.coreCode, c1, c2]
        · have := (h4 c1 (by omega)).2.2
          simp only [Except.error.injEq] at this
          subst this
          simp [AutoResult.coreCode, c1]; omega
      · have := (h3 c1).2.2
        simp only [Except.error.injEq] at this
        subst this
        simp [AutoResult.coreCode, c1]
    refine ⟨_, _, rfl, hcode.1, hcode.2, ?_, ?_, fun _ => rfl, ?_, hmem, fun q _ => rfl, rfl, rfl, rfl, rfl⟩
    · cases e <;> simp [AutoResult.coreCode]
    · intro h; cases e <;> simp [AutoResult.coreCode] at h
    · rw [h1]
      cases e <;> simp [AutoResult.coreCode]

end Dlt.Props
