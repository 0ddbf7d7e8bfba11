import Verif.Props.CApiThreads

/-!
# C116: an automatic builder works with the estimator it was made with and the flag set last
-/

namespace Dlt.Props
open Dlt.CApi

variable {b : Bc} {σ : Type}

/-- The estimator and the flag that a history, newest event first, gives to the automatic builder at `p`: the estimator that was
at the address passed when the builder was made, and the flag passed last, `false` if none was. -/
def lastAuto : List (State b σ × Event σ × Reply) → Nat → Option (CEst σ × Bool)
  | [], _ => none
  | (s, .newAuto est _, .ptr a) :: h, p => if a = p then (s.ests est).map fun e => (e, false) else lastAuto h p
  | (_, .setUseAll q useAll, _) :: h, p => if q = p then (lastAuto h p).map fun x => (x.1, useAll) else lastAuto h p
  | (_, .freeAuto q, _) :: h, p => if q = p then none else lastAuto h p
  | _ :: h, p => lastAuto h p

/-- The events that concern automatic builders. -/
def OnAuto : Event σ → Prop
  | .newAuto .. => True
  | .setUseAll .. => True
  | .freeAuto .. => True
  | _ => False

theorem auto_kept {env : Env} {m : Machine} {s s' : State b σ} {e : Event σ} {r : Reply}
    (hs : step env m s e = some (s', r)) (he : ¬ OnAuto e) : s'.auto = s.auto := by
  cases e with
  | newAuto est a => exact absurd trivial he
  | setUseAll p u => exact absurd trivial he
  | freeAuto p => exact absurd trivial he
  | newManual a =>
    simp only [step, newManual] at hs
    split at hs <;> cases hs
    rfl
  | newLtu lz a =>
    simp only [step, newLtu] at hs
    split at hs <;> cases hs
    rfl
  | freeManual p =>
    simp only [step, freeManual] at hs
    split at hs
    · cases hx : s.manual p <;> simp [hx] at hs
      rw [← hs.1]
    · cases hs; rfl
  | freeLtu p =>
    simp only [step, freeLtu] at hs
    split at hs
    · cases hx : s.ests p <;> simp [hx] at hs
      rw [← hs.1]
    · cases hs; rfl
  | cloneManual p a =>
    simp only [step, cloneManual] at hs
    split at hs
    · cases hs; rfl
    · cases hx : s.manual p with
      | none => simp [hx] at hs
      | some y =>
        by_cases hg : s.canGive a = true
        · simp [hx, hg] at hs
          rw [← hs.1]
        · simp [hx, hg] at hs
  | setDecorrelationMode p mode =>
    simp only [step, setDecorrelationMode] at hs
    cases hv : apiVariantOfRepr mode with
    | none => simp [hv] at hs
    | some v =>
      by_cases hp : p = 0
      · simp [hv, hp] at hs
        rw [← hs.1]
      · cases hx : s.manual p <;> simp [hv, hp, hx] at hs
        rw [← hs.1]
  | setSplitColourEndpoints p split =>
    simp only [step, setSplitColourEndpoints] at hs
    by_cases hp : p = 0
    · simp [hp] at hs
      rw [← hs.1]
    · cases hx : s.manual p <;> simp [hp, hx] at hs
      rw [← hs.1]
  | resetToDefaults p =>
    simp only [step, resetToDefaults] at hs
    by_cases hp : p = 0
    · simp [hp] at hs
      rw [← hs.1]
    · cases hx : s.manual p <;> simp [hp, hx] at hs
      rw [← hs.1]
  | manualTransform i il o ol p =>
    simp only [step] at hs
    obtain ⟨⟨s1, c⟩, h1, h2⟩ := Option.map_eq_some_iff.mp hs
    cases h2
    exact (manualCall_manual h1).2.1
  | manualUntransform i il o ol p =>
    simp only [step] at hs
    obtain ⟨⟨s1, c⟩, h1, h2⟩ := Option.map_eq_some_iff.mp hs
    cases h2
    exact (manualCall_manual h1).2.1
  | autoTransform p d dl o ol cell a =>
    by_cases hz : p = 0 ∨ d = 0 ∨ o = 0 ∨ cell = 0
    · simp only [step, autoTransform] at hs
      split at hs
      · cases hs; rfl
      split at hs
      · cases hs; rfl
      split at hs
      · cases hs; rfl
      split at hs
      · cases hs; rfl
      rename_i a1 a2 a3 a4
      rcases hz with h | h | h | h <;> contradiction
    · simp only [not_or] at hz
      simp only [step, autoTransform, if_neg hz.1, if_neg hz.2.1, if_neg hz.2.2.1, if_neg hz.2.2.2] at hs
      by_cases hd : disjoint d dl o ol = true
      · simp only [if_pos hd] at hs
        cases hx : s.auto p with
        | none => simp [hx] at hs
        | some x =>
          cases hy : b.autoTransform env m x.estimator.ops x.useAll (bytesAt s.mem d dl) (bytesAt s.mem o ol) s.st with
          | none => simp [hx, hy] at hs
          | some y =>
            obtain ⟨out, st, r⟩ := y
            cases r with
            | error e =>
              simp only [hx, hy, Option.bind_eq_bind, Option.bind_some, Option.pure_def, Option.map_some,
                Option.some.injEq, Prod.mk.injEq] at hs
              rw [← hs.1]
            | ok k =>
              simp only [hx, hy, Option.bind_eq_bind, Option.bind_some, Option.pure_def] at hs
              split at hs
              · simp only [Option.map_some, Option.some.injEq, Prod.mk.injEq] at hs
                rw [← hs.1]
              · cases hs
      · simp [hd] at hs
  | write p bytes => cases hs; rfl
  | writeEst p e =>
    simp only [step] at hs
    split at hs <;> cases hs
    rfl
  | writeCell p x => cases hs; rfl

theorem lastAuto_other {s : State b σ} {e : Event σ} {r : Reply} {h : List (State b σ × Event σ × Reply)} {p : Nat}
    (he : ¬ OnAuto e) : lastAuto ((s, e, r) :: h) p = lastAuto h p := by
  cases e <;> first | rfl | exact absurd trivial he

/-- **C116** (what a builder holds): after any history, every automatic builder has the estimator it was made with and the
flag that was set last. -/
theorem C116_holds_last_set {env : Env} {m : Machine} {s0 s : State b σ} {h : List (State b σ × Event σ × Reply)}
    (h0 : ∀ p, s0.auto p = none) (H : History env m s0 h s) (p : Nat) (hp : p ≠ 0) :
    (s.auto p).map (fun x => (x.estimator, x.useAll)) = lastAuto h p := by
  induction H with
  | nil => simp [h0, lastAuto]
  | @cons h s e s' r _ hs ih =>
    by_cases he : OnAuto e
    swap
    · rw [auto_kept hs he, lastAuto_other he, ih]
    cases e with
    | newAuto est a =>
      simp only [step, newAuto] at hs
      by_cases hz : est = 0
      · simp [hz] at hs
        obtain ⟨rfl, rfl⟩ := hs
        rw [lastAuto, if_neg (Ne.symm hp), ih]
      · cases hx : s.ests est with
        | none => simp [hz, hx] at hs
        | some y =>
          by_cases hg : s.canGive a = true
          · simp [hz, hx, hg] at hs
            obtain ⟨rfl, rfl⟩ := hs
            rw [lastAuto]
            by_cases ha : a = p
            · subst ha
              simp [hx, upd_self]
            · rw [if_neg ha, ← ih]
              simp [upd_ne _ _ (Ne.symm ha)]
          · simp [hz, hx, hg] at hs
    | setUseAll q u =>
      simp only [step, setUseAll] at hs
      by_cases hz : q = 0
      · simp [hz] at hs
        obtain ⟨rfl, rfl⟩ := hs
        rw [lastAuto, if_neg (fun h => hp (by rw [← h, hz])), ih]
      · cases hx : s.auto q with
        | none => simp [hz, hx] at hs
        | some y =>
          simp [hz, hx] at hs
          obtain ⟨rfl, rfl⟩ := hs
          rw [lastAuto]
          by_cases ha : q = p
          · subst ha
            rw [if_pos rfl, ← ih, hx]
            simp [upd_self]
          · rw [if_neg ha, ← ih]
            simp [upd_ne _ _ (Ne.symm ha)]
    | freeAuto q =>
      simp only [step, freeAuto] at hs
      by_cases hz : q = 0
      · simp [hz] at hs
        obtain ⟨rfl, rfl⟩ := hs
        rw [lastAuto, if_neg (fun h => hp (by rw [← h, hz])), ih]
      · cases hx : s.auto q with
        | none => simp [hz, hx] at hs
        | some y =>
          simp [hz, hx] at hs
          obtain ⟨rfl, rfl⟩ := hs
          rw [lastAuto]
          by_cases ha : q = p
          · subst ha
            simp [upd_self]
          · rw [if_neg ha, ← ih]
            simp [upd_ne _ _ (Ne.symm ha)]
    | _ => exact he.elim

/-- **C116** (transform): a call of `Transform` with a builder of which the history says that it was made with estimator `e`
and that `useAll` was set last does what the automatic core function does with them: the same bytes, the same
state of the estimator and the same result, and on success the new builder has the settings that it reports. -/
theorem C116_transform_uses_last_set {env : Env} {m : Machine} {s0 s : State b σ} {h : List (State b σ × Event σ × Reply)}
    (h0 : ∀ p, s0.auto p = none) (H : History env m s0 h s) {p : Nat} (hp : p ≠ 0) {e : CEst σ} {useAll : Bool}
    (hl : lastAuto h p = some (e, useAll)) {d dl o ol cell a : Nat} (hd : d ≠ 0) (ho : o ≠ 0) (hc : cell ≠ 0)
    (hj : disjoint d dl o ol = true) (ha : s.canGive a = true) :
    ∃ out st r s' code,
      autoSafe b env m e.ops useAll (bytesAt s.mem d dl) (bytesAt s.mem o ol) s.st = some (out, st, r) ∧
      autoTransform env m s p d dl o ol cell a = some (s', code) ∧
      s'.mem = putBytes s.mem o out ∧ s'.st = st ∧
      (∀ c, r = .ok c → code = .success ∧ s'.cells cell = a ∧ (s'.manual a).map (settings b) = some c) ∧
      (∀ x, r = .error x → code = x.code ∧ s'.cells cell = 0 ∧ s'.manual = s.manual) := by
  have h1 := C116_holds_last_set h0 H p hp
  rw [hl] at h1
  obtain ⟨x, hx, hxe⟩ := Option.map_eq_some_iff.mp h1
  cases hxe
  obtain ⟨out, st, r, h2, _⟩ := auto_total b env m x.estimator.ops x.useAll (bytesAt s.mem d dl) (bytesAt s.mem o ol) s.st
  obtain ⟨h3, h4⟩ := autoTransform_eq b env m x.estimator.ops x.useAll (bytesAt s.mem d dl) (bytesAt s.mem o ol) s.st out st
  cases r with
  | ok c =>
    obtain ⟨y, h5, h6⟩ := h3 c h2
    refine ⟨out, st, _, { s with
      mem := putBytes s.mem o out
      st := st
      manual := upd s.manual a (some y)
      cells := upd s.cells cell a }, .success, h2, ?_, rfl, rfl, ?_, fun x hx => by cases hx⟩
    · unfold autoTransform
      rw [if_neg hp, if_neg hd, if_neg ho, if_neg hc, if_pos hj]
      simp only [hx, h5, Option.bind_eq_bind, Option.bind_some, Option.pure_def]
      have : ({ s with mem := putBytes s.mem o out, st := st } : State b σ).canGive a = s.canGive a := rfl
      rw [this, if_pos ha]
    · rintro c' hc'
      cases hc'
      refine ⟨rfl, upd_self _ _ _, ?_⟩
      show (upd s.manual a (some y) a).map (settings b) = _
      rw [upd_self, ← h6]
      rfl
  | error e =>
    obtain ⟨e', h5, h6⟩ := h4 e h2
    refine ⟨out, st, _, { s with
      mem := putBytes s.mem o out
      st := st
      cells := upd s.cells cell 0 }, .ofError e', h2, ?_, rfl, rfl, (fun c hc => by cases hc), ?_⟩
    · unfold autoTransform
      rw [if_neg hp, if_neg hd, if_neg ho, if_neg hc, if_pos hj]
      simp only [hx, h5, Option.bind_eq_bind, Option.bind_some, Option.pure_def]
    · rintro x' hx'
      cases hx'
      exact ⟨h6, upd_self _ _ _, rfl⟩

/-- A builder that is made, set to `true` and to `false` again, while the estimator that it was made with is freed. -/
example : lastAuto (b := .bc1) (σ := Unit)
    [(exShared, .setUseAll 8 false, .code .success), (exShared, .freeLtu 3000, .unit),
     (exShared, .setUseAll 8 true, .code .success), (exShared, .newAuto 3000 8, .ptr 8)] 8 = some (ltuC fun _ => 1, false) := by
  simp [lastAuto, exShared, upd]

end Dlt.Props
