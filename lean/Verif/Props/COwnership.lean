import Verif.Props.CApi
/-!
# C105: who owns what in the C API

Each call that hands out a builder or an estimator hands out one object, each call that takes one back releases it, and no
other call creates or releases anything.
-/

namespace Dlt.Props

open Dlt.CApi

variable {b : Bc} {σ : Type}

/-! ## Specification -/

/-- The kinds of object that the library allocates for the caller. -/
inductive Object where
  | manual | auto | estimator
  deriving DecidableEq, Repr

/-- 1 if there is an object of the kind at the address, otherwise 0. -/
def live (s : State b σ) : Object → Nat → Nat
  | .manual, p => if (s.manual p).isSome then 1 else 0
  | .auto, p => if (s.auto p).isSome then 1 else 0
  | .estimator, p => if (s.ests p).isSome then 1 else 0

/-- What the caller got from an event with reply `r` after which the state is `s'`: the pointer returned, unless it is null; after a
successful automatic transform the pointer stored in the caller's variable. -/
def handed (s' : State b σ) : Event σ → Reply → List (Object × Nat)
  | .newManual _, .ptr p => if p = 0 then [] else [(.manual, p)]
  | .cloneManual _ _, .ptr p => if p = 0 then [] else [(.manual, p)]
  | .newAuto _ _, .ptr p => if p = 0 then [] else [(.auto, p)]
  | .newLtu _ _, .ptr p => if p = 0 then [] else [(.estimator, p)]
  | .autoTransform _ _ _ _ _ cell _, .code .success => [(.manual, s'.cells cell)]
  | _, _ => []

/-- What the caller gave back. -/
def returned : Event σ → List (Object × Nat)
  | .freeManual p => if p = 0 then [] else [(.manual, p)]
  | .freeAuto p => if p = 0 then [] else [(.auto, p)]
  | .freeLtu p => if p = 0 then [] else [(.estimator, p)]
  | _ => []

/-- Everything the caller got in a history that ends in state `s`. -/
def allHanded : List (State b σ × Event σ × Reply) → State b σ → List (Object × Nat)
  | [], _ => []
  | (s, e, r) :: h, s' => handed s' e r ++ allHanded h s

/-- Everything the caller gave back. -/
def allReturned (h : List (State b σ × Event σ × Reply)) : List (Object × Nat) := h.flatMap fun x => returned x.2.1

/-! ## One event -/

/-- An automatic transform changes at most the manual builders, and stores the new one in the variable. -/
theorem auto_effect {env : Env} {m : Machine} {s s' : State b σ} {p d dl o ol cell a : Nat} {c : Code}
    (h : autoTransform env m s p d dl o ol cell a = some (s', c)) :
    s'.auto = s.auto ∧ s'.ests = s.ests ∧
    ((c ≠ .success ∧ s'.manual = s.manual) ∨
     (c = .success ∧ a ≠ 0 ∧ s.manual a = none ∧ s'.cells cell = a ∧ ∃ x, s'.manual = upd s.manual a (some x))) := by
  unfold autoTransform at h
  split at h
  · cases h; exact ⟨rfl, rfl, .inl ⟨by simp, rfl⟩⟩
  split at h
  · cases h; exact ⟨rfl, rfl, .inl ⟨by simp, rfl⟩⟩
  split at h
  · cases h; exact ⟨rfl, rfl, .inl ⟨by simp, rfl⟩⟩
  split at h
  · cases h; exact ⟨rfl, rfl, .inl ⟨by simp, rfl⟩⟩
  split at h
  · cases hm : s.auto p with
    | none => simp [hm] at h
    | some x =>
      simp only [hm, Option.bind_eq_bind, Option.bind_some, Option.pure_def] at h
      cases hr : b.autoTransform env m x.estimator.ops x.useAll (bytesAt s.mem d dl) (bytesAt s.mem o ol) s.st with
      | none => simp [hr] at h
      | some y =>
        obtain ⟨out, st, r⟩ := y
        simp only [hr, Option.bind_some] at h
        cases r with
        | error e =>
          simp only [Option.some.injEq, Prod.mk.injEq] at h
          obtain ⟨rfl, rfl⟩ := h
          exact ⟨rfl, rfl, .inl ⟨by cases e <;> simp [Code.ofError], rfl⟩⟩
        | ok k =>
          dsimp only at h
          split at h
          · rename_i hg
            rw [canGive_iff] at hg
            simp only [Option.some.injEq, Prod.mk.injEq] at h
            obtain ⟨rfl, rfl⟩ := h
            exact ⟨rfl, rfl, .inr ⟨rfl, hg.1, hg.2.1, upd_self _ _ _, k, rfl⟩⟩
          · simp at h
  · simp at h

theorem live_eq {s s' : State b σ} (h1 : s'.manual = s.manual) (h2 : s'.auto = s.auto) (h3 : s'.ests = s.ests) (k : Object)
    (x : Nat) : live s' k x = live s k x := by
  cases k <;> simp [live, h1, h2, h3]

/-- The balance of one event. -/
theorem own_step {env : Env} {m : Machine} {s s' : State b σ} {e : Event σ} {r : Reply} (k : Object) (x : Nat)
    (hw : k = .estimator → ∀ est, e ≠ .writeEst x est) (hs : step env m s e = some (s', r)) :
    (handed s' e r).count (k, x) + live s k x = (returned e).count (k, x) + live s' k x := by
  have none_changed : handed s' e r = [] → returned e = [] → s'.manual = s.manual → s'.auto = s.auto → s'.ests = s.ests →
      (handed s' e r).count (k, x) + live s k x = (returned e).count (k, x) + live s' k x := by
    intro h1 h2 h3 h4 h5
    rw [h1, h2, live_eq h3 h4 h5]
  cases e with
  | newManual a =>
    simp only [step, newManual] at hs
    split at hs
    · rename_i hg
      rw [canGive_iff] at hg
      simp only [Option.map_some, Option.some.injEq, Prod.mk.injEq] at hs
      obtain ⟨rfl, rfl⟩ := hs
      by_cases hx : a = x
      · subst hx; cases k <;> simp [handed, returned, live, hg, upd]
      · cases k <;> simp [handed, returned, live, hg, upd, eq_comm (a := x), hx]
    · simp at hs
  | freeManual q =>
    simp only [step, freeManual] at hs
    split at hs
    · rename_i hq
      cases hy : s.manual q with
      | none => simp [hy] at hs
      | some y =>
        simp only [hy, Option.bind_eq_bind, Option.bind_some, Option.pure_def, Option.map_some, Option.some.injEq, Prod.mk.injEq] at hs
        obtain ⟨rfl, rfl⟩ := hs
        by_cases hx : q = x
        · subst hx; cases k <;> simp [handed, returned, live, hy, hq, upd]
        · cases k <;> simp [handed, returned, live, hy, hq, upd, eq_comm (a := x), hx]
    · rename_i hq
      simp only [ne_eq, Decidable.not_not] at hq
      simp only [Option.map_some, Option.some.injEq, Prod.mk.injEq] at hs
      obtain ⟨rfl, rfl⟩ := hs
      exact none_changed rfl (by simp [returned, hq]) rfl rfl rfl
  | cloneManual q a =>
    simp only [step, cloneManual] at hs
    split at hs
    · simp only [Option.map_some, Option.some.injEq, Prod.mk.injEq] at hs
      obtain ⟨rfl, rfl⟩ := hs
      exact none_changed rfl rfl rfl rfl rfl
    · cases hy : s.manual q with
      | none => simp [hy] at hs
      | some y =>
        simp only [hy, Option.bind_eq_bind, Option.bind_some, Option.pure_def] at hs
        split at hs
        · rename_i hg
          rw [canGive_iff] at hg
          simp only [Option.map_some, Option.some.injEq, Prod.mk.injEq] at hs
          obtain ⟨rfl, rfl⟩ := hs
          by_cases hx : a = x
          · subst hx; cases k <;> simp [handed, returned, live, hg, upd]
          · cases k <;> simp [handed, returned, live, hg, upd, eq_comm (a := x), hx]
        · simp at hs
  | setDecorrelationMode q mode =>
    simp only [step, setDecorrelationMode] at hs
    cases hv : apiVariantOfRepr mode with
    | none => simp [hv] at hs
    | some v =>
      simp only [hv, Option.bind_eq_bind, Option.bind_some] at hs
      split at hs
      · simp only [Option.pure_def, Option.map_some, Option.some.injEq, Prod.mk.injEq] at hs
        obtain ⟨rfl, rfl⟩ := hs
        exact none_changed rfl rfl rfl rfl rfl
      · cases hy : s.manual q with
        | none => simp [hy] at hs
        | some y =>
          simp only [hy, Option.bind_some, Option.pure_def, Option.map_some, Option.some.injEq, Prod.mk.injEq] at hs
          obtain ⟨rfl, rfl⟩ := hs
          by_cases hx : q = x
          · subst hx; cases k <;> simp [handed, returned, live, hy, upd]
          · cases k <;> simp [handed, returned, live, hy, upd, eq_comm (a := x), hx]
  | setSplitColourEndpoints q c =>
    simp only [step, setSplitColourEndpoints] at hs
    split at hs
    · simp only [Option.map_some, Option.some.injEq, Prod.mk.injEq] at hs
      obtain ⟨rfl, rfl⟩ := hs
      exact none_changed rfl rfl rfl rfl rfl
    · cases hy : s.manual q with
      | none => simp [hy] at hs
      | some y =>
        simp only [hy, Option.bind_eq_bind, Option.bind_some, Option.pure_def, Option.map_some, Option.some.injEq, Prod.mk.injEq] at hs
        obtain ⟨rfl, rfl⟩ := hs
        by_cases hx : q = x
        · subst hx; cases k <;> simp [handed, returned, live, hy, upd]
        · cases k <;> simp [handed, returned, live, hy, upd, eq_comm (a := x), hx]
  | resetToDefaults q =>
    simp only [step, resetToDefaults] at hs
    split at hs
    · simp only [Option.map_some, Option.some.injEq, Prod.mk.injEq] at hs
      obtain ⟨rfl, rfl⟩ := hs
      exact none_changed rfl rfl rfl rfl rfl
    · cases hy : s.manual q with
      | none => simp [hy] at hs
      | some y =>
        simp only [hy, Option.bind_eq_bind, Option.bind_some, Option.pure_def, Option.map_some, Option.some.injEq, Prod.mk.injEq] at hs
        obtain ⟨rfl, rfl⟩ := hs
        by_cases hx : q = x
        · subst hx; cases k <;> simp [handed, returned, live, hy, upd]
        · cases k <;> simp [handed, returned, live, hy, upd, eq_comm (a := x), hx]
  | manualTransform i il o ol p =>
    simp only [step, manualTransform, Option.map_eq_some_iff] at hs
    obtain ⟨⟨s1, c⟩, h1, h2⟩ := hs
    simp only [Prod.mk.injEq] at h2
    obtain ⟨rfl, rfl⟩ := h2
    obtain ⟨h3, h4, h5⟩ := manualCall_manual h1
    exact none_changed rfl rfl h3 h4 h5
  | manualUntransform i il o ol p =>
    simp only [step, manualUntransform, Option.map_eq_some_iff] at hs
    obtain ⟨⟨s1, c⟩, h1, h2⟩ := hs
    simp only [Prod.mk.injEq] at h2
    obtain ⟨rfl, rfl⟩ := h2
    obtain ⟨h3, h4, h5⟩ := manualCall_manual h1
    exact none_changed rfl rfl h3 h4 h5
  | newAuto est a =>
    simp only [step, newAuto] at hs
    split at hs
    · simp only [Option.map_some, Option.some.injEq, Prod.mk.injEq] at hs
      obtain ⟨rfl, rfl⟩ := hs
      exact none_changed rfl rfl rfl rfl rfl
    · cases hy : s.ests est with
      | none => simp [hy] at hs
      | some y =>
        simp only [hy, Option.bind_eq_bind, Option.bind_some, Option.pure_def] at hs
        split at hs
        · rename_i hg
          rw [canGive_iff] at hg
          simp only [Option.map_some, Option.some.injEq, Prod.mk.injEq] at hs
          obtain ⟨rfl, rfl⟩ := hs
          by_cases hx : a = x
          · subst hx; cases k <;> simp [handed, returned, live, hg, upd]
          · cases k <;> simp [handed, returned, live, hg, upd, eq_comm (a := x), hx]
        · simp at hs
  | freeAuto q =>
    simp only [step, freeAuto] at hs
    split at hs
    · rename_i hq
      cases hy : s.auto q with
      | none => simp [hy] at hs
      | some y =>
        simp only [hy, Option.bind_eq_bind, Option.bind_some, Option.pure_def, Option.map_some, Option.some.injEq, Prod.mk.injEq] at hs
        obtain ⟨rfl, rfl⟩ := hs
        by_cases hx : q = x
        · subst hx; cases k <;> simp [handed, returned, live, hy, hq, upd]
        · cases k <;> simp [handed, returned, live, hy, hq, upd, eq_comm (a := x), hx]
    · rename_i hq
      simp only [ne_eq, Decidable.not_not] at hq
      simp only [Option.map_some, Option.some.injEq, Prod.mk.injEq] at hs
      obtain ⟨rfl, rfl⟩ := hs
      exact none_changed rfl (by simp [returned, hq]) rfl rfl rfl
  | setUseAll q c =>
    simp only [step, setUseAll] at hs
    split at hs
    · simp only [Option.map_some, Option.some.injEq, Prod.mk.injEq] at hs
      obtain ⟨rfl, rfl⟩ := hs
      exact none_changed rfl rfl rfl rfl rfl
    · cases hy : s.auto q with
      | none => simp [hy] at hs
      | some y =>
        simp only [hy, Option.bind_eq_bind, Option.bind_some, Option.pure_def, Option.map_some, Option.some.injEq, Prod.mk.injEq] at hs
        obtain ⟨rfl, rfl⟩ := hs
        by_cases hx : q = x
        · subst hx; cases k <;> simp [handed, returned, live, hy, upd]
        · cases k <;> simp [handed, returned, live, hy, upd, eq_comm (a := x), hx]
  | autoTransform p d dl o ol cell a =>
    simp only [step, Option.map_eq_some_iff] at hs
    obtain ⟨⟨s1, c⟩, h1, h2⟩ := hs
    simp only [Prod.mk.injEq] at h2
    obtain ⟨rfl, rfl⟩ := h2
    obtain ⟨h4, h5, h6⟩ := auto_effect h1
    rcases h6 with ⟨h6, h7⟩ | ⟨rfl, h6, h7, h8, y, h9⟩
    · exact none_changed (by cases c <;> first | rfl | exact absurd rfl h6) rfl h7 h4 h5
    · by_cases hx : a = x
      · subst hx; cases k <;> simp [handed, returned, live, h4, h5, h7, h8, h9, upd]
      · cases k <;> simp [handed, returned, live, h4, h5, h7, h8, h9, upd, eq_comm (a := x), hx]
  | newLtu lz a =>
    simp only [step, newLtu] at hs
    split at hs
    · rename_i hg
      rw [canGive_iff] at hg
      simp only [Option.map_some, Option.some.injEq, Prod.mk.injEq] at hs
      obtain ⟨rfl, rfl⟩ := hs
      by_cases hx : a = x
      · subst hx; cases k <;> simp [handed, returned, live, hg, upd]
      · cases k <;> simp [handed, returned, live, hg, upd, eq_comm (a := x), hx]
    · simp at hs
  | freeLtu q =>
    simp only [step, freeLtu] at hs
    split at hs
    · rename_i hq
      cases hy : s.ests q with
      | none => simp [hy] at hs
      | some y =>
        simp only [hy, Option.bind_eq_bind, Option.bind_some, Option.pure_def, Option.map_some, Option.some.injEq, Prod.mk.injEq] at hs
        obtain ⟨rfl, rfl⟩ := hs
        by_cases hx : q = x
        · subst hx; cases k <;> simp [handed, returned, live, hy, hq, upd]
        · cases k <;> simp [handed, returned, live, hy, hq, upd, eq_comm (a := x), hx]
    · rename_i hq
      simp only [ne_eq, Decidable.not_not] at hq
      simp only [Option.map_some, Option.some.injEq, Prod.mk.injEq] at hs
      obtain ⟨rfl, rfl⟩ := hs
      exact none_changed rfl (by simp [returned, hq]) rfl rfl rfl
  | write p bs =>
    simp only [step, Option.some.injEq, Prod.mk.injEq] at hs
    obtain ⟨rfl, rfl⟩ := hs
    exact none_changed rfl rfl rfl rfl rfl
  | writeEst q est =>
    simp only [step] at hs
    split at hs
    · simp only [Option.some.injEq, Prod.mk.injEq] at hs
      obtain ⟨rfl, rfl⟩ := hs
      cases k
      · simp [handed, returned, live]
      · simp [handed, returned, live]
      · have hx : x ≠ q := fun e => hw rfl est (by rw [e])
        simp [handed, returned, live, upd, hx]
    · simp at hs
  | writeCell p y =>
    simp only [step, Option.some.injEq, Prod.mk.injEq] at hs
    obtain ⟨rfl, rfl⟩ := hs
    exact none_changed rfl rfl rfl rfl rfl

/-! ## Histories -/

/-- **C105**.  In every history and for every address, what was there at the beginning and what the caller got is what the caller gave back
and what is there at the end.  (An estimator structure which the caller writes is the caller's own.) -/
theorem C105_balance {env : Env} {m : Machine} {s0 s : State b σ} {h : List (State b σ × Event σ × Reply)}
    (H : History env m s0 h s) (k : Object) (x : Nat)
    (hw : k = .estimator → ∀ y ∈ h, ∀ est, y.2.1 ≠ .writeEst x est) :
    (allHanded h s).count (k, x) + live s0 k x = (allReturned h).count (k, x) + live s k x := by
  induction H with
  | nil => simp [allHanded, allReturned]
  | @cons h s e s' r H hs ih =>
    have ih := ih fun hk y hy => hw hk y (List.mem_cons_of_mem _ hy)
    have h1 := own_step k x (fun hk est => hw hk _ List.mem_cons_self est) hs
    simp only [allHanded, allReturned, List.flatMap_cons, List.count_append] at *
    omega

/-- **C105**: nothing is left.  A caller who began with nothing and gave back each builder as often as it got it
leaves no builder behind. -/
theorem C105_no_leak {env : Env} {m : Machine} {s0 s : State b σ} {h : List (State b σ × Event σ × Reply)}
    (H : History env m s0 h s) (h0 : ∀ p, s0.manual p = none ∧ s0.auto p = none)
    (hb : ∀ p, (allReturned h).count (.manual, p) = (allHanded h s).count (.manual, p) ∧
      (allReturned h).count (.auto, p) = (allHanded h s).count (.auto, p)) :
    ∀ p, s.manual p = none ∧ s.auto p = none := by
  intro p
  have h1 := C105_balance H .manual p (by simp)
  have h2 := C105_balance H .auto p (by simp)
  simp only [live, h0 p, Option.isSome_none] at h1 h2
  obtain ⟨b1, b2⟩ := hb p
  constructor
  · cases hm : s.manual p with
    | none => rfl
    | some y => rw [hm] at h1; simp at h1; omega
  · cases hm : s.auto p with
    | none => rfl
    | some y => rw [hm] at h2; simp at h2; omega

/-- **C105**: when giving back is allowed.  Exactly the pointers that the caller got more often than it gave them back can be
given back; giving back another one (a second time, say) is undefined behaviour. -/
theorem C105_free_iff {env : Env} {m : Machine} {s0 s : State b σ} {h : List (State b σ × Event σ × Reply)}
    (H : History env m s0 h s) (h0 : ∀ p, s0.manual p = none ∧ s0.auto p = none) (p : Nat) (hp : p ≠ 0) :
    ((step env m s (.freeManual p)).isSome ↔ (allReturned h).count (.manual, p) < (allHanded h s).count (.manual, p)) ∧
    ((step env m s (.freeAuto p)).isSome ↔ (allReturned h).count (.auto, p) < (allHanded h s).count (.auto, p)) := by
  have h1 := C105_balance H .manual p (by simp)
  have h2 := C105_balance H .auto p (by simp)
  simp only [live, h0 p, Option.isSome_none] at h1 h2
  constructor
  · cases hm : s.manual p with
    | none => rw [hm] at h1; simp at h1; simp [step, freeManual, hp, hm]; omega
    | some y => rw [hm] at h1; simp at h1; simp [step, freeManual, hp, hm]; omega
  · cases hm : s.auto p with
    | none => rw [hm] at h2; simp at h2; simp [step, freeAuto, hp, hm]; omega
    | some y => rw [hm] at h2; simp at h2; simp [step, freeAuto, hp, hm]; omega

/-! ## A concrete history -/

/-- Nothing allocated, memory full of zeros. -/
def nothingAllocated : State .bc1 Unit := ⟨fun _ => 0, fun _ => none, fun _ => none, fun _ => none, fun _ => 0, fun _ => ⟨.none, false⟩, ()⟩

/-- A builder is made, cloned, the original given back; then the clone is live, the original cannot be given back again, and
after the clone is given back too nothing is left. -/
example (env : Env) (m : Machine) : ∃ s1 s2 s3 s4,
    History env m nothingAllocated
      [(s3, .freeManual 200, .unit), (s2, .freeManual 100, .unit), (s1, .cloneManual 100 200, .ptr 200),
        (nothingAllocated, .newManual 100, .ptr 100)] s4 ∧
    live s3 .manual 200 = 1 ∧ live s3 .manual 100 = 0 ∧ step env m s3 (.freeManual 100) = none ∧
    allHanded [(s3, .freeManual 200, .unit), (s2, .freeManual 100, .unit), (s1, .cloneManual 100 200, .ptr 200),
        (nothingAllocated, .newManual 100, .ptr 100)] s4 = [(.manual, 200), (.manual, 100)] := by
  refine ⟨_, _, _, _, .cons (.cons (.cons (.cons .nil rfl) rfl) rfl) rfl, rfl, rfl, rfl, rfl⟩

end Dlt.Props
