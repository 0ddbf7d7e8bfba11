import Verif.Props.CApiRoundtrip

/-!
# C115: threads that do not share builders may call the C API in any order

The documentation of the C API says that a builder must not be shared between threads and that the LTU estimator may be
(bc1-api c_api manual_transform_builder.rs:32, bc2-api the same line, ltu c_api.rs:19-22).  Here a schedule is a sequence of
events, each with the number of its thread.  Two schedules in which every thread makes the same calls in the same order end in the
same state and give every thread the same replies, if no thread writes what another one uses.  Calls are taken as
indivisible.
-/

namespace Dlt.Props
open Dlt.CApi

variable {b : Bc} {σ : Type}

/-! ## What an event uses -/

/-- The parts of the state of a process. -/
inductive Place where
  /-- the byte at an address -/
  | byte (p : Nat)
  /-- the object at an address -/
  | object (p : Nat)
  /-- a variable for a pointer -/
  | cell (p : Nat)
  /-- what the estimators remember -/
  | estimators
  deriving DecidableEq

/-- The address is one of the `n` from `p` on. -/
def Within (p n q : Nat) : Prop := p ≤ q ∧ q < p + n

/-- What an event may change: the object it is called with to change it, the object it creates, its output.  Estimators
that can remember something may be changed by the automatic transform. -/
def Writes : Event σ → Place → Prop
  | .newManual a, .object q => q = a
  | .freeManual p, .object q => q = p ∧ p ≠ 0
  | .cloneManual p a, .object q => q = a ∧ p ≠ 0
  | .setDecorrelationMode p _, .object q => q = p ∧ p ≠ 0
  | .setSplitColourEndpoints p _, .object q => q = p ∧ p ≠ 0
  | .resetToDefaults p, .object q => q = p ∧ p ≠ 0
  | .manualTransform _ _ o ol _, .byte q => Within o ol q
  | .manualUntransform _ _ o ol _, .byte q => Within o ol q
  | .newAuto est a, .object q => q = a ∧ est ≠ 0
  | .freeAuto p, .object q => q = p ∧ p ≠ 0
  | .setUseAll p _, .object q => q = p ∧ p ≠ 0
  | .autoTransform _ _ _ o ol _ _, .byte q => Within o ol q
  | .autoTransform _ _ _ _ _ _ a, .object q => q = a
  | .autoTransform _ _ _ _ _ cell _, .cell q => q = cell
  | .autoTransform .., .estimators => Nontrivial σ
  | .newLtu _ a, .object q => q = a
  | .freeLtu p, .object q => q = p ∧ p ≠ 0
  | .write p bytes, .byte q => Within p bytes.length q
  | .writeEst p _, .object q => q = p
  | .writeCell p _, .cell q => q = p
  | _, _ => False

/-- What an event reads besides what it may change: the builder it works with, the estimator of a new builder, its
input. -/
def Consults : Event σ → Place → Prop
  | .cloneManual p _, .object q => q = p ∧ p ≠ 0
  | .manualTransform i il _ _ _, .byte q => Within i il q
  | .manualTransform _ _ _ _ p, .object q => q = p ∧ p ≠ 0
  | .manualUntransform i il _ _ _, .byte q => Within i il q
  | .manualUntransform _ _ _ _ p, .object q => q = p ∧ p ≠ 0
  | .newAuto est _, .object q => q = est ∧ est ≠ 0
  | .autoTransform _ d dl _ _ _ _, .byte q => Within d dl q
  | .autoTransform p _ _ _ _ _ _, .object q => q = p ∧ p ≠ 0
  | _, _ => False

/-- An event reads or may change it. -/
def Uses (e : Event σ) (x : Place) : Prop := Consults e x ∨ Writes e x

/-- Neither event may change what the other one uses. -/
def Unshared (e f : Event σ) : Prop := ∀ x, (Writes e x → ¬ Uses f x) ∧ (Writes f x → ¬ Uses e x)

/-- Two processes have the same at a place. -/
def SameAt (s t : State b σ) : Place → Prop
  | .byte p => s.mem p = t.mem p
  | .object p => s.manual p = t.manual p ∧ s.auto p = t.auto p ∧ s.ests p = t.ests p
  | .cell p => s.cells p = t.cells p
  | .estimators => s.st = t.st

theorem SameAt.rfl {s : State b σ} {x : Place} : SameAt s s x := by cases x <;> simp [SameAt]

theorem SameAt.symm {s t : State b σ} {x : Place} (h : SameAt s t x) : SameAt t s x := by
  cases x with
  | object p => exact ⟨h.1.symm, h.2.1.symm, h.2.2.symm⟩
  | byte p => exact Eq.symm h
  | cell p => exact Eq.symm h
  | estimators => exact Eq.symm h

theorem SameAt.trans {s t u : State b σ} {x : Place} (h : SameAt s t x) (h' : SameAt t u x) : SameAt s u x := by
  cases x with
  | object p => exact ⟨h.1.trans h'.1, h.2.1.trans h'.2.1, h.2.2.trans h'.2.2⟩
  | byte p => exact Eq.trans h h'
  | cell p => exact Eq.trans h h'
  | estimators => exact Eq.trans h h'

theorem same_everywhere {s t : State b σ} (h : ∀ x, SameAt s t x) (hd : s.details = t.details) : s = t := by
  obtain ⟨_, _, _, _, _, _, _⟩ := s
  obtain ⟨_, _, _, _, _, _, _⟩ := t
  have h1 := fun p => h (.byte p)
  have h2 := fun p => h (.object p)
  have h3 := fun p => h (.cell p)
  have h4 := h .estimators
  simp only [SameAt] at h1 h2 h3 h4 hd
  obtain rfl := funext h1
  obtain rfl := funext h3
  obtain rfl := funext fun p => (h2 p).1
  obtain rfl := funext fun p => (h2 p).2.1
  obtain rfl := funext fun p => (h2 p).2.2
  subst h4 hd
  rfl

/-! ## An event keeps to what it uses -/

/-- The event changes only what it may change, and in a process with the same at all places that it uses it has the same
reply and effect. -/
structure Contained (env : Env) (m : Machine) (e : Event σ) (s s' : State b σ) (r : Reply) : Prop where
  frame : ∀ x, ¬ Writes e x → SameAt s s' x
  details : s'.details = s.details
  copy : ∀ t : State b σ, (∀ x, Uses e x → SameAt s t x) →
    ∃ t', step env m t e = some (t', r) ∧ ∀ x, Writes e x → SameAt s' t' x

theorem contained_none {env : Env} {m : Machine} {e : Event σ} {s : State b σ} {r : Reply}
    (hw : ∀ x, ¬ Writes e x) (hc : ∀ t : State b σ, step env m t e = some (t, r)) : Contained env m e s s r :=
  ⟨fun _ _ => SameAt.rfl, rfl, fun t _ => ⟨t, hc t, fun x hx => absurd hx (hw x)⟩⟩

theorem contained_manual {env : Env} {m : Machine} {e : Event σ} {s : State b σ} {r : Reply} {p : Nat} {y : Option b.Manual}
    (hw : ∀ x, Writes e x ↔ x = .object p)
    (hc : ∀ t : State b σ, (∀ x, Uses e x → SameAt s t x) →
      step env m t e = some ({ t with manual := upd t.manual p y }, r)) :
    Contained env m e s { s with manual := upd s.manual p y } r := by
  refine ⟨fun x hx => ?_, rfl, fun t ht => ⟨_, hc t ht, fun x hx => ?_⟩⟩
  · rw [hw] at hx
    cases x with
    | object q =>
      have : q ≠ p := fun e => hx (by rw [e])
      exact ⟨(upd_ne _ _ this).symm, rfl, rfl⟩
    | _ => rfl
  · have h := ht x (.inr hx)
    rw [hw] at hx
    subst hx
    exact ⟨(upd_self _ _ _).trans (upd_self _ _ _).symm, h.2.1, h.2.2⟩

theorem contained_auto {env : Env} {m : Machine} {e : Event σ} {s : State b σ} {r : Reply} {p : Nat} {y : Option (CAuto σ)}
    (hw : ∀ x, Writes e x ↔ x = .object p)
    (hc : ∀ t : State b σ, (∀ x, Uses e x → SameAt s t x) →
      step env m t e = some ({ t with auto := upd t.auto p y }, r)) :
    Contained env m e s { s with auto := upd s.auto p y } r := by
  refine ⟨fun x hx => ?_, rfl, fun t ht => ⟨_, hc t ht, fun x hx => ?_⟩⟩
  · rw [hw] at hx
    cases x with
    | object q =>
      have : q ≠ p := fun e => hx (by rw [e])
      exact ⟨rfl, (upd_ne _ _ this).symm, rfl⟩
    | _ => rfl
  · have h := ht x (.inr hx)
    rw [hw] at hx
    subst hx
    exact ⟨h.1, (upd_self _ _ _).trans (upd_self _ _ _).symm, h.2.2⟩

theorem contained_ests {env : Env} {m : Machine} {e : Event σ} {s : State b σ} {r : Reply} {p : Nat} {y : Option (CEst σ)}
    (hw : ∀ x, Writes e x ↔ x = .object p)
    (hc : ∀ t : State b σ, (∀ x, Uses e x → SameAt s t x) →
      step env m t e = some ({ t with ests := upd t.ests p y }, r)) :
    Contained env m e s { s with ests := upd s.ests p y } r := by
  refine ⟨fun x hx => ?_, rfl, fun t ht => ⟨_, hc t ht, fun x hx => ?_⟩⟩
  · rw [hw] at hx
    cases x with
    | object q =>
      have : q ≠ p := fun e => hx (by rw [e])
      exact ⟨rfl, rfl, (upd_ne _ _ this).symm⟩
    | _ => rfl
  · have h := ht x (.inr hx)
    rw [hw] at hx
    subst hx
    exact ⟨h.1, h.2.1, (upd_self _ _ _).trans (upd_self _ _ _).symm⟩

theorem canGive_same {s t : State b σ} {a : Nat} (h : SameAt s t (.object a)) : t.canGive a = s.canGive a := by
  unfold State.canGive
  rw [h.1, h.2.1, h.2.2]

theorem put_same {mem mem' : Nat → Byte} {o : Nat} {out : Buf} {q : Nat} (h : Within o out.length q) :
    putBytes mem o out q = putBytes mem' o out q := by
  obtain ⟨i, rfl⟩ : ∃ i, q = o + i := ⟨q - o, by have := h.1; omega⟩
  have hi : i < out.length := by have := h.2; omega
  rw [putBytes_in _ _ _ hi, putBytes_in _ _ _ hi]

theorem put_frame {mem : Nat → Byte} {o : Nat} {out : Buf} {q : Nat} (h : ¬ Within o out.length q) :
    mem q = putBytes mem o out q := by
  rw [putBytes_out]
  unfold Within at h
  omega

theorem manual_length {f : b.Manual → Buf → Buf → Option (Buf × Except (BcError String) Unit)}
    {g : Buf → Buf → ColourSettings → Option (Buf × Except ValidationError Unit)}
    {core : Buf → Buf → Nat → ColourSettings → Option Buf}
    (hf : ∀ x i o, f x i o = (g i o (settings b x)).map fun r => (r.1, r.2.mapError .fromValidation))
    (hg : ∀ i o c, (i.length % blockSize b ≠ 0 → g i o c = some (o, .error (.invalidLength i.length))) ∧
      (i.length % blockSize b = 0 → o.length < i.length →
        g i o c = some (o, .error (.outputBufferTooSmall i.length o.length))) ∧
      (i.length % blockSize b = 0 → i.length ≤ o.length → ∃ out', core i o i.length c = some out' ∧
        g i o c = some (out', .ok ()) ∧ out'.length = o.length ∧ out'.drop i.length = o.drop i.length))
    {x : b.Manual} {i o out : Buf} {r : Except (BcError String) Unit} (h : f x i o = some (out, r)) :
    out.length = o.length := by
  rw [hf] at h
  obtain ⟨h1, h2, h3⟩ := hg i o (settings b x)
  by_cases c1 : i.length % blockSize b = 0
  · by_cases c2 : i.length ≤ o.length
    · obtain ⟨o', _, e2, e3, _⟩ := h3 c1 c2
      rw [e2] at h
      cases h
      exact e3
    · rw [h2 c1 (by omega)] at h
      cases h
      rfl
  · rw [h1 c1] at h
    cases h
    rfl

theorem manualCall_contained {f : b.Manual → Buf → Buf → Option (Buf × Except (BcError String) Unit)}
    (hf : ∀ {x i o out r}, f x i o = some (out, r) → out.length = o.length) {s s' : State b σ} {i il o ol p : Nat} {c : Code}
    (h : manualCall f s i il o ol p = some (s', c)) :
    (∀ q, ¬ Within o ol q → s'.mem q = s.mem q) ∧ s' = { s with mem := s'.mem } ∧
    ∀ t : State b σ, (∀ q, Within i il q ∨ Within o ol q → s.mem q = t.mem q) → (p ≠ 0 → s.manual p = t.manual p) →
      ∃ t', manualCall f t i il o ol p = some (t', c) ∧ ∀ q, Within o ol q → s'.mem q = t'.mem q := by
  unfold manualCall at h ⊢
  by_cases h1 : i = 0
  · rw [if_pos h1] at h
    cases h
    exact ⟨fun _ _ => rfl, rfl, fun t hm _ => ⟨t, by rw [if_pos h1], fun q hq => hm q (.inr hq)⟩⟩
  rw [if_neg h1] at h
  by_cases h2 : o = 0
  · rw [if_pos h2] at h
    cases h
    exact ⟨fun _ _ => rfl, rfl, fun t hm _ => ⟨t, by rw [if_neg h1, if_pos h2], fun q hq => hm q (.inr hq)⟩⟩
  rw [if_neg h2] at h
  by_cases h3 : p = 0
  · rw [if_pos h3] at h
    cases h
    exact ⟨fun _ _ => rfl, rfl, fun t hm _ => ⟨t, by rw [if_neg h1, if_neg h2, if_pos h3], fun q hq => hm q (.inr hq)⟩⟩
  rw [if_neg h3] at h
  by_cases h4 : disjoint i il o ol = true
  · rw [if_pos h4] at h
    cases hx : s.manual p with
    | none => simp [hx] at h
    | some x =>
      cases hy : f x (bytesAt s.mem i il) (bytesAt s.mem o ol) with
      | none => simp [hx, hy] at h
      | some y =>
        obtain ⟨out, r⟩ := y
        have hl : out.length = ol := by rw [hf hy, bytesAt_length]
        have key : s' = { s with mem := putBytes s.mem o out } ∧ c = (match r with
            | .ok () => Code.success
            | .error e => .ofError e) := by
          cases r with
          | error e =>
            simp only [hx, hy, Option.bind_eq_bind, Option.bind_some, Option.pure_def, Option.some.injEq, Prod.mk.injEq] at h
            exact ⟨h.1.symm, h.2.symm⟩
          | ok u =>
            simp only [hx, hy, Option.bind_eq_bind, Option.bind_some, Option.pure_def, Option.some.injEq, Prod.mk.injEq] at h
            exact ⟨h.1.symm, h.2.symm⟩
        obtain ⟨rfl, rfl⟩ := key
        refine ⟨fun q hq => (put_frame (by rw [hl]; exact hq)).symm, rfl, fun t hm hb => ?_⟩
        refine ⟨{ t with mem := putBytes t.mem o out }, ?_, fun q hq => put_same (by rw [hl]; exact hq)⟩
        have e1 : bytesAt t.mem i il = bytesAt s.mem i il :=
          bytesAt_congr fun k hk => (hm _ (.inl ⟨by omega, by omega⟩)).symm
        have e2 : bytesAt t.mem o ol = bytesAt s.mem o ol :=
          bytesAt_congr fun k hk => (hm _ (.inr ⟨by omega, by omega⟩)).symm
        rw [if_neg h1, if_neg h2, if_neg h3, if_pos h4, ← hb h3, e1, e2]
        cases r <;> simp [hy]
  · rw [if_neg h4] at h
    cases h

theorem auto_length {env : Env} {m : Machine} {x : CAuto σ} {i o out : Buf} {st st' : σ} {r}
    (h : b.autoTransform env m x.estimator.ops x.useAll i o st = some (out, st', r)) : out.length = o.length := by
  obtain ⟨o', st'', r', h1, h2, _⟩ := auto_total b env m x.estimator.ops x.useAll i o st
  obtain ⟨h3, h4⟩ := autoTransform_eq b env m x.estimator.ops x.useAll i o st o' st''
  cases r' with
  | ok k =>
    obtain ⟨_, h5, _⟩ := h3 k h1
    rw [h5] at h
    cases h
    exact h2
  | error e =>
    obtain ⟨_, h5, _⟩ := h4 e h1
    rw [h5] at h
    cases h
    exact h2

theorem manual_event {env : Env} {m : Machine} {e : Event σ}
    {f : b.Manual → Buf → Buf → Option (Buf × Except (BcError String) Unit)}
    (hf : ∀ {x i o out r}, f x i o = some (out, r) → out.length = o.length) {i il o ol p : Nat}
    (he : ∀ s : State b σ, step env m s e = (manualCall f s i il o ol p).map fun r => (r.1, .code r.2))
    (hw : ∀ x, Writes e x ↔ ∃ q, x = .byte q ∧ Within o ol q)
    (hr : ∀ q, Within i il q → Uses e (.byte q)) (hp : p ≠ 0 → Uses e (.object p))
    {s s' : State b σ} {r : Reply} (hs : step env m s e = some (s', r)) : Contained env m e s s' r := by
  rw [he] at hs
  cases hc : manualCall f s i il o ol p with
  | none => rw [hc] at hs; cases hs
  | some y =>
    obtain ⟨s1, c⟩ := y
    rw [hc] at hs
    cases hs
    obtain ⟨h1, h2, h3⟩ := manualCall_contained hf hc
    refine ⟨fun x hx => ?_, by rw [h2], fun t ht => ?_⟩
    · rw [hw] at hx
      cases x with
      | byte q => exact (h1 q fun h => hx ⟨q, rfl, h⟩).symm
      | object q => rw [h2]; exact ⟨rfl, rfl, rfl⟩
      | cell q => rw [h2]; rfl
      | estimators => rw [h2]; rfl
    · have hm : ∀ q, Within i il q ∨ Within o ol q → s.mem q = t.mem q := by
        rintro q (hq | hq)
        · exact ht (.byte q) (hr q hq)
        · exact ht (.byte q) (.inr ((hw _).2 ⟨q, rfl, hq⟩))
      obtain ⟨t', h4, h5⟩ := h3 t hm (fun h => (ht _ (hp h)).1)
      refine ⟨t', by rw [he, h4]; rfl, fun x hx => ?_⟩
      obtain ⟨q, rfl, hq⟩ := (hw x).1 hx
      exact h5 q hq

theorem auto_event {env : Env} {m : Machine} {p d dl o ol cell a : Nat} {s s' : State b σ} {r : Reply}
    (hs : step env m s (.autoTransform p d dl o ol cell a) = some (s', r)) :
    Contained env m (.autoTransform p d dl o ol cell a) s s' r := by
  simp only [step, autoTransform] at hs
  have quiet : ∀ c : Code, (∀ t : State b σ, step env m t (.autoTransform p d dl o ol cell a) = some (t, .code c)) →
      Contained env m (.autoTransform p d dl o ol cell a) s s (.code c) := fun c h =>
    ⟨fun _ _ => SameAt.rfl, rfl, fun t ht => ⟨t, h t, fun x hx => ht x (.inr hx)⟩⟩
  by_cases h1 : p = 0
  · rw [if_pos h1] at hs
    cases hs
    exact quiet _ fun t => by simp only [step, autoTransform]; rw [if_pos h1]; rfl
  rw [if_neg h1] at hs
  by_cases h2 : d = 0
  · rw [if_pos h2] at hs
    cases hs
    exact quiet _ fun t => by simp only [step, autoTransform]; rw [if_neg h1, if_pos h2]; rfl
  rw [if_neg h2] at hs
  by_cases h3 : o = 0
  · rw [if_pos h3] at hs
    cases hs
    exact quiet _ fun t => by simp only [step, autoTransform]; rw [if_neg h1, if_neg h2, if_pos h3]; rfl
  rw [if_neg h3] at hs
  by_cases h4 : cell = 0
  · rw [if_pos h4] at hs
    cases hs
    exact quiet _ fun t => by simp only [step, autoTransform]; rw [if_neg h1, if_neg h2, if_neg h3, if_pos h4]; rfl
  rw [if_neg h4] at hs
  by_cases h5 : disjoint d dl o ol = true
  swap
  · rw [if_neg h5] at hs
    cases hs
  rw [if_pos h5] at hs
  cases hx : s.auto p with
  | none => simp [hx] at hs
  | some x =>
    cases hy : b.autoTransform env m x.estimator.ops x.useAll (bytesAt s.mem d dl) (bytesAt s.mem o ol) s.st with
    | none => simp [hx, hy] at hs
    | some y =>
      obtain ⟨out, st, res⟩ := y
      have hl : out.length = ol := by rw [auto_length hy, bytesAt_length]
      have hst : ∀ t : State b σ, (∀ x, Uses (.autoTransform p d dl o ol cell a : Event σ) x → SameAt s t x) → t.st = s.st := by
        intro t ht
        by_cases hn : Nontrivial σ
        · exact (ht .estimators (.inr hn)).symm
        · rw [not_nontrivial_iff_subsingleton] at hn
          exact Subsingleton.elim _ _
      have hst' : ¬ Writes (.autoTransform p d dl o ol cell a : Event σ) .estimators → s.st = st := by
        intro hn
        have : Subsingleton σ := not_nontrivial_iff_subsingleton.1 hn
        exact Subsingleton.elim _ _
      have hmem : ∀ {mem : Nat → Byte} {q}, ¬ Writes (.autoTransform p d dl o ol cell a : Event σ) (.byte q) →
          mem q = putBytes mem o out q := fun hq => put_frame (by rw [hl]; exact hq)
      have hmem' : ∀ {mem mem' : Nat → Byte} {q}, Writes (.autoTransform p d dl o ol cell a : Event σ) (.byte q) →
          putBytes mem o out q = putBytes mem' o out q := fun hq => put_same (by rw [hl]; exact hq)
      have hrun : ∀ t : State b σ, (∀ x, Uses (.autoTransform p d dl o ol cell a : Event σ) x → SameAt s t x) →
          t.auto p = some x ∧ b.autoTransform env m x.estimator.ops x.useAll (bytesAt t.mem d dl) (bytesAt t.mem o ol) t.st =
            some (out, st, res) := by
        intro t ht
        have e1 : bytesAt t.mem d dl = bytesAt s.mem d dl :=
          bytesAt_congr fun k hk => (ht (.byte _) (.inl ⟨by omega, by omega⟩)).symm
        have e2 : bytesAt t.mem o ol = bytesAt s.mem o ol :=
          bytesAt_congr fun k hk => (ht (.byte _) (.inr ⟨by omega, by omega⟩)).symm
        exact ⟨(ht (.object p) (.inl ⟨rfl, h1⟩)).2.1.symm.trans hx, by rw [e1, e2, hst t ht]; exact hy⟩
      cases res with
      | error e =>
        simp only [hx, hy, Option.bind_eq_bind, Option.bind_some, Option.pure_def, Option.map_some, Option.some.injEq,
          Prod.mk.injEq] at hs
        obtain ⟨rfl, rfl⟩ := hs
        refine ⟨fun z hz => ?_, rfl, fun t ht => ?_⟩
        · cases z with
          | byte q => exact hmem hz
          | object q => exact ⟨rfl, rfl, rfl⟩
          | cell q => exact (upd_ne _ _ hz).symm
          | estimators => exact hst' hz
        · obtain ⟨k1, k2⟩ := hrun t ht
          refine ⟨{ t with mem := putBytes t.mem o out, st := st, cells := upd t.cells cell 0 }, ?_, fun z hz => ?_⟩
          · simp only [step, autoTransform]
            rw [if_neg h1, if_neg h2, if_neg h3, if_neg h4, if_pos h5]
            simp only [k1, k2, Option.bind_eq_bind, Option.bind_some, Option.pure_def, Option.map_some]
          · cases z with
            | byte q => exact hmem' hz
            | object q => exact ht (.object q) (.inr hz)
            | cell q =>
              obtain rfl : q = cell := hz
              exact (upd_self _ _ _).trans (upd_self _ _ _).symm
            | estimators => rfl
      | ok man =>
        simp only [hx, hy, Option.bind_eq_bind, Option.bind_some, Option.pure_def] at hs
        by_cases hg : s.canGive a = true
        swap
        · have : ({ s with mem := putBytes s.mem o out, st := st } : State b σ).canGive a = s.canGive a := rfl
          rw [this, if_neg hg] at hs
          cases hs
        have : ({ s with mem := putBytes s.mem o out, st := st } : State b σ).canGive a = s.canGive a := rfl
        rw [this, if_pos hg] at hs
        simp only [Option.map_some, Option.some.injEq, Prod.mk.injEq] at hs
        obtain ⟨rfl, rfl⟩ := hs
        refine ⟨fun z hz => ?_, rfl, fun t ht => ?_⟩
        · cases z with
          | byte q => exact hmem hz
          | object q => exact ⟨(upd_ne _ _ hz).symm, rfl, rfl⟩
          | cell q => exact (upd_ne _ _ hz).symm
          | estimators => exact hst' hz
        · obtain ⟨k1, k2⟩ := hrun t ht
          have ho := ht (.object a) (.inr rfl)
          let t' : State b σ := { t with
            mem := putBytes t.mem o out
            st := st
            manual := upd t.manual a (some man)
            cells := upd t.cells cell a }
          refine ⟨t', ?_, fun z hz => ?_⟩
          · simp only [step, autoTransform]
            rw [if_neg h1, if_neg h2, if_neg h3, if_neg h4, if_pos h5]
            simp only [k1, k2, Option.bind_eq_bind, Option.bind_some, Option.pure_def]
            have : ({ t with mem := putBytes t.mem o out, st := st } : State b σ).canGive a = s.canGive a :=
              canGive_same (t := t) ho
            rw [this, if_pos hg]
            rfl
          · cases z with
            | byte q => exact hmem' hz
            | object q =>
              obtain rfl : q = a := hz
              exact ⟨(upd_self _ _ _).trans (upd_self _ _ _).symm, ho.2.1, ho.2.2⟩
            | cell q =>
              obtain rfl : q = cell := hz
              exact (upd_self _ _ _).trans (upd_self _ _ _).symm
            | estimators => rfl

/-- Every event keeps to what it uses. -/
theorem step_contained {env : Env} {m : Machine} {e : Event σ} {s s' : State b σ} {r : Reply}
    (hs : step env m s e = some (s', r)) : Contained env m e s s' r := by
  cases e with
  | newManual a =>
    simp only [step, newManual] at hs
    by_cases hg : s.canGive a = true
    · rw [if_pos hg] at hs
      simp only [Option.map_some, Option.some.injEq, Prod.mk.injEq] at hs
      obtain ⟨rfl, rfl⟩ := hs
      refine contained_manual (fun x => by cases x <;> simp [Writes]) fun t ht => ?_
      have h := ht (.object a) (.inr rfl)
      simp only [step, newManual]
      rw [canGive_same h, if_pos hg]
      rfl
    · rw [if_neg hg] at hs
      cases hs
  | freeManual p =>
    simp only [step, freeManual] at hs
    by_cases hp : p = 0
    · rw [if_neg (not_not.2 hp)] at hs
      cases hs
      refine contained_none (fun x hx => ?_) fun t => by simp only [step, freeManual]; rw [if_neg (not_not.2 hp)]; rfl
      cases x <;> simp [Writes, hp] at hx
    · rw [if_pos hp] at hs
      cases hx : s.manual p with
      | none => simp [hx] at hs
      | some y =>
        simp only [hx, Option.bind_eq_bind, Option.bind_some, Option.pure_def, Option.map_some, Option.some.injEq,
          Prod.mk.injEq] at hs
        obtain ⟨rfl, rfl⟩ := hs
        refine contained_manual (fun x => by cases x <;> simp [Writes, hp]) fun t ht => ?_
        have h := ht (.object p) (.inr ⟨rfl, hp⟩)
        simp only [step, freeManual]
        rw [if_pos hp, ← h.1, hx]
        rfl
  | cloneManual p a =>
    simp only [step, cloneManual] at hs
    by_cases hp : p = 0
    · rw [if_pos hp] at hs
      cases hs
      refine contained_none (fun x hx => ?_) fun t => by simp only [step, cloneManual]; rw [if_pos hp]; rfl
      cases x <;> simp [Writes, hp] at hx
    · rw [if_neg hp] at hs
      cases hx : s.manual p with
      | none => simp [hx] at hs
      | some y =>
        by_cases hg : s.canGive a = true
        · simp only [hx, if_pos hg, Option.bind_eq_bind, Option.bind_some, Option.pure_def, Option.map_some,
            Option.some.injEq, Prod.mk.injEq] at hs
          obtain ⟨rfl, rfl⟩ := hs
          refine contained_manual (fun x => by cases x <;> simp [Writes, hp]) fun t ht => ?_
          have h := ht (.object p) (.inl ⟨rfl, hp⟩)
          have h' := ht (.object a) (.inr ⟨rfl, hp⟩)
          simp only [step, cloneManual]
          rw [if_neg hp, ← h.1, hx, canGive_same h']
          simp [hg]
        · simp [hx, hg] at hs
  | setDecorrelationMode p mode =>
    simp only [step, setDecorrelationMode] at hs
    cases hv : apiVariantOfRepr mode with
    | none => simp [hv] at hs
    | some v =>
      simp only [hv, Option.bind_eq_bind, Option.bind_some] at hs
      by_cases hp : p = 0
      · rw [if_pos hp] at hs
        cases hs
        refine contained_none (fun x hx => ?_) fun t => by
          simp only [step, setDecorrelationMode, hv, Option.bind_eq_bind, Option.bind_some]; rw [if_pos hp]; rfl
        cases x <;> simp [Writes, hp] at hx
      · rw [if_neg hp] at hs
        cases hx : s.manual p with
        | none => simp [hx] at hs
        | some y =>
          simp only [hx, Option.bind_some, Option.pure_def, Option.map_some, Option.some.injEq, Prod.mk.injEq] at hs
          obtain ⟨rfl, rfl⟩ := hs
          refine contained_manual (fun x => by cases x <;> simp [Writes, hp]) fun t ht => ?_
          have h := ht (.object p) (.inr ⟨rfl, hp⟩)
          simp only [step, setDecorrelationMode, hv, Option.bind_eq_bind, Option.bind_some]
          rw [if_neg hp, ← h.1, hx]
          rfl
  | setSplitColourEndpoints p split =>
    simp only [step, setSplitColourEndpoints] at hs
    by_cases hp : p = 0
    · rw [if_pos hp] at hs
      cases hs
      refine contained_none (fun x hx => ?_) fun t => by simp only [step, setSplitColourEndpoints]; rw [if_pos hp]; rfl
      cases x <;> simp [Writes, hp] at hx
    · rw [if_neg hp] at hs
      cases hx : s.manual p with
      | none => simp [hx] at hs
      | some y =>
        simp only [hx, Option.bind_eq_bind, Option.bind_some, Option.pure_def, Option.map_some, Option.some.injEq,
          Prod.mk.injEq] at hs
        obtain ⟨rfl, rfl⟩ := hs
        refine contained_manual (fun x => by cases x <;> simp [Writes, hp]) fun t ht => ?_
        have h := ht (.object p) (.inr ⟨rfl, hp⟩)
        simp only [step, setSplitColourEndpoints]
        rw [if_neg hp, ← h.1, hx]
        rfl
  | resetToDefaults p =>
    simp only [step, resetToDefaults] at hs
    by_cases hp : p = 0
    · rw [if_pos hp] at hs
      cases hs
      refine contained_none (fun x hx => ?_) fun t => by simp only [step, resetToDefaults]; rw [if_pos hp]; rfl
      cases x <;> simp [Writes, hp] at hx
    · rw [if_neg hp] at hs
      cases hx : s.manual p with
      | none => simp [hx] at hs
      | some y =>
        simp only [hx, Option.bind_eq_bind, Option.bind_some, Option.pure_def, Option.map_some, Option.some.injEq,
          Prod.mk.injEq] at hs
        obtain ⟨rfl, rfl⟩ := hs
        refine contained_manual (fun x => by cases x <;> simp [Writes, hp]) fun t ht => ?_
        have h := ht (.object p) (.inr ⟨rfl, hp⟩)
        simp only [step, resetToDefaults]
        rw [if_neg hp, ← h.1, hx]
        rfl
  | manualTransform i il o ol p =>
    exact manual_event (e := .manualTransform i il o ol p) (f := b.transform m) (fun h => manual_length (transform_eq b m) (core_transform b m) h) (fun s => rfl)
      (fun x => by cases x <;> simp [Writes]) (fun q hq => .inl hq) (fun h => .inl ⟨rfl, h⟩) hs
  | manualUntransform i il o ol p =>
    exact manual_event (e := .manualUntransform i il o ol p) (f := b.untransform m) (fun h => manual_length (untransform_eq b m) (core_untransform b m) h) (fun s => rfl)
      (fun x => by cases x <;> simp [Writes]) (fun q hq => .inl hq) (fun h => .inl ⟨rfl, h⟩) hs
  | newAuto p a =>
    simp only [step, newAuto] at hs
    by_cases hp : p = 0
    · rw [if_pos hp] at hs
      cases hs
      refine contained_none (fun x hx => ?_) fun t => by simp only [step, newAuto]; rw [if_pos hp]; rfl
      cases x <;> simp [Writes, hp] at hx
    · rw [if_neg hp] at hs
      cases hx : s.ests p with
      | none => simp [hx] at hs
      | some y =>
        by_cases hg : s.canGive a = true
        · simp only [hx, if_pos hg, Option.bind_eq_bind, Option.bind_some, Option.pure_def, Option.map_some,
            Option.some.injEq, Prod.mk.injEq] at hs
          obtain ⟨rfl, rfl⟩ := hs
          refine contained_auto (fun x => by cases x <;> simp [Writes, hp]) fun t ht => ?_
          have h := ht (.object p) (.inl ⟨rfl, hp⟩)
          have h' := ht (.object a) (.inr ⟨rfl, hp⟩)
          simp only [step, newAuto]
          rw [if_neg hp, ← h.2.2, hx, canGive_same h']
          simp [hg]
        · simp [hx, hg] at hs
  | freeAuto p =>
    simp only [step, freeAuto] at hs
    by_cases hp : p = 0
    · rw [if_neg (not_not.2 hp)] at hs
      cases hs
      refine contained_none (fun x hx => ?_) fun t => by simp only [step, freeAuto]; rw [if_neg (not_not.2 hp)]; rfl
      cases x <;> simp [Writes, hp] at hx
    · rw [if_pos hp] at hs
      cases hx : s.auto p with
      | none => simp [hx] at hs
      | some y =>
        simp only [hx, Option.bind_eq_bind, Option.bind_some, Option.pure_def, Option.map_some, Option.some.injEq,
          Prod.mk.injEq] at hs
        obtain ⟨rfl, rfl⟩ := hs
        refine contained_auto (fun x => by cases x <;> simp [Writes, hp]) fun t ht => ?_
        have h := ht (.object p) (.inr ⟨rfl, hp⟩)
        simp only [step, freeAuto]
        rw [if_pos hp, ← h.2.1, hx]
        rfl
  | setUseAll p useAll =>
    simp only [step, setUseAll] at hs
    by_cases hp : p = 0
    · rw [if_pos hp] at hs
      cases hs
      refine contained_none (fun x hx => ?_) fun t => by simp only [step, setUseAll]; rw [if_pos hp]; rfl
      cases x <;> simp [Writes, hp] at hx
    · rw [if_neg hp] at hs
      cases hx : s.auto p with
      | none => simp [hx] at hs
      | some y =>
        simp only [hx, Option.bind_eq_bind, Option.bind_some, Option.pure_def, Option.map_some, Option.some.injEq,
          Prod.mk.injEq] at hs
        obtain ⟨rfl, rfl⟩ := hs
        refine contained_auto (fun x => by cases x <;> simp [Writes, hp]) fun t ht => ?_
        have h := ht (.object p) (.inr ⟨rfl, hp⟩)
        simp only [step, setUseAll]
        rw [if_neg hp, ← h.2.1, hx]
        rfl
  | autoTransform p d dl o ol cell a => exact auto_event hs
  | newLtu lz a =>
    simp only [step, newLtu] at hs
    by_cases hg : s.canGive a = true
    · rw [if_pos hg] at hs
      simp only [Option.map_some, Option.some.injEq, Prod.mk.injEq] at hs
      obtain ⟨rfl, rfl⟩ := hs
      refine contained_ests (fun x => by cases x <;> simp [Writes]) fun t ht => ?_
      have h := ht (.object a) (.inr rfl)
      simp only [step, newLtu]
      rw [canGive_same h, if_pos hg]
      rfl
    · rw [if_neg hg] at hs
      cases hs
  | freeLtu p =>
    simp only [step, freeLtu] at hs
    by_cases hp : p = 0
    · rw [if_neg (not_not.2 hp)] at hs
      cases hs
      refine contained_none (fun x hx => ?_) fun t => by simp only [step, freeLtu]; rw [if_neg (not_not.2 hp)]; rfl
      cases x <;> simp [Writes, hp] at hx
    · rw [if_pos hp] at hs
      cases hx : s.ests p with
      | none => simp [hx] at hs
      | some y =>
        simp only [hx, Option.bind_eq_bind, Option.bind_some, Option.pure_def, Option.map_some, Option.some.injEq,
          Prod.mk.injEq] at hs
        obtain ⟨rfl, rfl⟩ := hs
        refine contained_ests (fun x => by cases x <;> simp [Writes, hp]) fun t ht => ?_
        have h := ht (.object p) (.inr ⟨rfl, hp⟩)
        simp only [step, freeLtu]
        rw [if_pos hp, ← h.2.2, hx]
        rfl
  | write p bytes =>
    simp only [step, Option.some.injEq, Prod.mk.injEq] at hs
    obtain ⟨rfl, rfl⟩ := hs
    refine ⟨fun x hx => ?_, rfl, fun t ht => ⟨_, rfl, fun x hx => ?_⟩⟩
    · cases x with
      | byte q => exact put_frame hx
      | object q => exact ⟨rfl, rfl, rfl⟩
      | _ => rfl
    · cases x with
      | byte q => exact put_same hx
      | _ => exact hx.elim
  | writeEst p e =>
    simp only [step] at hs
    by_cases hg : (p ≠ 0 && (s.manual p).isNone && (s.auto p).isNone) = true
    · rw [if_pos hg] at hs
      simp only [Option.some.injEq, Prod.mk.injEq] at hs
      obtain ⟨rfl, rfl⟩ := hs
      refine contained_ests (fun x => by cases x <;> simp [Writes]) fun t ht => ?_
      have h := ht (.object p) (.inr rfl)
      simp only [step]
      rw [← h.1, ← h.2.1, if_pos hg]
    · rw [if_neg hg] at hs
      cases hs
  | writeCell p y =>
    simp only [step, Option.some.injEq, Prod.mk.injEq] at hs
    obtain ⟨rfl, rfl⟩ := hs
    refine ⟨fun x hx => ?_, rfl, fun t ht => ⟨_, rfl, fun x hx => ?_⟩⟩
    · cases x with
      | cell q => exact (upd_ne _ _ hx).symm
      | object q => exact ⟨rfl, rfl, rfl⟩
      | _ => rfl
    · cases x with
      | cell q =>
        obtain rfl : q = p := hx
        exact (upd_self _ _ _).trans (upd_self _ _ _).symm
      | _ => exact hx.elim

/-- Two events that do not share anything can change places. -/
theorem swap {env : Env} {m : Machine} {e f : Event σ} (h : Unshared e f) {s s1 s2 : State b σ} {r1 r2 : Reply}
    (h1 : step env m s e = some (s1, r1)) (h2 : step env m s1 f = some (s2, r2)) :
    ∃ t, step env m s f = some (t, r2) ∧ step env m t e = some (s2, r1) := by
  have c1 := step_contained h1
  have c2 := step_contained h2
  obtain ⟨t1, k1, k2⟩ := c2.copy s fun x hx => (c1.frame x fun hw => (h x).1 hw hx).symm
  have c3 := step_contained k1
  obtain ⟨t2, k3, k4⟩ := c1.copy t1 fun x hx => c3.frame x fun hw => (h x).2 hw hx
  have c4 := step_contained k3
  have : t2 = s2 := by
    refine same_everywhere (fun x => ?_) (by rw [c4.details, c3.details, c2.details, c1.details])
    by_cases hf : Writes f x
    · have he : ¬ Writes e x := fun hw => (h x).1 hw (.inr hf)
      exact (c4.frame x he).symm.trans (k2 x hf).symm
    · by_cases he : Writes e x
      · exact (k4 x he).symm.trans (c2.frame x hf)
      · exact (c4.frame x he).symm.trans ((c3.frame x hf).symm.trans ((c1.frame x he).trans (c2.frame x hf)))
  subst this
  exact ⟨t1, k1, k3⟩

/-! ## Schedules -/

/-- The events of a schedule, each with the number of its thread, take a process from one state to another; every thread
gets its replies. -/
inductive Scheduled (env : Env) (m : Machine) : State b σ → List (Nat × Event σ) → List (Nat × Reply) → State b σ → Prop
  | nil {s} : Scheduled env m s [] [] s
  | cons {s s1 s' i e r w rs} : step env m s e = some (s1, r) → Scheduled env m s1 w rs s' →
      Scheduled env m s ((i, e) :: w) ((i, r) :: rs) s'

/-- What belongs to one thread. -/
def ofThread {α : Type} (i : Nat) (w : List (Nat × α)) : List (Nat × α) := w.filter fun x => x.1 = i

theorem to_front {env : Env} {m : Machine} {i : Nat} {e : Event σ} {v : List (Nat × Event σ)} {s' : State b σ} :
    ∀ {u : List (Nat × Event σ)} {s : State b σ} {rs : List (Nat × Reply)},
    (∀ x ∈ u, x.1 ≠ i ∧ Unshared x.2 e) → Scheduled env m s (u ++ (i, e) :: v) rs s' →
    ∃ rs', Scheduled env m s ((i, e) :: (u ++ v)) rs' s' ∧ ∀ j, ofThread j rs' = ofThread j rs := by
  intro u
  induction u with
  | nil => intro s rs _ h; exact ⟨rs, h, fun _ => rfl⟩
  | cons x u ih =>
    intro s rs hu h
    obtain ⟨k, f⟩ := x
    cases h with
    | cons h1 h2 =>
      rename_i s1 r rs1
      obtain ⟨rs2, h3, h4⟩ := ih (fun x hx => hu x (List.mem_cons_of_mem _ hx)) h2
      cases h3 with
      | cons h5 h6 =>
        rename_i s3 r3 rs3
        obtain ⟨hne, hun⟩ := hu (k, f) List.mem_cons_self
        obtain ⟨t, h7, h8⟩ := swap hun h1 h5
        refine ⟨(i, r3) :: (k, r) :: rs3, .cons h7 (.cons h8 h6), fun j => ?_⟩
        have h9 := h4 j
        simp only [ofThread, List.filter_cons] at h9 ⊢
        by_cases hj : i = j
        · have hk : ¬ k = j := fun h => hne (h.trans hj.symm)
          simp only [hj, hk, decide_true, decide_false, if_true, Bool.false_eq_true, if_false] at h9 ⊢
          exact h9
        · simp only [hj, decide_false, Bool.false_eq_true, if_false] at h9 ⊢
          rw [h9]

theorem first_of_thread {α : Type} {i : Nat} {x : α} : ∀ {w y : List (Nat × α)}, ofThread i w = (i, x) :: y →
    ∃ u v, w = u ++ (i, x) :: v ∧ ∀ z ∈ u, z.1 ≠ i := by
  intro w
  induction w with
  | nil => intro y h; cases h
  | cons z w ih =>
    intro y h
    by_cases hz : z.1 = i
    · simp only [ofThread, List.filter_cons, hz, decide_true, if_true, List.cons.injEq] at h
      exact ⟨[], w, by rw [h.1]; rfl, fun z hz => by cases hz⟩
    · simp only [ofThread, List.filter_cons, hz, decide_false, Bool.false_eq_true, if_false] at h
      obtain ⟨u, v, h1, h2⟩ := ih h
      refine ⟨z :: u, v, by rw [h1]; rfl, fun y hy => ?_⟩
      rcases List.mem_cons.1 hy with rfl | hy
      · exact hz
      · exact h2 y hy

/-- **C115**: threads that do not write what another one uses get the same replies and leave the same state behind, in
whatever order their calls follow each other; and if one order is within the contract then so is every other. -/
theorem C115_any_order {env : Env} {m : Machine} {s s' : State b σ} {w w' : List (Nat × Event σ)} {rs : List (Nat × Reply)}
    (h : Scheduled env m s w rs s') (hw : ∀ x ∈ w, ∀ y ∈ w, x.1 ≠ y.1 → Unshared x.2 y.2)
    (hp : ∀ i, ofThread i w = ofThread i w') :
    ∃ rs', Scheduled env m s w' rs' s' ∧ ∀ i, ofThread i rs' = ofThread i rs := by
  induction w' generalizing s w rs with
  | nil =>
    have : w = [] := by
      cases w with
      | nil => rfl
      | cons x w =>
        have := hp x.1
        simp [ofThread, List.filter_cons] at this
    subst this
    exact ⟨rs, h, fun _ => rfl⟩
  | cons x w' ih =>
    obtain ⟨i, e⟩ := x
    obtain ⟨u, v, rfl, hu⟩ := first_of_thread (x := e) (y := ofThread i w') (by
      rw [hp i]; simp [ofThread, List.filter_cons])
    obtain ⟨rs1, h1, h2⟩ := to_front (fun x hx => ⟨hu x hx, hw x (by simp [hx]) (i, e) (by simp) (hu x hx)⟩) h
    cases h1 with
    | cons h3 h4 =>
      rename_i s1 r rs2
      obtain ⟨rs3, h5, h6⟩ := ih h4 (fun x hx y hy => hw x (by
          rcases List.mem_append.1 hx with hx | hx <;> simp [hx]) y (by
          rcases List.mem_append.1 hy with hy | hy <;> simp [hy])) (fun j => by
        have := hp j
        by_cases hj : i = j
        · subst hj
          have hn : u.filter (fun x => x.1 = i) = [] := by
            rw [List.filter_eq_nil_iff]
            intro z hz
            simp [hu z hz]
          simp only [ofThread, List.filter_append, List.filter_cons, hn, decide_true, if_true, List.nil_append,
            List.cons.injEq, true_and] at this ⊢
          exact this
        · simp only [ofThread, List.filter_append, List.filter_cons, hj, decide_false, Bool.false_eq_true, if_false] at this ⊢
          exact this)
      refine ⟨(i, r) :: rs3, .cons h3 h5, fun j => ?_⟩
      rw [← h2 j]
      have := h6 j
      simp only [ofThread, List.filter_cons] at this ⊢
      rw [this]

/-! ## Concrete threads -/

/-- Two threads that share an estimator at 3000 and an input at 16: each makes an automatic builder, transforms the input to
its own output and frees the builder; the second also sets up a builder by hand. -/
def exThreads : List (Nat × Event Unit) :=
  [(1, .newAuto 3000 1000), (2, .newAuto 3000 2000), (2, .setUseAll 2000 true), (1, .autoTransform 1000 16 8 64 8 500 4000),
   (2, .newManual 6000), (2, .setDecorrelationMode 6000 1), (2, .autoTransform 2000 16 8 80 8 504 5000), (1, .freeAuto 1000),
   (2, .manualTransform 16 8 96 8 6000), (1, .manualUntransform 64 8 112 8 4000), (2, .freeAuto 2000)]

example : ∀ x ∈ exThreads, ∀ y ∈ exThreads, x.1 ≠ y.1 → Unshared x.2 y.2 := by
  have hn : ¬ Nontrivial Unit := by rw [not_nontrivial_iff_subsingleton]; infer_instance
  simp only [exThreads, List.forall_mem_cons, List.not_mem_nil, false_implies, implies_true, ne_eq, not_true_eq_false,
    and_true, true_and]
  simp (decide := true) only [forall_const]
  repeat' apply And.intro
  all_goals
    first
    | exact fun h => (h rfl).elim
    | intro z
      cases z <;> simp [Writes, Consults, Uses, Within, hn] <;> omega

/-- The process in which they run. -/
def exShared : State .bc1 Unit := { emptyProcess .bc1 with ests := upd (fun _ => none) 3000 (some (ltuC fun _ => 1)) }

theorem scheduled_of_replies {env : Env} {m : Machine} {w : List (Nat × Event σ)} : ∀ {s s' : State b σ} {rs : List Reply},
    replies env m s (w.map (·.2)) = some (rs, s') → ∃ rs', Scheduled env m s w rs' s' ∧ rs'.map (·.2) = rs := by
  induction w with
  | nil =>
    intro s s' rs h
    cases h
    exact ⟨[], .nil, rfl⟩
  | cons x w ih =>
    intro s s' rs h
    obtain ⟨i, e⟩ := x
    simp only [List.map_cons, replies] at h
    cases h1 : step env m s e with
    | none => simp [h1] at h
    | some y =>
      obtain ⟨s1, r⟩ := y
      cases h2 : replies env m s1 (w.map (·.2)) with
      | none => simp [h1, h2] at h
      | some y =>
        obtain ⟨rs2, s2⟩ := y
        simp only [h1, h2, Option.bind_eq_bind, Option.bind_some, Option.pure_def, Option.some.injEq, Prod.mk.injEq] at h
        obtain ⟨rfl, rfl⟩ := h
        obtain ⟨rs', h3, h4⟩ := ih h2
        exact ⟨(i, r) :: rs', .cons h1 h3, by rw [← h4]; rfl⟩

example : ∃ rs s', Scheduled exEnv exMachine exShared exThreads rs s' ∧ rs.map (·.2) =
    [.ptr 1000, .ptr 2000, .code .success, .code .success, .ptr 6000, .unit, .code .success, .unit, .code .success,
     .code .success, .unit] := by
  have h : (replies exEnv exMachine exShared (exThreads.map (·.2))).map (·.1) = some
    [.ptr 1000, .ptr 2000, .code .success, .code .success, .ptr 6000, .unit, .code .success, .unit, .code .success,
     .code .success, .unit] := by decide +kernel
  cases h1 : replies exEnv exMachine exShared (exThreads.map (·.2)) with
  | none => rw [h1] at h; cases h
  | some y =>
    obtain ⟨rs, s'⟩ := y
    rw [h1] at h
    obtain ⟨rs', h2, h3⟩ := scheduled_of_replies h1
    exact ⟨rs', s', h2, h3.trans (Option.some.inj h)⟩

/-- **C115** (why a builder must not be shared): one thread sets a mode, another one transforms with the same builder; what
is stored depends on the order. -/
theorem C115_shared_builder :
    (replies exEnv exMachine (emptyProcess .bc1)
      [.newManual 8, .write 16 [1, 2, 3, 4, 5, 6, 7, 8], .setDecorrelationMode 8 3, .manualTransform 16 8 32 8 8]).map
        (fun r => bytesAt r.2.mem 32 8) ≠
    (replies exEnv exMachine (emptyProcess .bc1)
      [.newManual 8, .write 16 [1, 2, 3, 4, 5, 6, 7, 8], .manualTransform 16 8 32 8 8, .setDecorrelationMode 8 3]).map
        (fun r => bytesAt r.2.mem 32 8) := by
  decide +kernel

end Dlt.Props
