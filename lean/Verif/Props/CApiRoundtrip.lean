import Verif.Props.CApi
/-!
# C61, C62: round trips through the C API and the LTU estimator
-/

namespace Dlt.Props

open Dlt.CApi

variable {b : Bc} {σ σ' : Type}

/-! ## C61 -/

/-- An `Untransform` with the settings with which the data was transformed gives back the data. -/
theorem untransform_restores {m m' : Machine} (hm : m.endian = m'.endian) {orig outb out : Buf} {c : ColourSettings}
    {n : Nat} (hn : orig.length = n) (h8 : n % blockSize b = 0) (hl : n ≤ outb.length)
    (he : encode b m orig outb n c = some out) {buf : Buf} (hb : n ≤ buf.length) :
    ∃ u, decode b m' (out.take n) buf n c = some u ∧ u.take n = orig := by
  subst hn
  exact core_roundtrip b m m' hm c orig outb buf out h8 hl hb he

/-- **C61** (manual): if `Transform` reports success, then `Untransform` of what it stored, in the same or another
process on a machine of the same byte order, with a builder that holds the same settings and a buffer with enough room, reports
success and stores the original bytes. -/
theorem C61_manual_roundtrip {m m' : Machine} (hm : m.endian = m'.endian) {s s1 : State b σ} {i n o ol p : Nat}
    {x : b.Manual} (hx : s.manual p = some x) (h : manualTransform m s i n o ol p = some (s1, .success))
    {s2 : State b σ'} {i' o' ol' p' : Nat} {y : b.Manual} (hy : s2.manual p' = some y)
    (hs : settings b y = settings b x) (hdata : bytesAt s2.mem i' n = bytesAt s1.mem o n)
    (hi' : i' ≠ 0) (ho' : o' ≠ 0) (hp' : p' ≠ 0) (hd' : disjoint i' n o' ol' = true) (hl' : n ≤ ol') :
    ∃ s3, manualUntransform m' s2 i' n o' ol' p' = some (s3, .success) ∧ bytesAt s3.mem o' n = bytesAt s.mem i n := by
  have hi : i ≠ 0 := fun e => by
    rw [((C41_manual_nulls m s i n o ol p).1 e).1] at h; simp at h
  have ho : o ≠ 0 := fun e => by
    rw [((C41_manual_nulls m s i n o ol p).2.1 hi e).1] at h; simp at h
  have hp : p ≠ 0 := fun e => by
    rw [((C41_manual_nulls m s i n o ol p).2.2 hi ho e).1] at h; simp at h
  have hd : disjoint i n o ol = true := by
    unfold manualTransform manualCall at h
    rw [if_neg hi, if_neg ho, if_neg hp] at h
    split at h
    · assumption
    · simp at h
  obtain ⟨⟨s1', code, h1, h2, _, h3⟩, _⟩ := C41_manual_result m s hx hp hi ho hd
  rw [h, Option.some.injEq, Prod.mk.injEq] at h1
  obtain ⟨rfl, rfl⟩ := h1
  obtain ⟨c1, c2⟩ := h2.mp rfl
  obtain ⟨_, out, e1, e2, _⟩ := h3.done c1 c2
  obtain ⟨_, ⟨s3, code, g1, g2, _, g3⟩⟩ := C41_manual_result m' s2 hy hp' hi' ho' hd'
  obtain ⟨rfl, u, f1, f2, _⟩ := g3.done c1 hl'
  refine ⟨s3, g1, ?_⟩
  obtain ⟨u', k1, k2⟩ := untransform_restores hm (bytesAt_length s.mem i n) c1 (by rw [bytesAt_length]; exact c2) e1
    (buf := bytesAt s2.mem o' ol') (by rw [bytesAt_length]; exact hl')
  rw [hdata, e2, hs, k1, Option.some.injEq] at f1
  rw [f2, ← f1, k2]

/-- **C61** (automatic): if the automatic `Transform` reports success, whatever the C estimator does, then `Untransform`
with the builder that it stored in the caller's variable, called next or after events that leave the stored bytes and
the builder alone, restores the original bytes. -/
theorem C61_auto_roundtrip {env : Env} {m m' : Machine} (hm : m.endian = m'.endian) {s s1 : State b σ}
    {p d n o ol cell a : Nat} (h : autoTransform env m s p d n o ol cell a = some (s1, .success))
    {s2 : State b σ'} {i' o' ol' q : Nat} (hq : s2.manual q = s1.manual (s1.cells cell))
    (hdata : bytesAt s2.mem i' n = bytesAt s1.mem o n)
    (hi' : i' ≠ 0) (ho' : o' ≠ 0) (hq' : q ≠ 0) (hd' : disjoint i' n o' ol' = true) (hl' : n ≤ ol') :
    ∃ s3, manualUntransform m' s2 i' n o' ol' q = some (s3, .success) ∧ bytesAt s3.mem o' n = bytesAt s.mem d n := by
  obtain ⟨_, _, k1, k2, k3, k4⟩ := C41_auto_nulls env m s p d n o ol cell a false
  have hp : p ≠ 0 := fun e => by rw [k1 e] at h; simp at h
  have hd : d ≠ 0 := fun e => by rw [k2 hp e] at h; simp at h
  have ho : o ≠ 0 := fun e => by rw [k3 hp hd e] at h; simp at h
  have hc : cell ≠ 0 := fun e => by rw [k4 hp hd ho e] at h; simp at h
  have hdj : disjoint d n o ol = true := by
    unfold autoTransform at h
    rw [if_neg hp, if_neg hd, if_neg ho, if_neg hc] at h
    split at h
    · assumption
    · simp at h
  have hx : ∃ x, s.auto p = some x := by
    unfold autoTransform at h
    rw [if_neg hp, if_neg hd, if_neg ho, if_neg hc, if_pos hdj] at h
    cases hx : s.auto p with
    | none => simp [hx] at h
    | some x => exact ⟨x, rfl⟩
  obtain ⟨x, hx⟩ := hx
  have ha : s.canGive a = true := by
    unfold autoTransform at h
    rw [if_neg hp, if_neg hd, if_neg ho, if_neg hc, if_pos hdj, hx] at h
    obtain ⟨out, st', r, h1, _⟩ := auto_total b env m x.estimator.ops x.useAll (bytesAt s.mem d n) (bytesAt s.mem o ol) s.st
    obtain ⟨h6, h7⟩ := autoTransform_eq b env m x.estimator.ops x.useAll (bytesAt s.mem d n) (bytesAt s.mem o ol) s.st out st'
    cases r with
    | ok c =>
      obtain ⟨y, h8, _⟩ := h6 c h1
      simp only [Option.bind_eq_bind, Option.bind_some, h8] at h
      split at h
      · assumption
      · simp at h
    | error e =>
      obtain ⟨e', h8, _⟩ := h7 e h1
      simp only [Option.bind_eq_bind, Option.bind_some, h8, Option.pure_def, Option.some.injEq, Prod.mk.injEq] at h
      obtain ⟨_, h⟩ := h
      cases e' <;> simp [Code.ofError] at h
  obtain ⟨s1', code, g0, g1, g2, _, _, g3, _⟩ := C41_auto_result env m s hx hp hd ho hc hdj ha
  rw [h, Option.some.injEq, Prod.mk.injEq] at g0
  obtain ⟨rfl, rfl⟩ := g0
  obtain ⟨g4, _, y, out, g5, g6, g7⟩ := g3 rfl
  have c1 : n % blockSize b = 0 := by
    by_cases c1 : n % blockSize b = 0
    · exact c1
    · have := g1.mpr c1; simp at this
  have c2 : n ≤ ol := by
    by_cases c2 : n ≤ ol
    · exact c2
    · have := g2.mpr ⟨c1, by omega⟩; simp at this
  rw [g4, g5] at hq
  obtain ⟨_, ⟨s3, code, e1, e2, _, e3⟩⟩ := C41_manual_result m' s2 hq hq' hi' ho' hd'
  obtain ⟨rfl, u, f1, f2, _⟩ := e3.done c1 hl'
  refine ⟨s3, e1, ?_⟩
  obtain ⟨u', k1, k2⟩ := untransform_restores hm (bytesAt_length s.mem d n) c1 (by rw [bytesAt_length]; exact c2) g6
    (buf := bytesAt s2.mem o' ol') (by rw [bytesAt_length]; exact hl')
  rw [hdata, g7, k1, Option.some.injEq] at f1
  rw [f2, ← f1, k2]

/-- **C61** (core C API): the same for `dltbcNcore_transform` and `dltbcNcore_untransform` with equal settings. -/
theorem C61_core_roundtrip {m m' : Machine} (hm : m.endian = m'.endian) {s s1 : State b σ} {i n o ol mode : Nat}
    {split : Bool} (h : coreCall (coreTransform b m) s i n o ol split mode = some (s1, .success))
    {s2 : State b σ'} {i' o' ol' : Nat} (hdata : bytesAt s2.mem i' n = bytesAt s1.mem o n)
    (hi' : i' ≠ 0) (ho' : o' ≠ 0) (hd' : disjoint i' n o' ol' = true) (hl' : n ≤ ol') :
    ∃ s3, coreCall (coreUntransform b m') s2 i' n o' ol' split mode = some (s3, .success) ∧
      bytesAt s3.mem o' n = bytesAt s.mem i n := by
  have hset : ∃ v, coreModeOfNumber mode = some v := by
    match mode with
    | 0 => exact ⟨_, rfl⟩
    | 1 => exact ⟨_, rfl⟩
    | 2 => exact ⟨_, rfl⟩
    | 3 => exact ⟨_, rfl⟩
    | k + 4 => simp [coreCall, coreSettings, coreVariantOfRepr] at h
  obtain ⟨v, hv⟩ := hset
  have hmode : mode < 4 := by
    match mode with
    | 0 => omega
    | 1 => omega
    | 2 => omega
    | 3 => omega
    | k + 4 => simp [coreModeOfNumber] at hv
  have hnull := (C41_core_nulls (b := b) (σ := σ) ⟨fun _ => true, 0⟩ m s i n o ol 0 0 mode split false hmode).1 (coreTransform b m)
  have hi : i ≠ 0 := fun e => by rw [hnull.1 e] at h; simp at h
  have ho : o ≠ 0 := fun e => by rw [hnull.2 hi e] at h; simp at h
  have hd : disjoint i n o ol = true := by
    unfold coreCall at h
    cases hc : coreSettings split mode with
    | none => simp [hc] at h
    | some c =>
      simp only [hc, Option.bind_eq_bind, Option.bind_some] at h
      rw [if_neg hi, if_neg ho] at h
      split at h
      · assumption
      · simp at h
  obtain ⟨⟨s1', code, h1, h3⟩, _⟩ := C41_core_result m s (split := split) hv hi ho hd
  rw [h, Option.some.injEq, Prod.mk.injEq] at h1
  obtain ⟨rfl, rfl⟩ := h1
  have c1 : n % blockSize b = 0 := by
    by_cases c1 : n % blockSize b = 0
    · exact c1
    · have := (h3.invalid c1).1; simp at this
  have c2 : n ≤ ol := by
    by_cases c2 : n ≤ ol
    · exact c2
    · have := (h3.small c1 (by omega)).1; simp at this
  obtain ⟨_, out, e1, e2, _⟩ := h3.done c1 c2
  obtain ⟨_, ⟨s3, code, g1, g3⟩⟩ := C41_core_result m' s2 (split := split) hv hi' ho' hd'
  obtain ⟨rfl, u, f1, f2, _⟩ := g3.done c1 hl'
  refine ⟨s3, g1, ?_⟩
  obtain ⟨u', k1, k2⟩ := untransform_restores hm (bytesAt_length s.mem i n) c1 (by rw [bytesAt_length]; exact c2) e1
    (buf := bytesAt s2.mem o' ol') (by rw [bytesAt_length]; exact hl')
  rw [hdata, e2, k1, Option.some.injEq] at f1
  rw [f2, ← f1, k2]

/-! ## C62 -/

/-- **C62** (same estimator): what the library sees of the LTU estimator through the C interface is the LTU
estimator. -/
theorem C62_ltu_c_is_ltu (lz : Buf → Nat) : (ltuC lz : CEst σ).ops = ltu lz := rfl

theorem ask_ltu {E : Type} (lz : Buf → Nat) (k : Nat) : ∀ (xs : List Buf) (st : σ),
    ask (ltu (E := E) lz) k st xs = (st, .ok ())
  | [], _ => rfl
  | _ :: xs, st => by simp only [ask, ltu]; exact ask_ltu lz k xs st

/-- **C62** (never fails): with the LTU estimator, whatever the number of matches it finds, the automatic transform of BC1,
BC2 and BC3 succeeds on every input of valid length, without allocating scratch memory. -/
theorem C62_ltu_never_fails {E : Type} (lz : Buf → Nat) (env : Env) (m : Machine) (useAll : Bool) (data out : Buf) (st : σ)
    (ho : data.length ≤ out.length) :
    (data.length % 8 = 0 → ∃ out' s, Bc1.transformAuto env m (ltu (E := E) lz) useAll data out data.length st =
      some (out', st, .ok s)) ∧
    (data.length % 16 = 0 → ∃ out' s, Bc2.transformAuto env m (ltu (E := E) lz) useAll data out data.length st =
      some (out', st, .ok s)) ∧
    (data.length % 16 = 0 → ∃ out' s, Bc3.transformAuto env m (ltu (E := E) lz) useAll data out data.length st =
      some (out', st, .ok s)) :=
  ⟨fun h => (C22_bc1_estimator_failures env m (ltu lz) useAll data out st h ho).2.2.1 st 0 st rfl (.inl rfl) (ask_ltu lz 0 _ st),
   fun h => (C22_bc2_estimator_failures env m (ltu lz) useAll data out st h ho).2.2.1 st 0 st rfl (.inl rfl) (ask_ltu lz 0 _ st),
   fun h => (C22_bc3_estimator_failures env m (ltu lz) useAll data out st h ho).2.2.1 st 0 st rfl (.inl rfl) (ask_ltu lz 0 _ st)⟩

/-- **C62** (through C): a builder made with `dltltu_new_size_estimator` reports success for all valid arguments. -/
theorem C62_ltu_c_succeeds (lz : Buf → Nat) (env : Env) (m : Machine) (s : State b σ) {p d n o ol cell a : Nat} {useAll : Bool}
    (hx : s.auto p = some ⟨ltuC lz, useAll⟩) (hp : p ≠ 0) (hd : d ≠ 0) (ho : o ≠ 0) (hc : cell ≠ 0)
    (hdj : disjoint d n o ol = true) (ha : s.canGive a = true) (h8 : n % blockSize b = 0) (hl : n ≤ ol) :
    ∃ s', autoTransform env m s p d n o ol cell a = some (s', .success) ∧ s'.st = s.st := by
  obtain ⟨s', code, h1, _, _, _, _, _, _, h2, _⟩ := C41_auto_result env m s hx hp hd ho hc hdj ha
  have hauto : ∃ out c, autoSafe b env m (ltu lz) useAll (bytesAt s.mem d n) (bytesAt s.mem o ol) s.st =
      some (out, s.st, Except.ok (ε := AutoResult (BitVec 32)) c) := by
    cases b with
    | bc1 =>
      have h8' : (bytesAt s.mem d n).length % 8 = 0 := by rw [bytesAt_length]; exact h8
      have hl' : (bytesAt s.mem d n).length ≤ (bytesAt s.mem o ol).length := by simp only [bytesAt_length]; exact hl
      obtain ⟨out, c, e⟩ := (C62_ltu_never_fails (E := BitVec 32) lz env m useAll _ _ s.st hl').1 h8'
      refine ⟨out, c, ?_⟩
      simp only [autoSafe, Bc1.transformAutoSafe]
      rw [if_neg (by simp [h8']), if_neg (by omega), e]
      rfl
    | bc2 =>
      have h8' : (bytesAt s.mem d n).length % 16 = 0 := by rw [bytesAt_length]; exact h8
      have hl' : (bytesAt s.mem d n).length ≤ (bytesAt s.mem o ol).length := by simp only [bytesAt_length]; exact hl
      obtain ⟨out, c, e⟩ := (C62_ltu_never_fails (E := BitVec 32) lz env m useAll _ _ s.st hl').2.1 h8'
      refine ⟨out, c, ?_⟩
      simp only [autoSafe, Bc2.transformAutoSafe]
      rw [if_neg (by simp [h8']), if_neg (by omega), e]
      rfl
  obtain ⟨out, c, e⟩ := hauto
  have hcode : code = .success := h2.mpr ⟨out, s.st, c, e⟩
  subst hcode
  refine ⟨s', h1, ?_⟩
  obtain ⟨y, e2, _⟩ := (autoTransform_eq b env m (ltu lz) useAll (bytesAt s.mem d n) (bytesAt s.mem o ol) s.st out s.st).1 c e
  unfold autoTransform at h1
  rw [if_neg hp, if_neg hd, if_neg ho, if_neg hc, if_pos hdj, hx] at h1
  simp only [Option.bind_eq_bind, Option.bind_some, C62_ltu_c_is_ltu, e2] at h1
  split at h1
  · simp only [Option.pure_def, Option.some.injEq, Prod.mk.injEq, and_true] at h1
    rw [← h1]
  · simp at h1

/-! ## A concrete process -/

/-- An empty process. -/
def emptyProcess (b : Bc) : State b Unit where
  mem _ := 0x5a#8
  manual _ := none
  auto _ := none
  ests _ := none
  cells _ := 0
  details _ := ⟨.none, false⟩
  st := ()

/-- The machine of the example. -/
def exMachine : Machine := .other .little fun _ => 0

/-- The environment of the example. -/
def exEnv : Env := ⟨fun _ => true, 2 ^ 64 - 1⟩

/-- The replies to a list of events, oldest first, and the state afterwards. -/
def replies (env : Env) (m : Machine) {b : Bc} {σ : Type} : State b σ → List (Event σ) → Option (List Reply × State b σ)
  | s, [] => some ([], s)
  | s, e :: es => do
    let (s, r) ← step env m s e
    let (rs, s) ← replies env m s es
    pure (r :: rs, s)

/-- A program in C: it makes a builder at 1000, sets variant 2 and no splitting, clones it to 2000, resets the original,
frees it, writes one BC1 block to 16, transforms it to 32 with the clone and back to 48, and asks for null
and bad arguments. -/
def exProgram : List (Event Unit) :=
  [.newManual 1000, .setDecorrelationMode 1000 1, .setSplitColourEndpoints 1000 false, .cloneManual 1000 2000,
   .resetToDefaults 1000, .freeManual 1000, .write 16 [1, 2, 3, 4, 5, 6, 7, 8],
   .manualTransform 16 8 32 8 2000, .manualUntransform 32 8 48 8 2000, .manualTransform 0 8 0 8 0,
   .manualTransform 16 7 32 8 2000, .manualTransform 16 8 32 7 2000,
   .newLtu (fun _ => 1) 3000, .newAuto 3000 1000, .freeLtu 3000, .setUseAll 1000 true,
   .autoTransform 1000 16 8 64 8 500 3000, .manualUntransform 64 8 80 8 3000]

/-- The replies that the program gets. -/
example : (replies exEnv exMachine (emptyProcess .bc1) exProgram).map (·.1) = some
    [.ptr 1000, .unit, .unit, .ptr 2000, .unit, .unit, .unit, .code .success, .code .success,
     .code .nullDataPointer, .code .invalidLength, .code .outputBufferTooSmall,
     .ptr 3000, .ptr 1000, .unit, .code .success, .code .success, .code .success] := by
  decide +kernel

/-- The bytes it gets back, the pointer it is given, and the settings of the clone. -/
example : (replies exEnv exMachine (emptyProcess .bc1) exProgram).map
    (fun r => (bytesAt r.2.mem 48 8, bytesAt r.2.mem 80 8, r.2.cells 500, (r.2.manual 2000).map (settings .bc1))) = some
    ([1, 2, 3, 4, 5, 6, 7, 8], [1, 2, 3, 4, 5, 6, 7, 8], 3000, some ⟨.v2, false⟩) := by
  decide +kernel

/-- A double free is outside the contract and has no result. -/
example : (replies exEnv exMachine (emptyProcess .bc1) [.newManual 8, .freeManual 8, .freeManual 8]).isNone := by
  decide +kernel

end Dlt.Props
