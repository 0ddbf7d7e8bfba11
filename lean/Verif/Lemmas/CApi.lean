import Verif.Model.CApi
import Verif.Props.Builders
/-!
# Lemmas about the C API model
-/

namespace Dlt.CApi

variable {b : Bc} {σ : Type}

/-! ## Maps and memory -/

theorem upd_self {α : Type} (f : Nat → α) (p : Nat) (x : α) : upd f p x p = x := by simp [upd]

theorem upd_ne {α : Type} (f : Nat → α) {p q : Nat} (x : α) (h : q ≠ p) : upd f p x q = f q := by simp [upd, h]

theorem bytesAt_length (mem : Nat → Byte) (p n : Nat) : (bytesAt mem p n).length = n := by simp [bytesAt]

theorem bytesAt_getElem? (mem : Nat → Byte) (p n i : Nat) (h : i < n) : (bytesAt mem p n)[i]? = some (mem (p + i)) := by
  simp [bytesAt, h]

theorem putBytes_out (mem : Nat → Byte) (p : Nat) (bs : Buf) {q : Nat} (h : q < p ∨ p + bs.length ≤ q) :
    putBytes mem p bs q = mem q := by
  unfold putBytes
  split
  · rw [List.getElem?_eq_none (by omega)]; rfl
  · rfl

theorem putBytes_in (mem : Nat → Byte) (p : Nat) (bs : Buf) {i : Nat} (h : i < bs.length) :
    putBytes mem p bs (p + i) = bs[i] := by
  unfold putBytes
  rw [if_pos (by omega), Nat.add_sub_cancel_left, List.getElem?_eq_getElem h]
  rfl

theorem bytesAt_putBytes (mem : Nat → Byte) (p : Nat) (bs : Buf) {n : Nat} (h : n ≤ bs.length) :
    bytesAt (putBytes mem p bs) p n = bs.take n := by
  apply List.ext_getElem
  · simp [bytesAt, h]
  · intro i h1 h2
    have hi : i < n := by simpa [bytesAt] using h1
    simp only [bytesAt, List.getElem_map, List.getElem_range, List.getElem_take]
    rw [putBytes_in mem p bs (by omega)]

theorem bytesAt_congr {mem mem' : Nat → Byte} {p n : Nat} (h : ∀ i, i < n → mem (p + i) = mem' (p + i)) :
    bytesAt mem p n = bytesAt mem' p n := by
  unfold bytesAt
  apply List.map_congr_left
  intro i hi
  exact h i (List.mem_range.mp hi)

theorem putBytes_bytesAt (mem : Nat → Byte) (p n : Nat) : putBytes mem p (bytesAt mem p n) = mem := by
  funext q
  by_cases h : q < p ∨ p + (bytesAt mem p n).length ≤ q
  · exact putBytes_out mem p _ h
  · rw [bytesAt_length] at h
    obtain ⟨i, rfl⟩ : ∃ i, q = p + i := ⟨q - p, by omega⟩
    rw [putBytes_in mem p _ (by rw [bytesAt_length]; omega)]
    simp [bytesAt]

/-! ## The Rust functions of both libraries -/

/-- The settings in a builder. -/
def settings : (b : Bc) → b.Manual → ColourSettings
  | .bc1 => Bc1.ManualBuilder.settings
  | .bc2 => Bc2.ManualBuilder.settings

/-- The block size. -/
def blockSize : Bc → Nat
  | .bc1 => 8
  | .bc2 => 16

/-- The core function. -/
def encode : Bc → Machine → Buf → Buf → Nat → ColourSettings → Option Buf
  | .bc1 => Bc1.transformWithSettings
  | .bc2 => Bc2.transformWithSettings

/-- The core function. -/
def decode : Bc → Machine → Buf → Buf → Nat → ColourSettings → Option Buf
  | .bc1 => Bc1.untransformWithSettings
  | .bc2 => Bc2.untransformWithSettings

theorem settings_new (b : Bc) : settings b b.new = ⟨.v1, true⟩ := by cases b <;> rfl

theorem settings_mode (b : Bc) (x : b.Manual) (v : ApiVariant) :
    settings b (b.decorrelationMode x v) = ⟨v.toInternal, (settings b x).split⟩ := by cases b <;> rfl

theorem settings_split (b : Bc) (x : b.Manual) (c : Bool) :
    settings b (b.splitColourEndpoints x c) = ⟨(settings b x).decorr, c⟩ := by cases b <;> rfl

theorem settings_inj (b : Bc) {x y : b.Manual} (h : settings b x = settings b y) : x = y := by
  cases b
  · obtain ⟨x⟩ := x; obtain ⟨y⟩ := y; exact congrArg _ h
  · obtain ⟨x⟩ := x; obtain ⟨y⟩ := y; exact congrArg _ h

open Dlt.Props in
theorem core_transform (b : Bc) (m : Machine) (input output : Buf) (s : ColourSettings) :
    (input.length % blockSize b ≠ 0 → coreTransform b m input output s = some (output, .error (.invalidLength input.length))) ∧
    (input.length % blockSize b = 0 → output.length < input.length →
      coreTransform b m input output s = some (output, .error (.outputBufferTooSmall input.length output.length))) ∧
    (input.length % blockSize b = 0 → input.length ≤ output.length → ∃ out',
      encode b m input output input.length s = some out' ∧ coreTransform b m input output s = some (out', .ok ()) ∧
      out'.length = output.length ∧ out'.drop input.length = output.drop input.length) := by
  cases b
  · exact C16_bc1_transform_validation m input output s
  · exact C16_bc2_transform_validation m input output s

open Dlt.Props in
theorem core_untransform (b : Bc) (m : Machine) (input output : Buf) (s : ColourSettings) :
    (input.length % blockSize b ≠ 0 → coreUntransform b m input output s = some (output, .error (.invalidLength input.length))) ∧
    (input.length % blockSize b = 0 → output.length < input.length →
      coreUntransform b m input output s = some (output, .error (.outputBufferTooSmall input.length output.length))) ∧
    (input.length % blockSize b = 0 → input.length ≤ output.length → ∃ out',
      decode b m input output input.length s = some out' ∧ coreUntransform b m input output s = some (out', .ok ()) ∧
      out'.length = output.length ∧ out'.drop input.length = output.drop input.length) := by
  cases b
  · exact C16_bc1_untransform_validation m input output s
  · exact C16_bc2_untransform_validation m input output s

theorem transform_eq (b : Bc) (m : Machine) (x : b.Manual) (input output : Buf) :
    b.transform m x input output =
      (coreTransform b m input output (settings b x)).map fun r => (r.1, r.2.mapError .fromValidation) := by
  cases b
  · show Bc1.ManualBuilder.transform _ _ _ _ = _
    unfold Bc1.ManualBuilder.transform
    show _ = (Bc1.transformSafe _ _ _ _).map _
    cases h : Bc1.transformSafe m input output x.settings <;> simp [settings, h]
  · show Bc2.ManualBuilder.transform _ _ _ _ = _
    unfold Bc2.ManualBuilder.transform
    show _ = (Bc2.transformSafe _ _ _ _).map _
    cases h : Bc2.transformSafe m input output x.settings <;> simp [settings, h]

theorem untransform_eq (b : Bc) (m : Machine) (x : b.Manual) (input output : Buf) :
    b.untransform m x input output =
      (coreUntransform b m input output (settings b x)).map fun r => (r.1, r.2.mapError .fromValidation) := by
  cases b
  · show Bc1.ManualBuilder.untransform _ _ _ _ = _
    unfold Bc1.ManualBuilder.untransform
    show _ = (Bc1.untransformSafe _ _ _ _).map _
    cases h : Bc1.untransformSafe m input output x.settings <;> simp [settings, h]
  · show Bc2.ManualBuilder.untransform _ _ _ _ = _
    unfold Bc2.ManualBuilder.untransform
    show _ = (Bc2.untransformSafe _ _ _ _).map _
    cases h : Bc2.untransformSafe m input output x.settings <;> simp [settings, h]

/-- What the automatic functions can do. -/
inductive AutoResult (E : Type) where
  | invalidLength (len : Nat)
  | outputBufferTooSmall (needed actual : Nat)
  | allocate
  | sizeEstimation (e : E)

/-- `transform_bcN_auto` (safe) of both core crates with one type of errors. -/
def autoSafe {E : Type} : Bc → Env → Machine → Estimator σ E → Bool → Buf → Buf → σ →
    Option (Buf × σ × Except (AutoResult E) ColourSettings)
  | .bc1 => fun env m est useAll inp out st => (Bc1.transformAutoSafe env m est useAll inp out st).map
      fun r => (r.1, r.2.1, r.2.2.mapError fun
        | .invalidLength n => .invalidLength n
        | .outputBufferTooSmall n k => .outputBufferTooSmall n k
        | .determineBest .allocate => .allocate
        | .determineBest (.sizeEstimation e) => .sizeEstimation e)
  | .bc2 => fun env m est useAll inp out st => (Bc2.transformAutoSafe env m est useAll inp out st).map
      fun r => (r.1, r.2.1, r.2.2.mapError fun
        | .invalidLength n => .invalidLength n
        | .outputBufferTooSmall n k => .outputBufferTooSmall n k
        | .determineBest .allocate => .allocate
        | .determineBest (.sizeEstimation e) => .sizeEstimation e)

/-- The code of the stable C API for a failure. -/
def AutoResult.code {E : Type} : AutoResult E → Code
  | .invalidLength _ => .invalidLength
  | .outputBufferTooSmall _ _ => .outputBufferTooSmall
  | .allocate => .allocationFailed
  | .sizeEstimation _ => .sizeEstimationFailed

/-- The code of the core C API for a failure; it does not tell a failed allocation from a failed estimation. -/
def AutoResult.coreCode {E : Type} : AutoResult E → CoreCode
  | .invalidLength _ => .invalidDataLength
  | .outputBufferTooSmall _ _ => .outputBufferTooSmall
  | .allocate => .sizeEstimationError
  | .sizeEstimation _ => .sizeEstimationError

theorem coreAuto_eq (b : Bc) (env : Env) (m : Machine) (est : Estimator σ (BitVec 32)) (useAll : Bool)
    (inp out : Buf) (st : σ) :
    coreAuto b env m est useAll inp out st =
      (autoSafe b env m est useAll inp out st).map fun r => (r.1, r.2.1, r.2.2.mapError AutoResult.coreCode) := by
  cases b
  · simp only [coreAuto, autoSafe, Option.map_map]
    congr 1
    funext ⟨o, s, r⟩
    rcases r with ((_ | _ | (_ | _)) | _) <;> rfl
  · simp only [coreAuto, autoSafe, Option.map_map]
    congr 1
    funext ⟨o, s, r⟩
    rcases r with ((_ | _ | (_ | _)) | _) <;> rfl

/-- The builder's automatic transform is the core function, with the builder for the settings it reports and the error
of the same code. -/
theorem autoTransform_eq {E : Type} (b : Bc) (env : Env) (m : Machine) (est : Estimator σ E) (useAll : Bool)
    (inp out : Buf) (st : σ) (o : Buf) (st' : σ) :
    (∀ s, autoSafe b env m est useAll inp out st = some (o, st', .ok s) →
      ∃ x, b.autoTransform env m est useAll inp out st = some (o, st', .ok x) ∧ settings b x = s) ∧
    (∀ e, autoSafe b env m est useAll inp out st = some (o, st', .error e) →
      ∃ e', b.autoTransform env m est useAll inp out st = some (o, st', .error e') ∧ Code.ofError e' = e.code) := by
  cases b
  · simp only [autoSafe, Bc.autoTransform, Bc1.AutoBuilder.transform, Bc1.AutoBuilder.useAllDecorrelationModes,
      Bc1.AutoBuilder.new]
    rcases Bc1.transformAutoSafe env m est useAll inp out st with _ | ⟨o1, s1, r⟩
    · simp
    · constructor
      · rintro s h
        rcases r with (_ | s2)
        · simp [Except.mapError] at h
        · simp only [Option.map_some, Except.mapError, Option.some.injEq, Prod.mk.injEq, Except.ok.injEq] at h
          obtain ⟨rfl, rfl, rfl⟩ := h
          refine ⟨_, rfl, ?_⟩
          obtain ⟨v, c⟩ := s2
          cases v <;> rfl
      · rintro e h
        rcases r with (e2 | _)
        · simp only [Option.map_some, Except.mapError, Option.some.injEq, Prod.mk.injEq, Except.error.injEq] at h
          obtain ⟨rfl, rfl, rfl⟩ := h
          refine ⟨_, rfl, ?_⟩
          rcases e2 with _ | _ | (_ | _) <;> rfl
        · simp [Except.mapError] at h
  · simp only [autoSafe, Bc.autoTransform, Bc2.AutoBuilder.transform, Bc2.AutoBuilder.useAllDecorrelationModes,
      Bc2.AutoBuilder.new]
    rcases Bc2.transformAutoSafe env m est useAll inp out st with _ | ⟨o1, s1, r⟩
    · simp
    · constructor
      · rintro s h
        rcases r with (_ | s2)
        · simp [Except.mapError] at h
        · simp only [Option.map_some, Except.mapError, Option.some.injEq, Prod.mk.injEq, Except.ok.injEq] at h
          obtain ⟨rfl, rfl, rfl⟩ := h
          refine ⟨_, rfl, ?_⟩
          obtain ⟨v, c⟩ := s2
          cases v <;> rfl
      · rintro e h
        rcases r with (e2 | _)
        · simp only [Option.map_some, Except.mapError, Option.some.injEq, Prod.mk.injEq, Except.error.injEq] at h
          obtain ⟨rfl, rfl, rfl⟩ := h
          refine ⟨_, rfl, ?_⟩
          rcases e2 with _ | _ | (_ | _) <;> rfl
        · simp [Except.mapError] at h

open Dlt.Props in
/-- The automatic functions never panic, they check the lengths first, and on success the output is the manual
transform with the settings they report. -/
theorem auto_total {E : Type} (b : Bc) (env : Env) (m : Machine) (est : Estimator σ E) (useAll : Bool)
    (inp out : Buf) (st : σ) : ∃ o st' r, autoSafe b env m est useAll inp out st = some (o, st', r) ∧
      o.length = out.length ∧
      (inp.length % blockSize b ≠ 0 → o = out ∧ st' = st ∧ r = .error (.invalidLength inp.length)) ∧
      (inp.length % blockSize b = 0 → out.length < inp.length →
        o = out ∧ st' = st ∧ r = .error (.outputBufferTooSmall inp.length out.length)) ∧
      (inp.length % blockSize b = 0 → inp.length ≤ out.length → o.drop inp.length = out.drop inp.length ∧
        (∀ n, r ≠ .error (.invalidLength n)) ∧ (∀ n k, r ≠ .error (.outputBufferTooSmall n k)) ∧
        ∀ s, r = .ok s → encode b m inp out inp.length s = some o) := by
  cases b
  · obtain ⟨h1, h2, h3⟩ := C16_bc1_auto_validation env m est useAll inp out st
    simp only [autoSafe, blockSize]
    by_cases c1 : inp.length % 8 = 0
    · by_cases c2 : inp.length ≤ out.length
      · obtain ⟨o, st', r, e1, e2, e3, e4, e5, e6⟩ := h3 c1 c2
        rw [e1]
        refine ⟨o, st', _, rfl, e2, fun h => absurd c1 h, fun _ h => by omega, fun _ _ => ⟨e3, ?_, ?_, ?_⟩⟩
        · intro n; rcases r with ((_ | _ | (_ | _)) | _) <;> simp_all [Except.mapError]
        · intro n k; rcases r with ((_ | _ | (_ | _)) | _) <;> simp_all [Except.mapError]
        · intro s hs
          rcases r with (_ | s2)
          · simp [Except.mapError] at hs
          · simp only [Except.mapError, Except.ok.injEq] at hs
            subst hs
            obtain ⟨e7, _⟩ := e6 s2 rfl
            obtain ⟨o2, e8, e9, _⟩ := (C16_bc1_transform_validation m inp out s2).2.2 c1 c2
            rw [e7, Option.some.injEq, Prod.mk.injEq] at e9
            rw [e9.1]; exact e8
      · rw [h2 c1 (by omega)]
        exact ⟨_, _, _, rfl, rfl, fun h => absurd c1 h, fun _ _ => ⟨rfl, rfl, rfl⟩, fun _ h => absurd h c2⟩
    · rw [h1 c1]
      exact ⟨_, _, _, rfl, rfl, fun _ => ⟨rfl, rfl, rfl⟩, fun h => absurd h c1, fun h => absurd h c1⟩
  · obtain ⟨h1, h2, h3⟩ := C16_bc2_auto_validation env m est useAll inp out st
    simp only [autoSafe, blockSize]
    by_cases c1 : inp.length % 16 = 0
    · by_cases c2 : inp.length ≤ out.length
      · obtain ⟨o, st', r, e1, e2, e3, e4, e5, e6⟩ := h3 c1 c2
        rw [e1]
        refine ⟨o, st', _, rfl, e2, fun h => absurd c1 h, fun _ h => by omega, fun _ _ => ⟨e3, ?_, ?_, ?_⟩⟩
        · intro n; rcases r with ((_ | _ | (_ | _)) | _) <;> simp_all [Except.mapError]
        · intro n k; rcases r with ((_ | _ | (_ | _)) | _) <;> simp_all [Except.mapError]
        · intro s hs
          rcases r with (_ | s2)
          · simp [Except.mapError] at hs
          · simp only [Except.mapError, Except.ok.injEq] at hs
            subst hs
            obtain ⟨e7, _⟩ := e6 s2 rfl
            obtain ⟨o2, e8, e9, _⟩ := (C16_bc2_transform_validation m inp out s2).2.2 c1 c2
            rw [e7, Option.some.injEq, Prod.mk.injEq] at e9
            rw [e9.1]; exact e8
      · rw [h2 c1 (by omega)]
        exact ⟨_, _, _, rfl, rfl, fun h => absurd c1 h, fun _ _ => ⟨rfl, rfl, rfl⟩, fun _ h => absurd h c2⟩
    · rw [h1 c1]
      exact ⟨_, _, _, rfl, rfl, fun _ => ⟨rfl, rfl, rfl⟩, fun h => absurd h c1, fun h => absurd h c1⟩

open Dlt.Props in
theorem core_roundtrip (b : Bc) (m m' : Machine) (hm : m.endian = m'.endian) (s : ColourSettings) (inp out buf o : Buf)
    (h8 : inp.length % blockSize b = 0) (ho : inp.length ≤ out.length) (hb : inp.length ≤ buf.length)
    (h : encode b m inp out inp.length s = some o) :
    ∃ u, decode b m' (o.take inp.length) buf inp.length s = some u ∧ u.take inp.length = inp := by
  cases b
  · obtain ⟨t, r, ht, hr, hd⟩ := C01_bc1_lossless m m' hm s inp out buf h8 ho hb
    have h' : Bc1.transformWithSettings m inp out inp.length s = some o := h
    rw [h'] at ht
    obtain rfl : o = t := by simpa using ht
    exact ⟨r, hr, hd⟩
  · obtain ⟨t, r, ht, hr, hd⟩ := C02_bc2_lossless m m' hm s inp out buf h8 ho hb
    have h' : Bc2.transformWithSettings m inp out inp.length s = some o := h
    rw [h'] at ht
    obtain rfl : o = t := by simpa using ht
    exact ⟨r, hr, hd⟩

end Dlt.CApi
