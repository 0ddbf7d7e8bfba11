import Verif.Model.Builders
import Verif.Props.Safe
import Verif.Props.Bc1
import Verif.Props.Bc2
/-!
# C42: the builders of the BC1 and BC2 APIs
-/

namespace Dlt.Props

/-- The API's variants correspond one to one to the internal ones, and `all_variants` lists every one once.  The
`Default` of the type is the variant that changes nothing, although the builders start with variant 1 (`C42_bc1_setters`). -/
theorem C42_variants :
    (∀ v, ApiVariant.fromInternal (ApiVariant.toInternal v) = v) ∧
    (∀ v, ApiVariant.toInternal (ApiVariant.fromInternal v) = v) ∧
    (∀ v, v ∈ ApiVariant.allVariants) ∧ ApiVariant.allVariants.Nodup ∧
    (∀ v : ApiVariant, v.isTransforming = false ↔ v.toInternal = .none) ∧ ApiVariant.default.isTransforming = false := by
  refine ⟨?_, ?_, ?_, by decide, ?_, rfl⟩ <;> intro v <;> cases v <;> decide

/-! ## BC1 -/

/-- The result of a chain of setter calls (`inl` sets the variant, `inr` the split flag). -/
def setters1 (b : Bc1.ManualBuilder) (l : List (ApiVariant ⊕ Bool)) : Bc1.ManualBuilder :=
  l.foldl (fun b c => match c with
    | .inl v => b.decorrelationMode v
    | .inr s => b.splitColourEndpoints s) b

/-- **C42** (BC1): of any chain of setter calls the last one of each kind counts, and without any the settings are the
documented defaults (variant 1, split endpoints). -/
theorem C42_bc1_setters (l : List (ApiVariant ⊕ Bool)) :
    (setters1 .new l).getSettings =
      ⟨((l.filterMap Sum.getLeft?).getLast?.getD .variant1).toInternal, (l.filterMap Sum.getRight?).getLast?.getD true⟩ := by
  have key : ∀ (l : List (ApiVariant ⊕ Bool)) (b : Bc1.ManualBuilder) (v : ApiVariant), v.toInternal = b.settings.decorr →
      (setters1 b l).settings = ⟨((l.filterMap Sum.getLeft?).getLast?.getD v).toInternal,
        (l.filterMap Sum.getRight?).getLast?.getD b.settings.split⟩ := by
    intro l
    induction l with
    | nil => intro b v hv; simp [setters1, hv]
    | cons c l ih =>
      intro b v hv
      cases c with
      | inl w =>
        have := ih (b.decorrelationMode w) w rfl
        simp only [setters1, List.foldl_cons] at this ⊢
        rw [this]
        simp [Bc1.ManualBuilder.decorrelationMode, List.getLast?_cons]
      | inr s =>
        have := ih (b.splitColourEndpoints s) v hv
        simp only [setters1, List.foldl_cons] at this ⊢
        rw [this]
        simp [Bc1.ManualBuilder.splitColourEndpoints, List.getLast?_cons]
  exact key l .new .variant1 rfl

/-- What a manual builder's `transform` does: the safe function with the builder's settings. -/
theorem C42_bc1_manual_transform (m : Machine) (b : Bc1.ManualBuilder) (input output : Buf) :
    (input.length % 8 ≠ 0 → b.transform m input output = some (output, .error (.invalidLength input.length))) ∧
    (input.length % 8 = 0 → output.length < input.length →
      b.transform m input output = some (output, .error (.outputBufferTooSmall input.length output.length))) ∧
    (input.length % 8 = 0 → input.length ≤ output.length → ∃ out',
      Bc1.transformWithSettings m input output input.length b.getSettings = some out' ∧
      b.transform m input output = some (out', .ok ())) := by
  obtain ⟨h1, h2, h3⟩ := C16_bc1_transform_validation m input output b.settings
  unfold Bc1.ManualBuilder.transform
  refine ⟨fun h => by rw [h1 h]; rfl, fun h h' => by rw [h2 h h']; rfl, fun h h' => ?_⟩
  obtain ⟨o, h4, h5, _⟩ := h3 h h'
  exact ⟨o, h4, by rw [h5]; rfl⟩

/-- **C42** (BC1, manual): a builder restores what it transformed, on any machine of the same byte order and into any
buffer with enough room. -/
theorem C42_bc1_manual_reuse (m m' : Machine) (hm : m.endian = m'.endian) (b : Bc1.ManualBuilder)
    (input output out' : Buf) (h : b.transform m input output = some (out', .ok ()))
    (buf : Buf) (hb : input.length ≤ buf.length) :
    ∃ u, b.untransform m' (out'.take input.length) buf = some (u, .ok ()) ∧ u.take input.length = input := by
  obtain ⟨h1, h2, h3⟩ := C42_bc1_manual_transform m b input output
  by_cases h8 : input.length % 8 = 0
  · by_cases hl : input.length ≤ output.length
    · obtain ⟨o, h4, h5⟩ := h3 h8 hl
      rw [h] at h5
      obtain rfl : out' = o := by simpa using h5
      obtain ⟨t, r, ht, hr, hd⟩ := C01_bc1_lossless m m' hm b.getSettings input output buf h8 hl hb
      rw [h4] at ht
      obtain rfl : out' = t := by simpa using ht
      have hlen : (out'.take input.length).length = input.length := by
        have := (C16_bc1_transform_validation m input output b.settings).2.2 h8 hl
        obtain ⟨o, h6, _, h7, _⟩ := this
        rw [show b.settings = b.getSettings from rfl, h4] at h6
        obtain rfl : out' = o := by simpa using h6
        simp; omega
      refine ⟨r, ?_, hd⟩
      obtain ⟨u, h6, h7, _⟩ := (C16_bc1_untransform_validation m' (out'.take input.length) buf b.settings).2.2
        (by rw [hlen]; exact h8) (by omega)
      rw [hlen, show b.settings = b.getSettings from rfl, hr] at h6
      obtain rfl : r = u := by simpa using h6
      unfold Bc1.ManualBuilder.untransform
      rw [h7]; rfl
    · rw [h2 h8 (by omega)] at h; simp at h
  · rw [h1 h8] at h; simp at h

/-- **C42** (BC1, automatic): the manual builder that comes back would have produced the same output, and it restores
the input, whatever the estimator does. -/
theorem C42_bc1_auto_reuse {σ E : Type} (env : Env) (m m' : Machine) (hm : m.endian = m'.endian)
    (b : Bc1.AutoBuilder σ E) (input output out' : Buf) (st st' : σ) (mb : Bc1.ManualBuilder)
    (h : b.transform env m input output st = some (out', st', .ok mb)) :
    mb.transform m input output = some (out', .ok ()) ∧
    ∀ buf : Buf, input.length ≤ buf.length →
      ∃ u, mb.untransform m' (out'.take input.length) buf = some (u, .ok ()) ∧ u.take input.length = input := by
  have hmain : mb.transform m input output = some (out', .ok ()) := by
    obtain ⟨h1, h2, h3⟩ := C16_bc1_auto_validation env m b.estimator b.useAll input output st
    unfold Bc1.AutoBuilder.transform at h
    by_cases h8 : input.length % 8 = 0
    · by_cases hl : input.length ≤ output.length
      · obtain ⟨o, s2, r, h4, _, _, _, _, h5⟩ := h3 h8 hl
        rw [h4] at h
        cases r with
        | error e => simp at h
        | ok s =>
          obtain ⟨h6, _⟩ := h5 s rfl
          simp only [Option.bind_eq_bind, Option.bind_some, Option.pure_def, Option.some.injEq, Prod.mk.injEq,
            Except.ok.injEq] at h
          obtain ⟨rfl, _, rfl⟩ := h
          have : ((Bc1.ManualBuilder.new.decorrelationMode (.fromInternal s.decorr)).splitColourEndpoints s.split).settings
              = s := by
            obtain ⟨v, c⟩ := s
            cases v <;> rfl
          unfold Bc1.ManualBuilder.transform
          rw [this, h6]; rfl
      · rw [h2 h8 (by omega)] at h; simp at h
    · rw [h1 h8] at h; simp at h
  exact ⟨hmain, fun buf hb => C42_bc1_manual_reuse m m' hm mb input output out' hmain buf hb⟩

/-- **C42** (BC1, automatic): whatever constructor and chain of `use_all_decorrelation_modes` calls made the builder, the last call
counts, else the constructor: `new` stands for the fast search, `new_ultra` for the exhaustive one.  The builder does what the safe
function does with that flag and names the same settings and errors. -/
theorem C42_bc1_auto_modes {σ E : Type} (env : Env) (m : Machine) (est : Estimator σ E) (ultra : Bool) (l : List Bool)
    (input output : Buf) (st : σ) :
    let b := l.foldl Bc1.AutoBuilder.useAllDecorrelationModes (if ultra then .newUltra est else .new est)
    let core := Bc1.transformAutoSafe env m est (l.getLast?.getD ultra) input output st
    (core = none → b.transform env m input output st = none) ∧
    ∀ o s, (∀ c, core = some (o, s, .ok c) → ∃ mb, b.transform env m input output st = some (o, s, .ok mb) ∧ mb.getSettings = c) ∧
      (∀ k, core = some (o, s, .error (.invalidLength k)) →
        b.transform env m input output st = some (o, s, .error (.invalidLength k))) ∧
      (∀ k j, core = some (o, s, .error (.outputBufferTooSmall k j)) →
        b.transform env m input output st = some (o, s, .error (.outputBufferTooSmall k j))) ∧
      (core = some (o, s, .error (.determineBest .allocate)) →
        b.transform env m input output st = some (o, s, .error .allocationFailed)) ∧
      ∀ e, core = some (o, s, .error (.determineBest (.sizeEstimation e))) →
        b.transform env m input output st = some (o, s, .error (.sizeEstimationFailed e)) := by
  have key : ∀ (l : List Bool) (b : Bc1.AutoBuilder σ E),
      l.foldl Bc1.AutoBuilder.useAllDecorrelationModes b = ⟨b.estimator, l.getLast?.getD b.useAll⟩ := by
    intro l
    induction l with
    | nil => intro b; rfl
    | cons c l ih =>
      intro b
      rw [List.foldl_cons, ih]
      simp [Bc1.AutoBuilder.useAllDecorrelationModes, List.getLast?_cons]
  intro b core
  have hb : b = ⟨est, l.getLast?.getD ultra⟩ := by
    change l.foldl _ _ = _
    rw [key]
    cases ultra <;> rfl
  rw [hb]
  have ht : ∀ r, core = r → Bc1.AutoBuilder.transform env m ⟨est, l.getLast?.getD ultra⟩ input output st =
      r.bind fun x => match x.2.2 with
        | .error e => some (x.1, x.2.1, .error (Bc1.fromAutoError e))
        | .ok c => some (x.1, x.2.1, .ok ((Bc1.ManualBuilder.new.decorrelationMode (.fromInternal c.decorr)).splitColourEndpoints c.split)) := by
    rintro r rfl
    rfl
  refine ⟨fun h => ht _ h, fun o s => ⟨fun c h => ⟨_, ht _ h, ?_⟩, fun k h => ht _ h, fun k j h => ht _ h, fun h => ht _ h, fun e h => ht _ h⟩⟩
  obtain ⟨v, c⟩ := c
  cases v <;> rfl

/-- A concrete case: the estimator counts its calls.  Eight settings are measured after `new_ultra`, four after `new`. -/
example :
    let est : Estimator Nat Unit := ⟨fun s _ => (s, .ok 0), fun s _ _ => (s + 1, .ok 1)⟩
    let calls := fun b : Bc1.AutoBuilder Nat Unit => (b.transform ⟨fun _ => true, 2 ^ 64 - 1⟩ (.other .little fun _ => 0)
      (List.replicate 8 7) (List.replicate 8 0) 0).map fun r => r.2.1
    (calls (.newUltra est), calls (.new est), calls ((Bc1.AutoBuilder.new est).useAllDecorrelationModes true)) =
      (some 8, some 4, some 8) := by decide +kernel

/-! ## BC2 -/

/-- The result of a chain of setter calls (`inl` sets the variant, `inr` the split flag). -/
def setters2 (b : Bc2.ManualBuilder) (l : List (ApiVariant ⊕ Bool)) : Bc2.ManualBuilder :=
  l.foldl (fun b c => match c with
    | .inl v => b.decorrelationMode v
    | .inr s => b.splitColourEndpoints s) b

/-- **C42** (BC2): of any chain of setter calls the last one of each kind counts, and without any the settings are the
documented defaults (variant 1, split endpoints). -/
theorem C42_bc2_setters (l : List (ApiVariant ⊕ Bool)) :
    (setters2 .new l).getSettings =
      ⟨((l.filterMap Sum.getLeft?).getLast?.getD .variant1).toInternal, (l.filterMap Sum.getRight?).getLast?.getD true⟩ := by
  have key : ∀ (l : List (ApiVariant ⊕ Bool)) (b : Bc2.ManualBuilder) (v : ApiVariant), v.toInternal = b.settings.decorr →
      (setters2 b l).settings = ⟨((l.filterMap Sum.getLeft?).getLast?.getD v).toInternal,
        (l.filterMap Sum.getRight?).getLast?.getD b.settings.split⟩ := by
    intro l
    induction l with
    | nil => intro b v hv; simp [setters2, hv]
    | cons c l ih =>
      intro b v hv
      cases c with
      | inl w =>
        have := ih (b.decorrelationMode w) w rfl
        simp only [setters2, List.foldl_cons] at this ⊢
        rw [this]
        simp [Bc2.ManualBuilder.decorrelationMode, List.getLast?_cons]
      | inr s =>
        have := ih (b.splitColourEndpoints s) v hv
        simp only [setters2, List.foldl_cons] at this ⊢
        rw [this]
        simp [Bc2.ManualBuilder.splitColourEndpoints, List.getLast?_cons]
  exact key l .new .variant1 rfl

/-- What a manual builder's `transform` does: the safe function with the builder's settings. -/
theorem C42_bc2_manual_transform (m : Machine) (b : Bc2.ManualBuilder) (input output : Buf) :
    (input.length % 16 ≠ 0 → b.transform m input output = some (output, .error (.invalidLength input.length))) ∧
    (input.length % 16 = 0 → output.length < input.length →
      b.transform m input output = some (output, .error (.outputBufferTooSmall input.length output.length))) ∧
    (input.length % 16 = 0 → input.length ≤ output.length → ∃ out',
      Bc2.transformWithSettings m input output input.length b.getSettings = some out' ∧
      b.transform m input output = some (out', .ok ())) := by
  obtain ⟨h1, h2, h3⟩ := C16_bc2_transform_validation m input output b.settings
  unfold Bc2.ManualBuilder.transform
  refine ⟨fun h => by rw [h1 h]; rfl, fun h h' => by rw [h2 h h']; rfl, fun h h' => ?_⟩
  obtain ⟨o, h4, h5, _⟩ := h3 h h'
  exact ⟨o, h4, by rw [h5]; rfl⟩

/-- **C42** (BC2, manual): a builder restores what it transformed, on any machine of the same byte order and into any
buffer with enough room. -/
theorem C42_bc2_manual_reuse (m m' : Machine) (hm : m.endian = m'.endian) (b : Bc2.ManualBuilder)
    (input output out' : Buf) (h : b.transform m input output = some (out', .ok ()))
    (buf : Buf) (hb : input.length ≤ buf.length) :
    ∃ u, b.untransform m' (out'.take input.length) buf = some (u, .ok ()) ∧ u.take input.length = input := by
  obtain ⟨h1, h2, h3⟩ := C42_bc2_manual_transform m b input output
  by_cases h8 : input.length % 16 = 0
  · by_cases hl : input.length ≤ output.length
    · obtain ⟨o, h4, h5⟩ := h3 h8 hl
      rw [h] at h5
      obtain rfl : out' = o := by simpa using h5
      obtain ⟨t, r, ht, hr, hd⟩ := C02_bc2_lossless m m' hm b.getSettings input output buf h8 hl hb
      rw [h4] at ht
      obtain rfl : out' = t := by simpa using ht
      have hlen : (out'.take input.length).length = input.length := by
        have := (C16_bc2_transform_validation m input output b.settings).2.2 h8 hl
        obtain ⟨o, h6, _, h7, _⟩ := this
        rw [show b.settings = b.getSettings from rfl, h4] at h6
        obtain rfl : out' = o := by simpa using h6
        simp; omega
      refine ⟨r, ?_, hd⟩
      obtain ⟨u, h6, h7, _⟩ := (C16_bc2_untransform_validation m' (out'.take input.length) buf b.settings).2.2
        (by rw [hlen]; exact h8) (by omega)
      rw [hlen, show b.settings = b.getSettings from rfl, hr] at h6
      obtain rfl : r = u := by simpa using h6
      unfold Bc2.ManualBuilder.untransform
      rw [h7]; rfl
    · rw [h2 h8 (by omega)] at h; simp at h
  · rw [h1 h8] at h; simp at h

/-- **C42** (BC2, automatic): the manual builder that comes back would have produced the same output, and it restores
the input, whatever the estimator does. -/
theorem C42_bc2_auto_reuse {σ E : Type} (env : Env) (m m' : Machine) (hm : m.endian = m'.endian)
    (b : Bc2.AutoBuilder σ E) (input output out' : Buf) (st st' : σ) (mb : Bc2.ManualBuilder)
    (h : b.transform env m input output st = some (out', st', .ok mb)) :
    mb.transform m input output = some (out', .ok ()) ∧
    ∀ buf : Buf, input.length ≤ buf.length →
      ∃ u, mb.untransform m' (out'.take input.length) buf = some (u, .ok ()) ∧ u.take input.length = input := by
  have hmain : mb.transform m input output = some (out', .ok ()) := by
    obtain ⟨h1, h2, h3⟩ := C16_bc2_auto_validation env m b.estimator b.useAll input output st
    unfold Bc2.AutoBuilder.transform at h
    by_cases h8 : input.length % 16 = 0
    · by_cases hl : input.length ≤ output.length
      · obtain ⟨o, s2, r, h4, _, _, _, _, h5⟩ := h3 h8 hl
        rw [h4] at h
        cases r with
        | error e => simp at h
        | ok s =>
          obtain ⟨h6, _⟩ := h5 s rfl
          simp only [Option.bind_eq_bind, Option.bind_some, Option.pure_def, Option.some.injEq, Prod.mk.injEq,
            Except.ok.injEq] at h
          obtain ⟨rfl, _, rfl⟩ := h
          have : ((Bc2.ManualBuilder.new.decorrelationMode (.fromInternal s.decorr)).splitColourEndpoints s.split).settings
              = s := by
            obtain ⟨v, c⟩ := s
            cases v <;> rfl
          unfold Bc2.ManualBuilder.transform
          rw [this, h6]; rfl
      · rw [h2 h8 (by omega)] at h; simp at h
    · rw [h1 h8] at h; simp at h
  exact ⟨hmain, fun buf hb => C42_bc2_manual_reuse m m' hm mb input output out' hmain buf hb⟩

/-- A concrete case: one BC1 block through a builder with variant 2 and interleaved endpoints. -/
example : (((Bc1.ManualBuilder.new.decorrelationMode .variant2).splitColourEndpoints false).transform
    (.other .little fun _ => 0) [0x00, 0xF8, 0x1F, 0x00, 1, 2, 3, 4] [9, 9, 9, 9, 9, 9, 9, 9, 9]).map
      (fun (o, r) => (o.drop 4, r.toOption)) = some ([1, 2, 3, 4, 9], some ()) := by decide +kernel

/-- **C42** (BC2, automatic): whatever constructor and chain of `use_all_decorrelation_modes` calls made the builder, the last call
counts, else the constructor: `new` stands for the fast search, `new_ultra` for the exhaustive one.  The builder does what the safe
function does with that flag and names the same settings and errors. -/
theorem C42_bc2_auto_modes {σ E : Type} (env : Env) (m : Machine) (est : Estimator σ E) (ultra : Bool) (l : List Bool)
    (input output : Buf) (st : σ) :
    let b := l.foldl Bc2.AutoBuilder.useAllDecorrelationModes (if ultra then .newUltra est else .new est)
    let core := Bc2.transformAutoSafe env m est (l.getLast?.getD ultra) input output st
    (core = none → b.transform env m input output st = none) ∧
    ∀ o s, (∀ c, core = some (o, s, .ok c) → ∃ mb, b.transform env m input output st = some (o, s, .ok mb) ∧ mb.getSettings = c) ∧
      (∀ k, core = some (o, s, .error (.invalidLength k)) →
        b.transform env m input output st = some (o, s, .error (.invalidLength k))) ∧
      (∀ k j, core = some (o, s, .error (.outputBufferTooSmall k j)) →
        b.transform env m input output st = some (o, s, .error (.outputBufferTooSmall k j))) ∧
      (core = some (o, s, .error (.determineBest .allocate)) →
        b.transform env m input output st = some (o, s, .error .allocationFailed)) ∧
      ∀ e, core = some (o, s, .error (.determineBest (.sizeEstimation e))) →
        b.transform env m input output st = some (o, s, .error (.sizeEstimationFailed e)) := by
  have key : ∀ (l : List Bool) (b : Bc2.AutoBuilder σ E),
      l.foldl Bc2.AutoBuilder.useAllDecorrelationModes b = ⟨b.estimator, l.getLast?.getD b.useAll⟩ := by
    intro l
    induction l with
    | nil => intro b; rfl
    | cons c l ih =>
      intro b
      rw [List.foldl_cons, ih]
      simp [Bc2.AutoBuilder.useAllDecorrelationModes, List.getLast?_cons]
  intro b core
  have hb : b = ⟨est, l.getLast?.getD ultra⟩ := by
    change l.foldl _ _ = _
    rw [key]
    cases ultra <;> rfl
  rw [hb]
  have ht : ∀ r, core = r → Bc2.AutoBuilder.transform env m ⟨est, l.getLast?.getD ultra⟩ input output st =
      r.bind fun x => match x.2.2 with
        | .error e => some (x.1, x.2.1, .error (Bc2.fromAutoError e))
        | .ok c => some (x.1, x.2.1, .ok ((Bc2.ManualBuilder.new.decorrelationMode (.fromInternal c.decorr)).splitColourEndpoints c.split)) := by
    rintro r rfl
    rfl
  refine ⟨fun h => ht _ h, fun o s => ⟨fun c h => ⟨_, ht _ h, ?_⟩, fun k h => ht _ h, fun k j h => ht _ h, fun h => ht _ h, fun e h => ht _ h⟩⟩
  obtain ⟨v, c⟩ := c
  cases v <;> rfl

/-- A concrete case: the estimator counts its calls.  Eight settings are measured after `new_ultra`, four after `new`. -/
example :
    let est : Estimator Nat Unit := ⟨fun s _ => (s, .ok 0), fun s _ _ => (s + 1, .ok 1)⟩
    let calls := fun b : Bc2.AutoBuilder Nat Unit => (b.transform ⟨fun _ => true, 2 ^ 64 - 1⟩ (.other .little fun _ => 0)
      (List.replicate 16 7) (List.replicate 16 0) 0).map fun r => r.2.1
    (calls (.newUltra est), calls (.new est), calls ((Bc2.AutoBuilder.new est).useAllDecorrelationModes true)) =
      (some 8, some 4, some 8) := by decide +kernel

end Dlt.Props
