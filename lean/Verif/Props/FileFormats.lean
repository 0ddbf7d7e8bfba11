import Verif.Lemmas.FileFormats
import Verif.Props.Embed
/-!
# C35, C36: handler selection and dispatch by the embedded header
-/

namespace Dlt.Props

open Dlt.FileFormats Dlt.Embed

/-! ## Dispatch -/

/-- The settings a header word stands for: bit 6 is the split flag, bits 7 and 8 the variant. -/
def wordSettings (w : Nat) : ColourSettings := ⟨variantOf (w / 128 % 4), decide (w / 64 % 2 = 1)⟩

/-- **C36** (every header, every data): the result of `dispatch_untransform` is determined by the header word alone:
the four low bits choose the format, the next two must be zero, and the settings are read from bits 6 to 8.  An error
leaves the output untouched; otherwise the result is that of the core function of that format. -/
theorem C36_dispatch_obeys_header (m : Machine) (h : TransformHeader) (input output : Buf) :
    (output.length < input.length → dispatchUntransform m h input output =
      some (output, .error (.formatHandler (.outputBufferTooSmall input.length output.length)))) ∧
    (input.length ≤ output.length →
      (2 ≤ h.word.toNat % 16 →
        dispatchUntransform m h input output = some (output, .error .unknownTransformFormat)) ∧
      (h.word.toNat % 16 < 2 → h.word.toNat / 16 % 4 ≠ 0 →
        dispatchUntransform m h input output = some (output, .error (.embed .corruptedEmbeddedData))) ∧
      (h.word.toNat % 16 = 0 → h.word.toNat / 16 % 4 = 0 →
        (input.length % 8 ≠ 0 →
          dispatchUntransform m h input output = some (output, .error (.invalidDataAlignment input.length 8))) ∧
        (input.length % 8 = 0 → ∃ out',
          Bc1.untransformWithSettings m input output input.length (wordSettings h.word.toNat) = some out' ∧
          dispatchUntransform m h input output = some (out', .ok ()))) ∧
      (h.word.toNat % 16 = 1 → h.word.toNat / 16 % 4 = 0 →
        (input.length % 16 ≠ 0 →
          dispatchUntransform m h input output = some (output, .error (.invalidDataAlignment input.length 16))) ∧
        (input.length % 16 = 0 → ∃ out',
          Bc2.untransformWithSettings m input output input.length (wordSettings h.word.toNat) = some out' ∧
          dispatchUntransform m h input output = some (out', .ok ())))) := by
  obtain ⟨hd1, hd2⟩ := C25_bc1_bc2_decode h
  refine ⟨fun hl => by unfold dispatchUntransform; rw [if_pos hl], fun hl => ⟨fun ht => ?_, fun ht hv => ?_,
    fun ht hv => ⟨fun ha => ?_, fun ha => ?_⟩, fun ht hv => ⟨fun ha => ?_, fun ha => ?_⟩⟩⟩
  · unfold dispatchUntransform
    rw [if_neg (by omega), format_eq]
    split
    · next he => have : h.word.toNat % 16 = 0 := ofTag_eq he; omega
    · next he => have : h.word.toNat % 16 = 1 := ofTag_eq he; omega
    · rfl
  · unfold dispatchUntransform
    rw [if_neg (by omega), format_eq, hd1, hd2]
    obtain ht | ht : h.word.toNat % 16 = 0 ∨ h.word.toNat % 16 = 1 := by omega
    · rw [ht]; simp [ofTag, hv]
    · rw [ht]; simp [ofTag, hv]
  · unfold dispatchUntransform
    rw [if_neg (by omega), format_eq, hd1]
    rw [ht]; simp [ofTag, hv, ha]
  · obtain ⟨_, hr⟩ := Bc1.untransform_impl m (wordSettings h.word.toNat) input output ha hl
    refine ⟨_, hr, ?_⟩
    unfold dispatchUntransform
    rw [if_neg (by omega), format_eq, hd1]
    rw [ht]
    simp only [wordSettings] at hr ⊢
    simp [ofTag, hv, ha, hr]
  · unfold dispatchUntransform
    rw [if_neg (by omega), format_eq, hd2]
    rw [ht]; simp [ofTag, hv, ha]
  · obtain ⟨_, hr⟩ := Bc2.untransform_impl m (wordSettings h.word.toNat) input output ha hl
    refine ⟨_, hr, ?_⟩
    unfold dispatchUntransform
    rw [if_neg (by omega), format_eq, hd2]
    rw [ht]
    simp only [wordSettings] at hr ⊢
    simp [ofTag, hv, ha, hr]

/-- The header of a transform leads `dispatch_untransform` to the same settings. -/
theorem dispatch_toHeader_bc1 (m : Machine) (s : ColourSettings) (input output : Buf) (hl : input.length ≤ output.length)
    (h8 : input.length % 8 = 0) :
    dispatchUntransform m (Embed.bc1.toHeader s) input output =
      (Bc1.untransformWithSettings m input output input.length s).map fun o => (o, .ok ()) := by
  unfold dispatchUntransform
  rw [if_neg (by omega), show (Embed.bc1.toHeader s).format = some .bc1 from new_format _ _]
  have : Embed.bc1.fromHeader (Embed.bc1.toHeader s) = .ok s := by
    rw [fromHeader_toHeader _ _ (by obtain ⟨v, c⟩ := s; cases v <;> cases c <;> decide)]
    obtain ⟨v, c⟩ := s; cases v <;> cases c <;> rfl
  simp only [this, h8]
  cases Bc1.untransformWithSettings m input output input.length s <;> rfl

theorem dispatch_toHeader_bc2 (m : Machine) (s : ColourSettings) (input output : Buf) (hl : input.length ≤ output.length)
    (h16 : input.length % 16 = 0) :
    dispatchUntransform m (Embed.bc2.toHeader s) input output =
      (Bc2.untransformWithSettings m input output input.length s).map fun o => (o, .ok ()) := by
  unfold dispatchUntransform
  rw [if_neg (by omega), show (Embed.bc2.toHeader s).format = some .bc2 from new_format _ _]
  have : Embed.bc2.fromHeader (Embed.bc2.toHeader s) = .ok s := by
    rw [fromHeader_toHeader _ _ (by obtain ⟨v, c⟩ := s; cases v <;> cases c <;> decide)]
    obtain ⟨v, c⟩ := s; cases v <;> cases c <;> rfl
  simp only [this, h16]
  cases Bc2.untransformWithSettings m input output input.length s <;> rfl

/-- **C36** (round trip): with the header returned by `dispatch_transform`, `dispatch_untransform` restores the texture
data, for every bundle, every estimator, every machine of the same byte order and every buffer with enough room. -/
theorem C36_dispatch_roundtrip {σ E : Type} (env : Env) (m m' : Machine) (hm : m.endian = m'.endian) (dbg : E → String)
    (b : Bundle σ E) (f : TransformFormat) (input output out' : Buf) (st st' : σ) (h : TransformHeader)
    (ht : b.dispatchTransform env m dbg f input output st = some (out', st', .ok h))
    (buf : Buf) (hb : input.length ≤ buf.length) :
    ∃ u, dispatchUntransform m' h (out'.take input.length) buf = some (u, .ok ()) ∧
      u.take input.length = input ∧ u.drop input.length = buf.drop input.length := by
  obtain ⟨o, s2, r, h1, h2, h3, h4⟩ := dispatchTransform_spec env m dbg b f input output st
  rw [ht] at h1
  simp only [Option.some.injEq, Prod.mk.injEq] at h1
  obtain ⟨rfl, rfl, rfl⟩ := h1
  obtain ⟨hl, s, hc⟩ := h4 h rfl
  have hlen : (out'.take input.length).length = input.length := by simp; omega
  rcases hc with ⟨_, _, rfl, h8, hr⟩ | ⟨_, _, rfl, h8, hr⟩
  · obtain ⟨t, u, e1, e2, e3⟩ := C01_bc1_lossless m m' hm s input output buf h8 hl hb
    rw [hr] at e1
    obtain rfl : out' = t := by simpa using e1
    obtain ⟨e4, e5⟩ := Bc1.untransform_impl m' s (out'.take input.length) buf (by rw [hlen]; exact h8) (by omega)
    rw [hlen] at e5
    rw [hlen] at e4
    dsimp only at e5
    rw [e2] at e5
    have e6 : u.drop input.length = buf.drop input.length := by
      rw [Option.some.inj e5, List.drop_left' e4]
    refine ⟨u, ?_, e3, e6⟩
    rw [dispatch_toHeader_bc1 m' s _ _ (by omega) (by rw [hlen]; exact h8), hlen, e2]
    rfl
  · obtain ⟨t, u, e1, e2, e3⟩ := C02_bc2_lossless m m' hm s input output buf h8 hl hb
    rw [hr] at e1
    obtain rfl : out' = t := by simpa using e1
    obtain ⟨e4, e5⟩ := Bc2.untransform_impl m' s (out'.take input.length) buf (by rw [hlen]; exact h8) (by omega)
    rw [hlen] at e5
    rw [hlen] at e4
    dsimp only at e5
    rw [e2] at e5
    have e6 : u.drop input.length = buf.drop input.length := by
      rw [Option.some.inj e5, List.drop_left' e4]
    refine ⟨u, ?_, e3, e6⟩
    rw [dispatch_toHeader_bc2 m' s _ _ (by omega) (by rw [hlen]; exact h8), hlen, e2]
    rfl

/-- Non-vacuity: the default bundle transforms a BC1 block, and the header says so. -/
example : ((Bundle.defaultAll (σ := Unit) (E := Unit)).dispatchTransform ⟨fun _ => true, 2 ^ 64 - 1⟩
    (.other .little fun _ => 0) (fun _ => "") .bc1 [0, 0xF8, 0x1F, 0, 1, 2, 3, 4] (List.replicate 8 9) ()).map
      (fun (o, _, r) => (o.drop 4, r.toOption.map fun h => h.word.toNat)) = some ([1, 2, 3, 4], some 64) := by
  decide +kernel

/-- A call that adds a builder to a bundle. -/
inductive BundleCall (σ E : Type) where
  | bc1Manual (b : Bc1.ManualBuilder)
  | bc1Auto (b : Bc1.AutoBuilder σ E)
  | bc2Manual (b : Bc2.ManualBuilder)
  | bc2Auto (b : Bc2.AutoBuilder σ E)

/-- The bundle after a chain of calls. -/
def bundled {σ E : Type} (start : Bundle σ E) (l : List (BundleCall σ E)) : Bundle σ E :=
  l.foldl (fun b c => match c with
    | .bc1Manual x => b.withBc1Manual x
    | .bc1Auto x => b.withBc1Auto x
    | .bc2Manual x => b.withBc2Manual x
    | .bc2Auto x => b.withBc2Auto x) start

/-- The BC1 builder that a call adds. -/
def addsBc1 {σ E : Type} : BundleCall σ E → Option (Bc1.ManualBuilder ⊕ Bc1.AutoBuilder σ E)
  | .bc1Manual x => some (.inl x)
  | .bc1Auto x => some (.inr x)
  | _ => none

/-- The BC2 builder that a call adds. -/
def addsBc2 {σ E : Type} : BundleCall σ E → Option (Bc2.ManualBuilder ⊕ Bc2.AutoBuilder σ E)
  | .bc2Manual x => some (.inl x)
  | .bc2Auto x => some (.inr x)
  | _ => none

/-- **C36** (bundle, BC1): of the builders that were added for a format the last one counts, manual or automatic, and the builders for
the other format have no influence; without one the format is refused and nothing is written. -/
theorem C36_bundle_bc1 {σ E : Type} (env : Env) (m : Machine) (dbg : E → String) (l : List (BundleCall σ E)) (input output : Buf) (st : σ)
    (hl : input.length ≤ output.length) :
    let d := (bundled .new l).dispatchTransform env m dbg .bc1 input output st
    ((l.filterMap addsBc1).getLast? = none → d = some (output, st, .error (.formatHandler (.noBuilderForFormat .bc1)))) ∧
    (∀ b, (l.filterMap addsBc1).getLast? = some (.inl b) →
      (b.transform m input output = none → d = none) ∧
      (∀ o, b.transform m input output = some (o, .ok ()) → d = some (o, st, .ok (Embed.bc1.toHeader b.getSettings))) ∧
      ∀ o e, b.transform m input output = some (o, .error e) → d = some (o, st, .error (.bc1 e))) ∧
    ∀ b, (l.filterMap addsBc1).getLast? = some (.inr b) →
      (b.transform env m input output st = none → d = none) ∧
      (∀ o s mb, b.transform env m input output st = some (o, s, .ok mb) → d = some (o, s, .ok (Embed.bc1.toHeader mb.getSettings))) ∧
      (∀ o s k, b.transform env m input output st = some (o, s, .error (.invalidLength k)) →
        d = some (o, s, .error (.bc1 (.invalidLength k)))) ∧
      (∀ o s k j, b.transform env m input output st = some (o, s, .error (.outputBufferTooSmall k j)) →
        d = some (o, s, .error (.bc1 (.outputBufferTooSmall k j)))) ∧
      (∀ o s, b.transform env m input output st = some (o, s, .error .allocationFailed) →
        d = some (o, s, .error (.bc1 .allocationFailed))) ∧
      ∀ o s e, b.transform env m input output st = some (o, s, .error (.sizeEstimationFailed e)) →
        d = some (o, s, .error (.bc1 (.sizeEstimationFailed (dbg e)))) := by
  have key : ∀ (l : List (BundleCall σ E)) (b : Bundle σ E), (bundled b l).bc1 =
      ((l.filterMap addsBc1).getLast?.map fun x => match x with | .inl y => .manual y | .inr y => .auto y).or b.bc1 := by
    intro l
    induction l with
    | nil => intro b; rfl
    | cons c l ih =>
      intro b
      unfold bundled at ih ⊢
      rw [List.foldl_cons, ih]
      cases c <;>
        simp only [List.filterMap_cons, addsBc1, List.getLast?_cons, Bundle.withBc1Manual, Bundle.withBc1Auto, Bundle.withBc2Manual,
          Bundle.withBc2Auto] <;>
        cases (l.filterMap addsBc1).getLast? <;> rfl
  have hk := key l .new
  intro d
  have hd : d = (match (bundled .new l).bc1 with
      | none => some (output, st, .error (.formatHandler (.noBuilderForFormat .bc1)))
      | some builder => (builder.transformSliceWithDetails env m dbg input output st).bind fun x =>
          some (x.1, x.2.1, x.2.2.map Embed.bc1.toHeader)) := by
    change Bundle.dispatchTransform _ _ _ _ _ _ _ _ = _
    unfold Bundle.dispatchTransform
    rw [if_neg (by omega)]
    rfl
  refine ⟨fun h => ?_, fun b h => ?_, fun b h => ?_⟩
  · rw [hd, hk, h]; rfl
  · have hd : d = (b.transform m input output).bind fun x =>
        some (x.1, st, ((x.2.mapError TransformError.bc1).map fun _ => b.getSettings).map Embed.bc1.toHeader) := by
      rw [hd, hk, h]
      change ((b.transform m input output).bind _).bind _ = _
      cases b.transform m input output <;> rfl
    refine ⟨fun h => ?_, fun o h => ?_, fun o e h => ?_⟩ <;> rw [hd, h] <;> rfl
  · have hd : d = (b.transform env m input output st).bind fun x =>
        some (x.1, x.2.1, ((x.2.2.mapError fun e => TransformError.bc1 (mapBcError dbg e)).map fun s => s.getSettings).map
          Embed.bc1.toHeader) := by
      rw [hd, hk, h]
      change ((b.transform env m input output st).bind _).bind _ = _
      cases b.transform env m input output st <;> rfl
    refine ⟨fun h => ?_, fun o s mb h => ?_, fun o s k h => ?_, fun o s k j h => ?_, fun o s h => ?_, fun o s e h => ?_⟩ <;>
      rw [hd, h] <;> rfl

/-- **C36** (bundle, BC2): of the builders that were added for a format the last one counts, manual or automatic, and the builders for
the other format have no influence; without one the format is refused and nothing is written. -/
theorem C36_bundle_bc2 {σ E : Type} (env : Env) (m : Machine) (dbg : E → String) (l : List (BundleCall σ E)) (input output : Buf) (st : σ)
    (hl : input.length ≤ output.length) :
    let d := (bundled .new l).dispatchTransform env m dbg .bc2 input output st
    ((l.filterMap addsBc2).getLast? = none → d = some (output, st, .error (.formatHandler (.noBuilderForFormat .bc2)))) ∧
    (∀ b, (l.filterMap addsBc2).getLast? = some (.inl b) →
      (b.transform m input output = none → d = none) ∧
      (∀ o, b.transform m input output = some (o, .ok ()) → d = some (o, st, .ok (Embed.bc2.toHeader b.getSettings))) ∧
      ∀ o e, b.transform m input output = some (o, .error e) → d = some (o, st, .error (.bc2 e))) ∧
    ∀ b, (l.filterMap addsBc2).getLast? = some (.inr b) →
      (b.transform env m input output st = none → d = none) ∧
      (∀ o s mb, b.transform env m input output st = some (o, s, .ok mb) → d = some (o, s, .ok (Embed.bc2.toHeader mb.getSettings))) ∧
      (∀ o s k, b.transform env m input output st = some (o, s, .error (.invalidLength k)) →
        d = some (o, s, .error (.bc2 (.invalidLength k)))) ∧
      (∀ o s k j, b.transform env m input output st = some (o, s, .error (.outputBufferTooSmall k j)) →
        d = some (o, s, .error (.bc2 (.outputBufferTooSmall k j)))) ∧
      (∀ o s, b.transform env m input output st = some (o, s, .error .allocationFailed) →
        d = some (o, s, .error (.bc2 .allocationFailed))) ∧
      ∀ o s e, b.transform env m input output st = some (o, s, .error (.sizeEstimationFailed e)) →
        d = some (o, s, .error (.bc2 (.sizeEstimationFailed (dbg e)))) := by
  have key : ∀ (l : List (BundleCall σ E)) (b : Bundle σ E), (bundled b l).bc2 =
      ((l.filterMap addsBc2).getLast?.map fun x => match x with | .inl y => .manual y | .inr y => .auto y).or b.bc2 := by
    intro l
    induction l with
    | nil => intro b; rfl
    | cons c l ih =>
      intro b
      unfold bundled at ih ⊢
      rw [List.foldl_cons, ih]
      cases c <;>
        simp only [List.filterMap_cons, addsBc2, List.getLast?_cons, Bundle.withBc1Manual, Bundle.withBc1Auto, Bundle.withBc2Manual,
          Bundle.withBc2Auto] <;>
        cases (l.filterMap addsBc2).getLast? <;> rfl
  have hk := key l .new
  intro d
  have hd : d = (match (bundled .new l).bc2 with
      | none => some (output, st, .error (.formatHandler (.noBuilderForFormat .bc2)))
      | some builder => (builder.transformSliceWithDetails env m dbg input output st).bind fun x =>
          some (x.1, x.2.1, x.2.2.map Embed.bc2.toHeader)) := by
    change Bundle.dispatchTransform _ _ _ _ _ _ _ _ = _
    unfold Bundle.dispatchTransform
    rw [if_neg (by omega)]
    rfl
  refine ⟨fun h => ?_, fun b h => ?_, fun b h => ?_⟩
  · rw [hd, hk, h]; rfl
  · have hd : d = (b.transform m input output).bind fun x =>
        some (x.1, st, ((x.2.mapError TransformError.bc2).map fun _ => b.getSettings).map Embed.bc2.toHeader) := by
      rw [hd, hk, h]
      change ((b.transform m input output).bind _).bind _ = _
      cases b.transform m input output <;> rfl
    refine ⟨fun h => ?_, fun o h => ?_, fun o e h => ?_⟩ <;> rw [hd, h] <;> rfl
  · have hd : d = (b.transform env m input output st).bind fun x =>
        some (x.1, x.2.1, ((x.2.2.mapError fun e => TransformError.bc2 (mapBcError dbg e)).map fun s => s.getSettings).map
          Embed.bc2.toHeader) := by
      rw [hd, hk, h]
      change ((b.transform env m input output st).bind _).bind _ = _
      cases b.transform env m input output st <;> rfl
    refine ⟨fun h => ?_, fun o s mb h => ?_, fun o s k h => ?_, fun o s k j h => ?_, fun o s h => ?_, fun o s e h => ?_⟩ <;>
      rw [hd, h] <;> rfl

/-- A concrete case: the last builder counts. -/
example : ((bundled (σ := Unit) (E := Unit) .new [.bc1Manual .new, .bc2Manual .new,
    .bc1Manual ((Bc1.ManualBuilder.new.splitColourEndpoints false).decorrelationMode .none)]).dispatchTransform ⟨fun _ => true, 2 ^ 64 - 1⟩
    (.other .little fun _ => 0) (fun _ => "") .bc1 [0, 0xF8, 0x1F, 0, 1, 2, 3, 4] (List.replicate 8 9) ()).map
      (fun (o, _, r) => (o, r.toOption.map fun h => h.word.toNat)) = some ([0, 0xF8, 0x1F, 0, 1, 2, 3, 4], some 384) := by
  decide +kernel

/-! ## Handler selection -/

/-- Every handler of the list rejects the input; the state moves from the first to the second argument. -/
def AllReject {σ E : Type} (detect : Handler σ E → σ → Option (σ × Bool)) : List (Handler σ E) → σ → σ → Prop
  | [], st, st' => st' = st
  | h :: hs, st, st' => ∃ st1, detect h st = some (st1, false) ∧ AllReject detect hs st1 st'

/-- A handler is found: the ones before it reject, it accepts. -/
def Chosen {σ E : Type} (detect : Handler σ E → σ → Option (σ × Bool)) (hs : List (Handler σ E)) (st : σ)
    (h : Handler σ E) (st' : σ) : Prop :=
  ∃ pre post st1, hs = pre ++ h :: post ∧ AllReject detect pre st st1 ∧ detect h st1 = some (st', true)

/-- A handler's detection panics before one accepts. -/
def DetectPanics {σ E : Type} (detect : Handler σ E → σ → Option (σ × Bool)) (hs : List (Handler σ E)) (st : σ) : Prop :=
  ∃ pre h post st1, hs = pre ++ h :: post ∧ AllReject detect pre st st1 ∧ detect h st1 = none

/-- One of the three always happens. -/
theorem selection_cases {σ E : Type} (detect : Handler σ E → σ → Option (σ × Bool)) :
    ∀ (hs : List (Handler σ E)) (st : σ),
      (∃ st', AllReject detect hs st st') ∨ (∃ h st', Chosen detect hs st h st') ∨ DetectPanics detect hs st
  | [], st => .inl ⟨st, rfl⟩
  | h :: hs, st => by
    rcases hd : detect h st with _ | ⟨st1, yes⟩
    · exact .inr (.inr ⟨[], h, hs, st, rfl, rfl, hd⟩)
    · cases yes with
      | true => exact .inr (.inl ⟨h, st1, [], hs, st, rfl, rfl, hd⟩)
      | false =>
        rcases selection_cases detect hs st1 with ⟨st', h1⟩ | ⟨h', st', pre, post, st2, h1, h2, h3⟩ |
          ⟨pre, h', post, st2, h1, h2, h3⟩
        · exact .inl ⟨st', st1, hd, h1⟩
        · exact .inr (.inl ⟨h', st', h :: pre, post, st2, by rw [h1]; rfl, ⟨st1, hd, h2⟩, h3⟩)
        · exact .inr (.inr ⟨h :: pre, h', post, st2, by rw [h1]; rfl, ⟨st1, hd, h2⟩, h3⟩)

theorem tryTransform_skip {σ E : Type} (ext : Option String) (input output : Buf) (bundle : Bundle σ E)
    (rest : List (Handler σ E)) (st' : σ) : ∀ (pre : List (Handler σ E)) (st : σ),
      AllReject (fun h => h.canHandle input ext) pre st st' →
      tryTransform ext input output bundle (pre ++ rest) st = tryTransform ext input output bundle rest st'
  | [], st, h => by cases h; rfl
  | h :: hs, st, ⟨st1, h1, h2⟩ => by
    rw [List.cons_append, tryTransform]
    simp only at h1
    rw [h1]
    exact tryTransform_skip ext input output bundle rest st' hs st1 h2

theorem tryUntransform_skip {σ E : Type} (ext : Option String) (input output : Buf)
    (rest : List (Handler σ E)) (st' : σ) : ∀ (pre : List (Handler σ E)) (st : σ),
      AllReject (fun h => h.canHandleUntransform input ext) pre st st' →
      tryUntransform ext input output (pre ++ rest) st = tryUntransform ext input output rest st'
  | [], st, h => by cases h; rfl
  | h :: hs, st, ⟨st1, h1, h2⟩ => by
    rw [List.cons_append, tryUntransform]
    simp only at h1
    rw [h1]
    exact tryUntransform_skip ext input output rest st' hs st1 h2

/-- **C35** (transform): for every list of handlers with any behaviour, asked without a file extension.
The first handler that accepts transforms the file and comes back; if none accepts the result is `NoSupportedHandler`
and the output is untouched.  Together with `selection_cases` this covers every list. -/
theorem C35_transform_selection {σ E : Type} (hs : List (Handler σ E)) (input output : Buf) (bundle : Bundle σ E)
    (st : σ) :
    (output.length < input.length → transformSliceWithMultipleHandlers hs input output bundle st =
      some (output, st, .error (.formatHandler (.outputBufferTooSmall input.length output.length)))) ∧
    (input.length ≤ output.length →
      (∀ h st', Chosen (fun h => h.canHandle input none) hs st h st' →
        transformSliceWithMultipleHandlers hs input output bundle st =
          (h.transformBundle bundle input output st').map fun (o, s, r) => (o, s, r.map fun _ => h)) ∧
      (∀ st', AllReject (fun h => h.canHandle input none) hs st st' →
        transformSliceWithMultipleHandlers hs input output bundle st = some (output, st', .error .noSupportedHandler)) ∧
      (DetectPanics (fun h => h.canHandle input none) hs st →
        transformSliceWithMultipleHandlers hs input output bundle st = none)) := by
  unfold transformSliceWithMultipleHandlers
  refine ⟨fun hl => by rw [if_pos hl], fun hl => ?_⟩
  rw [if_neg (by omega)]
  refine ⟨?_, ?_, ?_⟩
  · rintro h st' ⟨pre, post, st1, rfl, h1, h2⟩
    rw [tryTransform_skip none input output bundle _ st1 pre st h1, tryTransform]
    simp only at h2
    rw [h2]
    simp only [Option.bind_eq_bind, Option.bind_some, if_true]
    cases h.transformBundle bundle input output st' <;> rfl
  · intro st' h
    have := tryTransform_skip none input output bundle [] st' hs st h
    rw [List.append_nil] at this
    rw [this]; rfl
  · rintro ⟨pre, h, post, st1, rfl, h1, h2⟩
    rw [tryTransform_skip none input output bundle _ st1 pre st h1, tryTransform]
    simp only at h2
    rw [h2]
    rfl

/-- **C35** (untransform). -/
theorem C35_untransform_selection {σ E : Type} (hs : List (Handler σ E)) (input output : Buf) (st : σ) :
    (output.length < input.length → untransformSliceWithMultipleHandlers hs input output st =
      some (output, st, .error (.formatHandler (.outputBufferTooSmall input.length output.length)))) ∧
    (input.length ≤ output.length →
      (∀ h st', Chosen (fun h => h.canHandleUntransform input none) hs st h st' →
        untransformSliceWithMultipleHandlers hs input output st =
          (h.untransform input output st').map fun (o, s, r) => (o, s, r.map fun _ => h)) ∧
      (∀ st', AllReject (fun h => h.canHandleUntransform input none) hs st st' →
        untransformSliceWithMultipleHandlers hs input output st = some (output, st', .error .noSupportedHandler)) ∧
      (DetectPanics (fun h => h.canHandleUntransform input none) hs st →
        untransformSliceWithMultipleHandlers hs input output st = none)) := by
  unfold untransformSliceWithMultipleHandlers
  refine ⟨fun hl => by rw [if_pos hl], fun hl => ?_⟩
  rw [if_neg (by omega)]
  refine ⟨?_, ?_, ?_⟩
  · rintro h st' ⟨pre, post, st1, rfl, h1, h2⟩
    rw [tryUntransform_skip none input output _ st1 pre st h1, tryUntransform]
    simp only at h2
    rw [h2]
    simp only [Option.bind_eq_bind, Option.bind_some, if_true]
    cases h.untransform input output st' <;> rfl
  · intro st' h
    have := tryUntransform_skip none input output [] st' hs st h
    rw [List.append_nil] at this
    rw [this]; rfl
  · rintro ⟨pre, h, post, st1, rfl, h1, h2⟩
    rw [tryUntransform_skip none input output _ st1 pre st h1, tryUntransform]
    simp only at h2
    rw [h2]
    rfl

end Dlt.Props
