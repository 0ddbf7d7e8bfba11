import Verif.Model.Builders
import Verif.Model.Embed
/-!
# File format API: bundles, dispatch and handler selection

Models `/repo/src/api/dxt-lossless-transform-file-formats-api/src`: error.rs, bundle/, handlers/dispatch.rs, api.rs.

Every call takes the output slice and yields the output slice afterwards; `none` is a panic or undefined behaviour.
Estimators and handlers may keep state of their own (interior mutability): all of it is one value of an arbitrary type
`σ` that is passed through every call.
-/

namespace Dlt.FileFormats

open Dlt.Embed

/-- `FormatHandlerError`, error.rs:17-49. -/
inductive FormatHandlerError where
  | unknownFileFormat
  | invalidInputFileHeader
  | invalidRestoredFileHeader
  | formatNotImplemented (f : TransformFormat)
  | noBuilderForFormat (f : TransformFormat)
  | outputBufferTooSmall (required actual : Nat)
  | inputTooShort (required actual : Nat)
  | inputTooShortForStatedTextureSize (required actual : Nat)
  deriving DecidableEq, Repr

/-- `TransformError`, error.rs:56-87. -/
inductive TransformError where
  | embed (e : EmbedError)
  | formatHandler (e : FormatHandlerError)
  | bc1 (e : BcError String)
  | bc2 (e : BcError String)
  | unknownTransformFormat
  | invalidDataAlignment (size requiredDivisor : Nat)
  | noSupportedHandler
  deriving DecidableEq, Repr

/-- What a call with an output slice and an estimator leaves behind. -/
abbrev Res (σ α : Type) := Buf × σ × Except TransformError α

/-- `Bc1Builder<T>`, bundle/bc1.rs:16-24. -/
inductive Bc1Builder (σ E : Type) where
  | manual (b : Bc1.ManualBuilder)
  | auto (b : Bc1.AutoBuilder σ E)

/-- `Bc2Builder<T>`, bundle/bc2.rs:16-24. -/
inductive Bc2Builder (σ E : Type) where
  | manual (b : Bc2.ManualBuilder)
  | auto (b : Bc2.AutoBuilder σ E)

/-- The error mapping of the automatic case, bundle/bc1.rs:56-68 (bundle/bc2.rs: same lines); `dbg` is
`format!("{err:?}")`. -/
def mapBcError {E : Type} (dbg : E → String) : BcError E → BcError String
  | .invalidLength len => .invalidLength len
  | .outputBufferTooSmall needed actual => .outputBufferTooSmall needed actual
  | .allocationFailed => .allocationFailed
  | .sizeEstimationFailed e => .sizeEstimationFailed (dbg e)

/-- `Bc1Builder::transform_slice_with_details`, bundle/bc1.rs:43-71. -/
def Bc1Builder.transformSliceWithDetails {σ E : Type} (env : Env) (m : Machine) (dbg : E → String) (b : Bc1Builder σ E)
    (input output : Buf) (st : σ) : Option (Res σ ColourSettings) :=
  match b with
  | .manual b => do
    let settings := b.getSettings
    let (output, r) ← b.transform m input output
    pure (output, st, (r.mapError TransformError.bc1).map fun _ => settings)
  | .auto b => do
    let (output, st, r) ← b.transform env m input output st
    pure (output, st, (r.mapError fun e => TransformError.bc1 (mapBcError dbg e)).map fun settings => settings.getSettings)

/-- `Bc2Builder::transform_slice_with_details`, bundle/bc2.rs:43-71. -/
def Bc2Builder.transformSliceWithDetails {σ E : Type} (env : Env) (m : Machine) (dbg : E → String) (b : Bc2Builder σ E)
    (input output : Buf) (st : σ) : Option (Res σ ColourSettings) :=
  match b with
  | .manual b => do
    let settings := b.getSettings
    let (output, r) ← b.transform m input output
    pure (output, st, (r.mapError TransformError.bc2).map fun _ => settings)
  | .auto b => do
    let (output, st, r) ← b.transform env m input output st
    pure (output, st, (r.mapError fun e => TransformError.bc2 (mapBcError dbg e)).map fun settings => settings.getSettings)

/-- `TransformBundle<T>`, bundle/mod.rs:37-49 (the `PhantomData` fields are left out). -/
structure Bundle (σ E : Type) where
  bc1 : Option (Bc1Builder σ E)
  bc2 : Option (Bc2Builder σ E)

namespace Bundle

/-- `TransformBundle::new` and `default`, bundle/mod.rs:51-75. -/
def new {σ E : Type} : Bundle σ E := ⟨none, none⟩

/-- `with_bc1_manual`, bundle/mod.rs:78-84. -/
def withBc1Manual {σ E : Type} (self : Bundle σ E) (b : Bc1.ManualBuilder) : Bundle σ E :=
  { self with bc1 := some (.manual b) }

/-- `with_bc1_auto`, bundle/mod.rs:87-93. -/
def withBc1Auto {σ E : Type} (self : Bundle σ E) (b : Bc1.AutoBuilder σ E) : Bundle σ E :=
  { self with bc1 := some (.auto b) }

/-- `with_bc2_manual`, bundle/mod.rs:96-102. -/
def withBc2Manual {σ E : Type} (self : Bundle σ E) (b : Bc2.ManualBuilder) : Bundle σ E :=
  { self with bc2 := some (.manual b) }

/-- `with_bc2_auto`, bundle/mod.rs:105-111. -/
def withBc2Auto {σ E : Type} (self : Bundle σ E) (b : Bc2.AutoBuilder σ E) : Bundle σ E :=
  { self with bc2 := some (.auto b) }

/-- `default_all`, bundle/mod.rs:180-187. -/
def defaultAll {σ E : Type} : Bundle σ E := ⟨some (.manual .new), some (.manual .new)⟩

/-- `TransformBundle::dispatch_transform`, bundle/mod.rs:125-169, and the function of the same name that calls it,
handlers/dispatch.rs:130-141. -/
def dispatchTransform {σ E : Type} (env : Env) (m : Machine) (dbg : E → String) (self : Bundle σ E)
    (format : TransformFormat) (input output : Buf) (st : σ) : Option (Res σ TransformHeader) :=
  if output.length < input.length then
    some (output, st, .error (.formatHandler (.outputBufferTooSmall input.length output.length)))
  else
    match format with
    | .bc1 =>
      match self.bc1 with
      | none => some (output, st, .error (.formatHandler (.noBuilderForFormat .bc1)))
      | some builder => do
        let (output, st, r) ← builder.transformSliceWithDetails env m dbg input output st
        pure (output, st, r.map Embed.bc1.toHeader)
    | .bc2 =>
      match self.bc2 with
      | none => some (output, st, .error (.formatHandler (.noBuilderForFormat .bc2)))
      | some builder => do
        let (output, st, r) ← builder.transformSliceWithDetails env m dbg input output st
        pure (output, st, r.map Embed.bc2.toHeader)
    | _ => some (output, st, .error .unknownTransformFormat)

end Bundle

/-- `dispatch_untransform`, handlers/dispatch.rs:39-100. -/
def dispatchUntransform (m : Machine) (header : TransformHeader) (input output : Buf) :
    Option (Buf × Except TransformError Unit) :=
  if output.length < input.length then
    some (output, .error (.formatHandler (.outputBufferTooSmall input.length output.length)))
  else
    match header.format with
    | some .bc1 =>
      match Embed.bc1.fromHeader header with
      | .error e => some (output, .error (.embed e))
      | .ok details =>
        if input.length % 8 ≠ 0 then some (output, .error (.invalidDataAlignment input.length 8))
        else do
          let output ← Bc1.untransformWithSettings m input output input.length details
          pure (output, .ok ())
    | some .bc2 =>
      match Embed.bc2.fromHeader header with
      | .error e => some (output, .error (.embed e))
      | .ok details =>
        if input.length % 16 ≠ 0 then some (output, .error (.invalidDataAlignment input.length 16))
        else do
          let output ← Bc2.untransformWithSettings m input output input.length details
          pure (output, .ok ())
    | _ => some (output, .error .unknownTransformFormat)

/-- A file format handler: the traits `FileFormatHandler` (handlers/file_format_handler.rs), `FileFormatDetection`
(handlers/file_format_detection.rs) and `FileFormatUntransformDetection`
(handlers/file_format_untransform_detection.rs) as arbitrary functions. -/
structure Handler (σ E : Type) where
  /-- `transform_bundle` -/
  transformBundle : Bundle σ E → Buf → Buf → σ → Option (Res σ Unit)
  /-- `untransform` -/
  untransform : Buf → Buf → σ → Option (Res σ Unit)
  /-- `can_handle` -/
  canHandle : Buf → Option String → σ → Option (σ × Bool)
  /-- `can_handle_untransform` -/
  canHandleUntransform : Buf → Option String → σ → Option (σ × Bool)

/-- `transform_slice_with_bundle`, api.rs:38-58. -/
def transformSliceWithBundle {σ E : Type} (h : Handler σ E) (input output : Buf) (bundle : Bundle σ E) (st : σ) :
    Option (Res σ Unit) :=
  if output.length < input.length then
    some (output, st, .error (.formatHandler (.outputBufferTooSmall input.length output.length)))
  else h.transformBundle bundle input output st

/-- `untransform_slice`, api.rs:86-101. -/
def untransformSlice {σ E : Type} (h : Handler σ E) (input output : Buf) (st : σ) : Option (Res σ Unit) :=
  if output.length < input.length then
    some (output, st, .error (.formatHandler (.outputBufferTooSmall input.length output.length)))
  else h.untransform input output st

/-- The loop of `transform_slice_with_multiple_handlers`, api.rs:155-165. -/
def tryTransform {σ E : Type} (ext : Option String) (input output : Buf) (bundle : Bundle σ E) :
    List (Handler σ E) → σ → Option (Res σ (Handler σ E))
  | [], st => some (output, st, .error .noSupportedHandler)
  | h :: hs, st => do
    let (st, yes) ← h.canHandle input ext st
    if yes then
      let (output, st, r) ← h.transformBundle bundle input output st
      pure (output, st, r.map fun _ => h)
    else tryTransform ext input output bundle hs st

/-- `transform_slice_with_multiple_handlers`, api.rs:134-165.  The handler comes back by value. -/
def transformSliceWithMultipleHandlers {σ E : Type} (hs : List (Handler σ E)) (input output : Buf)
    (bundle : Bundle σ E) (st : σ) : Option (Res σ (Handler σ E)) :=
  if output.length < input.length then
    some (output, st, .error (.formatHandler (.outputBufferTooSmall input.length output.length)))
  else tryTransform none input output bundle hs st

/-- The loop of `untransform_slice_with_multiple_handlers`, api.rs:213-223. -/
def tryUntransform {σ E : Type} (ext : Option String) (input output : Buf) :
    List (Handler σ E) → σ → Option (Res σ (Handler σ E))
  | [], st => some (output, st, .error .noSupportedHandler)
  | h :: hs, st => do
    let (st, yes) ← h.canHandleUntransform input ext st
    if yes then
      let (output, st, r) ← h.untransform input output st
      pure (output, st, r.map fun _ => h)
    else tryUntransform ext input output hs st

/-- `untransform_slice_with_multiple_handlers`, api.rs:195-223. -/
def untransformSliceWithMultipleHandlers {σ E : Type} (hs : List (Handler σ E)) (input output : Buf) (st : σ) :
    Option (Res σ (Handler σ E)) :=
  if output.length < input.length then
    some (output, st, .error (.formatHandler (.outputBufferTooSmall input.length output.length)))
  else tryUntransform none input output hs st

end Dlt.FileFormats
