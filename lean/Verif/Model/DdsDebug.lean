import Verif.Model.DebugAsserts
import Verif.Model.Dds
/-!
# The DDS handler in builds with debug assertions

The way from `DdsHandler` to the kernels with the `debug_assert!`s of `Model/DebugAsserts.lean`.  Neither the handler nor
the file format API nor the builders have assertions of their own, and the kernels of BC2 have none that can fail, so
only the calls for BC1 differ from the ones in `Model/Builders.lean`, `Model/FileFormats.lean` and `Model/Dds.lean`.
Overflow checks remain a separate switch of the platform, as they are for the compiler.
-/

namespace Dlt

namespace Bc1

/-- `Bc1ManualTransformBuilder::transform`, bc1-api manual_transform_builder.rs:106-109. -/
def ManualBuilder.transformDebug (m : Machine) (b : ManualBuilder) (input output : Buf) :
    Option (Buf × Except (BcError String) Unit) := do
  let (output, r) ← Bc1.transformSafeDebug m input output b.settings
  pure (output, r.mapError .fromValidation)

/-- `Bc1AutoTransformBuilder::transform`, bc1-api auto_transform_builder.rs:123-141. -/
def AutoBuilder.transformDebug {σ E : Type} (env : Env) (m : Machine) (b : AutoBuilder σ E) (input output : Buf) (st : σ) :
    Option (Buf × σ × Except (BcError E) ManualBuilder) := do
  let (output, st, r) ← Bc1.transformAutoSafeDebug env m b.estimator b.useAll input output st
  match r with
  | .error e => pure (output, st, .error (fromAutoError e))
  | .ok s => pure (output, st, .ok ((ManualBuilder.new.decorrelationMode (.fromInternal s.decorr)).splitColourEndpoints s.split))

end Bc1

namespace FileFormats

open Dlt.Embed

/-- `Bc1Builder::transform_slice_with_details`, bundle/bc1.rs:43-71. -/
def Bc1Builder.transformSliceWithDetailsDebug {σ E : Type} (env : Env) (m : Machine) (dbg : E → String) (b : Bc1Builder σ E)
    (input output : Buf) (st : σ) : Option (Res σ ColourSettings) :=
  match b with
  | .manual b => do
    let settings := b.getSettings
    let (output, r) ← b.transformDebug m input output
    pure (output, st, (r.mapError TransformError.bc1).map fun _ => settings)
  | .auto b => do
    let (output, st, r) ← b.transformDebug env m input output st
    pure (output, st, (r.mapError fun e => TransformError.bc1 (mapBcError dbg e)).map fun settings => settings.getSettings)

/-- `TransformBundle::dispatch_transform`, bundle/mod.rs:125-169. -/
def Bundle.dispatchTransformDebug {σ E : Type} (env : Env) (m : Machine) (dbg : E → String) (self : Bundle σ E)
    (format : TransformFormat) (input output : Buf) (st : σ) : Option (Res σ TransformHeader) :=
  if output.length < input.length then
    some (output, st, .error (.formatHandler (.outputBufferTooSmall input.length output.length)))
  else
    match format with
    | .bc1 =>
      match self.bc1 with
      | none => some (output, st, .error (.formatHandler (.noBuilderForFormat .bc1)))
      | some builder => do
        let (output, st, r) ← builder.transformSliceWithDetailsDebug env m dbg input output st
        pure (output, st, r.map Embed.bc1.toHeader)
    | .bc2 =>
      match self.bc2 with
      | none => some (output, st, .error (.formatHandler (.noBuilderForFormat .bc2)))
      | some builder => do
        let (output, st, r) ← builder.transformSliceWithDetails env m dbg input output st
        pure (output, st, r.map Embed.bc2.toHeader)
    | _ => some (output, st, .error .unknownTransformFormat)

/-- `dispatch_untransform`, handlers/dispatch.rs:39-100. -/
def dispatchUntransformDebug (m : Machine) (header : TransformHeader) (input output : Buf) :
    Option (Buf × Except TransformError Unit) :=
  if output.length < input.length then
    some (output, .error (.formatHandler (.outputBufferTooSmall input.length output.length)))
  else
    match header.format with
    | some .bc1 =>
      match Embed.bc1.fromHeader header with
      | .error e => some (output, .error (.embed e))
      | .ok details =>
        if input.length % 8 ≠ 0 then some (output, .error (.invalidDataAlignment input.length 8))
        else if Bc1.untransformAsserts m details ∧ input.length / 8 = 0 then none
        else do
          let output ← Bc1.untransformWithSettings m input output input.length details
          pure (output, .ok ())
    | some .bc2 =>
      match Embed.bc2.fromHeader header with
      | .error e => some (output, .error (.embed e))
      | .ok details =>
        if input.length % 16 ≠ 0 then some (output, .error (.invalidDataAlignment input.length 16))
        else do
          let output ← Bc2.untransformWithSettings m input output input.length details
          pure (output, .ok ())
    | _ => some (output, .error .unknownTransformFormat)

end FileFormats

namespace Dds

open Dlt.FileFormats Dlt.Embed

/-- `DdsHandler::transform_bundle`, handler/file_format_handler.rs:16-78, calling `dispatch` for the texture. -/
def transformBundleWith {σ : Type} (p : Platform)
    (dispatch : TransformFormat → Buf → Buf → σ → Option (Res σ TransformHeader)) (input output : Buf) (st : σ) :
    Option (Res σ Unit) :=
  if output.length < input.length then
    some (output, st, .error (.formatHandler (.outputBufferTooSmall input.length output.length)))
  else do
    match ← parseDds p input with
    | none => pure (output, st, .error (.formatHandler .invalidInputFileHeader))
    | some info =>
      let dataOffset := info.dataOffset.toNat
      let dataLength := info.dataLength.toNat
      let total ← p.addUsize dataOffset dataLength
      if input.length < total then
        pure (output, st, .error (.formatHandler (.inputTooShortForStatedTextureSize total input.length)))
      else
        let hdr ← subslice input 0 dataOffset
        let output ← copyFromSlice output 0 dataOffset hdr
        match toTransformFormat info.format false with
        | .error e => pure (output, st, .error e)
        | .ok format =>
          let stop ← p.addUsize dataOffset dataLength
          let texIn ← subslice input dataOffset stop
          let texOut ← subslice output dataOffset stop
          let (texOut, st, r) ← dispatch format texIn texOut st
          let output ← Dlt.st output dataOffset texOut
          match r with
          | .error e => pure (output, st, .error e)
          | .ok header =>
            let leftoverStart ← p.addUsize dataOffset dataLength
            let output ← copyLeftover input output leftoverStart
            let output ← header.write p.m.endian output 0
            pure (output, st, .ok ())

/-- `DdsHandler::untransform`, handler/file_format_handler.rs:80-139, calling `dispatch` for the texture. -/
def untransformWith (p : Platform) (dispatch : TransformHeader → Buf → Buf → Option (Buf × Except TransformError Unit))
    (input output : Buf) : Option (Buf × Except TransformError Unit) :=
  if input.length < 4 then some (output, .error (.formatHandler (.inputTooShort 4 input.length)))
  else if output.length < input.length then
    some (output, .error (.formatHandler (.outputBufferTooSmall input.length output.length)))
  else do
    let header ← TransformHeader.read p.m.endian input 0
    match ← parseIgnoreMagic p input with
    | none => pure (output, .error (.formatHandler .invalidRestoredFileHeader))
    | some info =>
      let dataOffset := info.dataOffset.toNat
      let dataLength := info.dataLength.toNat
      let total ← p.addUsize dataOffset dataLength
      if input.length < total then
        pure (output, .error (.formatHandler (.inputTooShortForStatedTextureSize total input.length)))
      else
        let output ← copyFromSlice output 0 4 (to32 .little 0x20534444#32)
        let hdr ← subslice input 4 dataOffset
        let output ← copyFromSlice output 4 dataOffset hdr
        let stop ← p.addUsize dataOffset dataLength
        let texIn ← subslice input dataOffset stop
        let texOut ← subslice output dataOffset stop
        let (texOut, r) ← dispatch header texIn texOut
        let output ← Dlt.st output dataOffset texOut
        match r with
        | .error e => pure (output, .error e)
        | .ok () =>
          let leftoverStart ← p.addUsize dataOffset dataLength
          let output ← copyLeftover input output leftoverStart
          pure (output, .ok ())

/-- The two functions are the ones of `Model/Dds.lean`. -/
theorem transformBundleWith_eq {σ E : Type} (p : Platform) (dbg : E → String) (bundle : Bundle σ E) (input output : Buf)
    (st : σ) : transformBundleWith p (bundle.dispatchTransform p.env p.m dbg) input output st =
      transformBundle p dbg bundle input output st := rfl

theorem untransformWith_eq (p : Platform) (input output : Buf) :
    untransformWith p (dispatchUntransform p.m) input output = untransform p input output := rfl

/-- `DdsHandler::transform_bundle` in a debug build. -/
def transformBundleDebug {σ E : Type} (p : Platform) (dbg : E → String) (bundle : Bundle σ E) (input output : Buf) (st : σ) :
    Option (Res σ Unit) :=
  transformBundleWith p (bundle.dispatchTransformDebug p.env p.m dbg) input output st

/-- `DdsHandler::untransform` in a debug build. -/
def untransformDebug (p : Platform) (input output : Buf) : Option (Buf × Except TransformError Unit) :=
  untransformWith p (dispatchUntransformDebug p.m) input output

end Dds

end Dlt
