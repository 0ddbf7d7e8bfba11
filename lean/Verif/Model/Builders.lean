import Verif.Model.Safe
import Verif.Model.Auto
/-!
# The Rust builders of the BC1 and BC2 APIs

Models `/repo/src/api/dxt-lossless-transform-bc1-api/src` (error.rs, transform/manual_transform_builder.rs,
transform/auto_transform_builder.rs), the same files of `dxt-lossless-transform-bc2-api`, which differ from them only in
the names and the block size in comments, and `YCoCgVariant` of
`/repo/src/api/dxt-lossless-transform-api-common/src/reexports/color_565.rs`.
-/

namespace Dlt

/-- The API's own `YCoCgVariant`, color_565.rs:65-91. -/
inductive ApiVariant where
  | variant1 | variant2 | variant3 | none
  deriving DecidableEq, Repr

namespace ApiVariant

/-- `YCoCgVariant::default`, color_565.rs:93-98. -/
def default : ApiVariant := .none

/-- `all_variants`, color_565.rs:111-113. -/
def allVariants : List ApiVariant := [.variant1, .variant2, .variant3, .none]

/-- `is_transforming`, color_565.rs:122-124. -/
def isTransforming : ApiVariant → Bool
  | .none => false
  | _ => true

/-- `to_internal_variant`, color_565.rs:134-142. -/
def toInternal : ApiVariant → Variant
  | .variant1 => .v1
  | .variant2 => .v2
  | .variant3 => .v3
  | .none => .none

/-- `from_internal_variant`, color_565.rs:156-166. -/
def fromInternal : Variant → ApiVariant
  | .v1 => .variant1
  | .v2 => .variant2
  | .v3 => .variant3
  | .none => .none

end ApiVariant

/-- `Bc1Error<E>`, bc1-api error.rs:11-35; `Bc2Error<E>` (bc2-api, same lines) has the same cases. -/
inductive BcError (E : Type) where
  | invalidLength (len : Nat)
  | outputBufferTooSmall (needed actual : Nat)
  | allocationFailed
  | sizeEstimationFailed (e : E)
  deriving DecidableEq, Repr

/-- `from_validation_error`, bc1-api error.rs:44-51 (bc2-api: same lines). -/
def BcError.fromValidation {E : Type} : ValidationError → BcError E
  | .invalidLength len => .invalidLength len
  | .outputBufferTooSmall needed actual => .outputBufferTooSmall needed actual

namespace Bc1

/-- `from_auto_transform_error`, bc1-api error.rs:54-67. -/
def fromAutoError {E : Type} : AutoError E → BcError E
  | .invalidLength len => .invalidLength len
  | .outputBufferTooSmall needed actual => .outputBufferTooSmall needed actual
  | .determineBest .allocate => .allocationFailed
  | .determineBest (.sizeEstimation e) => .sizeEstimationFailed e

/-- `Bc1ManualTransformBuilder`, manual_transform_builder.rs:17-20. -/
structure ManualBuilder where
  settings : ColourSettings
  deriving DecidableEq, Repr

namespace ManualBuilder

/-- `Bc1ManualTransformBuilder::new`, manual_transform_builder.rs:24-28, and `default`. -/
def new : ManualBuilder := ⟨defaultSettings⟩

/-- `get_settings`, manual_transform_builder.rs:37-39. -/
def getSettings (b : ManualBuilder) : ColourSettings := b.settings

/-- `decorrelation_mode`, manual_transform_builder.rs:52-55. -/
def decorrelationMode (b : ManualBuilder) (mode : ApiVariant) : ManualBuilder :=
  ⟨{ b.settings with decorr := mode.toInternal }⟩

/-- `split_colour_endpoints`, manual_transform_builder.rs:65-68. -/
def splitColourEndpoints (b : ManualBuilder) (split : Bool) : ManualBuilder :=
  ⟨{ b.settings with split := split }⟩

/-- `transform`, manual_transform_builder.rs:106-109. -/
def transform (m : Machine) (b : ManualBuilder) (input output : Buf) : Option (Buf × Except (BcError String) Unit) := do
  let (output, r) ← Bc1.transformSafe m input output b.settings
  pure (output, r.mapError .fromValidation)

/-- `untransform`, manual_transform_builder.rs:144-148. -/
def untransform (m : Machine) (b : ManualBuilder) (input output : Buf) : Option (Buf × Except (BcError String) Unit) := do
  let (output, r) ← Bc1.untransformSafe m input output b.settings
  pure (output, r.mapError .fromValidation)

end ManualBuilder

/-- `Bc1AutoTransformBuilder<T>`, auto_transform_builder.rs:15-20. -/
structure AutoBuilder (σ E : Type) where
  estimator : Estimator σ E
  useAll : Bool

namespace AutoBuilder

/-- `Bc1AutoTransformBuilder::new`, auto_transform_builder.rs:36-43. -/
def new {σ E : Type} (est : Estimator σ E) : AutoBuilder σ E := ⟨est, false⟩

/-- `Bc1AutoTransformBuilder::new_ultra`, auto_transform_builder.rs:57-64. -/
def newUltra {σ E : Type} (est : Estimator σ E) : AutoBuilder σ E := ⟨est, true⟩

/-- `use_all_decorrelation_modes`, auto_transform_builder.rs:75-78. -/
def useAllDecorrelationModes {σ E : Type} (b : AutoBuilder σ E) (useAll : Bool) : AutoBuilder σ E :=
  { b with useAll := useAll }

/-- `transform`, auto_transform_builder.rs:123-141. -/
def transform {σ E : Type} (env : Env) (m : Machine) (b : AutoBuilder σ E) (input output : Buf) (st : σ) :
    Option (Buf × σ × Except (BcError E) ManualBuilder) := do
  let (output, st, r) ← Bc1.transformAutoSafe env m b.estimator b.useAll input output st
  match r with
  | .error e => pure (output, st, .error (fromAutoError e))
  | .ok s => pure (output, st, .ok ((ManualBuilder.new.decorrelationMode (.fromInternal s.decorr)).splitColourEndpoints s.split))

end AutoBuilder

end Bc1

namespace Bc2

/-- `from_auto_transform_error`, bc2-api error.rs:54-67. -/
def fromAutoError {E : Type} : AutoError E → BcError E
  | .invalidLength len => .invalidLength len
  | .outputBufferTooSmall needed actual => .outputBufferTooSmall needed actual
  | .determineBest .allocate => .allocationFailed
  | .determineBest (.sizeEstimation e) => .sizeEstimationFailed e

/-- `Bc2ManualTransformBuilder`, bc2-api manual_transform_builder.rs:17-20. -/
structure ManualBuilder where
  settings : ColourSettings
  deriving DecidableEq, Repr

namespace ManualBuilder

/-- `Bc2ManualTransformBuilder::new`, bc2-api manual_transform_builder.rs:24-28, and `default`. -/
def new : ManualBuilder := ⟨defaultSettings⟩

/-- `get_settings`, bc2-api manual_transform_builder.rs:37-39. -/
def getSettings (b : ManualBuilder) : ColourSettings := b.settings

/-- `decorrelation_mode`, bc2-api manual_transform_builder.rs:52-55. -/
def decorrelationMode (b : ManualBuilder) (mode : ApiVariant) : ManualBuilder :=
  ⟨{ b.settings with decorr := mode.toInternal }⟩

/-- `split_colour_endpoints`, bc2-api manual_transform_builder.rs:65-68. -/
def splitColourEndpoints (b : ManualBuilder) (split : Bool) : ManualBuilder :=
  ⟨{ b.settings with split := split }⟩

/-- `transform`, bc2-api manual_transform_builder.rs:106-109. -/
def transform (m : Machine) (b : ManualBuilder) (input output : Buf) : Option (Buf × Except (BcError String) Unit) := do
  let (output, r) ← Bc2.transformSafe m input output b.settings
  pure (output, r.mapError .fromValidation)

/-- `untransform`, bc2-api manual_transform_builder.rs:144-148. -/
def untransform (m : Machine) (b : ManualBuilder) (input output : Buf) : Option (Buf × Except (BcError String) Unit) := do
  let (output, r) ← Bc2.untransformSafe m input output b.settings
  pure (output, r.mapError .fromValidation)

end ManualBuilder

/-- `Bc2AutoTransformBuilder<T>`, bc2-api auto_transform_builder.rs:15-20. -/
structure AutoBuilder (σ E : Type) where
  estimator : Estimator σ E
  useAll : Bool

namespace AutoBuilder

/-- `Bc2AutoTransformBuilder::new`, bc2-api auto_transform_builder.rs:36-43. -/
def new {σ E : Type} (est : Estimator σ E) : AutoBuilder σ E := ⟨est, false⟩

/-- `Bc2AutoTransformBuilder::new_ultra`, bc2-api auto_transform_builder.rs:57-64. -/
def newUltra {σ E : Type} (est : Estimator σ E) : AutoBuilder σ E := ⟨est, true⟩

/-- `use_all_decorrelation_modes`, bc2-api auto_transform_builder.rs:75-78. -/
def useAllDecorrelationModes {σ E : Type} (b : AutoBuilder σ E) (useAll : Bool) : AutoBuilder σ E :=
  { b with useAll := useAll }

/-- `transform`, bc2-api auto_transform_builder.rs:123-141. -/
def transform {σ E : Type} (env : Env) (m : Machine) (b : AutoBuilder σ E) (input output : Buf) (st : σ) :
    Option (Buf × σ × Except (BcError E) ManualBuilder) := do
  let (output, st, r) ← Bc2.transformAutoSafe env m b.estimator b.useAll input output st
  match r with
  | .error e => pure (output, st, .error (fromAutoError e))
  | .ok s => pure (output, st, .ok ((ManualBuilder.new.decorrelationMode (.fromInternal s.decorr)).splitColourEndpoints s.split))

end AutoBuilder

end Bc2

end Dlt
