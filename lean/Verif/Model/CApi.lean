import Verif.Model.Builders
/-!
# The C API

Models `/repo/src/api/dxt-lossless-transform-bc1-api/src/c_api` (error.rs, transform/manual_transform_builder.rs,
transform/auto_transform_builder.rs) and the same files of `dxt-lossless-transform-bc2-api`, which have the same code on
the same lines and differ in names, tests and the block size in comments and one message;
`/repo/src/api/dxt-lossless-transform-api-common/src/c_api/size_estimation.rs`;
`/repo/src/core/dxt-lossless-transform-bc{1,2}/src/c_api`;
`/repo/src/extensions/estimators/dxt-lossless-transform-ltu/src/{lib,c_api}.rs`.

A pointer is an address, 0 is the null pointer.  The state of the process has byte memory, the boxes of both kinds of
builder, the `DltSizeEstimator` structures, cells that hold pointers, cells that hold settings, and the state of the
estimators.  `none` is undefined behaviour or an abort.

Simplifications: the kinds of object live in separate maps, so that a caller cannot write into a box except
through the API, which is what opaque pointers promise; byte memory is present at all addresses, so that a
bad buffer shows as one that overlaps the other buffer of the call and not as an unmapped one; an estimator changes its own
state `σ` only.
-/

namespace Dlt.CApi

/-! ## The two libraries -/

/-- The BC1 and the BC2 library. -/
inductive Bc where
  | bc1 | bc2
  deriving DecidableEq, Repr

/-- The builder of the Rust API that `Dltbc1ManualTransformBuilder` wraps, bc1-api c_api manual_transform_builder.rs:24-27
(bc2-api: same lines). -/
abbrev Bc.Manual : Bc → Type
  | .bc1 => Bc1.ManualBuilder
  | .bc2 => Bc2.ManualBuilder

namespace Bc

/-- `Bc1ManualTransformBuilder::new` / `Bc2ManualTransformBuilder::new`, see Model/Builders. -/
def new : (b : Bc) → b.Manual
  | .bc1 => Bc1.ManualBuilder.new
  | .bc2 => Bc2.ManualBuilder.new

/-- `decorrelation_mode` of the two builders, see Model/Builders. -/
def decorrelationMode : (b : Bc) → b.Manual → ApiVariant → b.Manual
  | .bc1 => Bc1.ManualBuilder.decorrelationMode
  | .bc2 => Bc2.ManualBuilder.decorrelationMode

/-- `split_colour_endpoints` of the two builders, see Model/Builders. -/
def splitColourEndpoints : (b : Bc) → b.Manual → Bool → b.Manual
  | .bc1 => Bc1.ManualBuilder.splitColourEndpoints
  | .bc2 => Bc2.ManualBuilder.splitColourEndpoints

/-- `transform` of the two builders, see Model/Builders. -/
def transform : (b : Bc) → Machine → b.Manual → Buf → Buf → Option (Buf × Except (BcError String) Unit)
  | .bc1 => Bc1.ManualBuilder.transform
  | .bc2 => Bc2.ManualBuilder.transform

/-- `untransform` of the two builders, see Model/Builders. -/
def untransform : (b : Bc) → Machine → b.Manual → Buf → Buf → Option (Buf × Except (BcError String) Unit)
  | .bc1 => Bc1.ManualBuilder.untransform
  | .bc2 => Bc2.ManualBuilder.untransform

/-- `AutoTransformBuilder::new(est).use_all_decorrelation_modes(useAll).transform`, see Model/Builders. -/
def autoTransform {σ E : Type} : (b : Bc) → Env → Machine → Estimator σ E → Bool → Buf → Buf → σ →
    Option (Buf × σ × Except (BcError E) b.Manual)
  | .bc1 => fun env m est useAll => ((Bc1.AutoBuilder.new est).useAllDecorrelationModes useAll).transform env m
  | .bc2 => fun env m est useAll => ((Bc2.AutoBuilder.new est).useAllDecorrelationModes useAll).transform env m

end Bc

/-- `#[repr(u8)]` of the API's `YCoCgVariant`, color_565.rs:65-91: the discriminants count from 0 in the order of
declaration.  Any other byte is no value of the type. -/
def apiVariantOfRepr (x : Nat) : Option ApiVariant :=
  match x with
  | 0 => some .variant1
  | 1 => some .variant2
  | 2 => some .variant3
  | 3 => some .none
  | _ => none

/-- `#[repr(u8)]` of the core's `YCoCgVariant`, common color_565/decorrelate.rs:72-84. -/
def coreVariantOfRepr (x : Nat) : Option Variant :=
  match x with
  | 0 => some .none
  | 1 => some .v1
  | 2 => some .v2
  | 3 => some .v3
  | _ => none

/-! ## Result codes -/

/-- `Dltbc1ErrorCode`, bc1-api c_api/error.rs:12-39 (bc2-api: `Dltbc2ErrorCode`, same lines). -/
inductive Code where
  | success | invalidLength | outputBufferTooSmall | allocationFailed | sizeEstimationFailed
  | nullDataPointer | nullEstimatorPointer | nullTransformSettingsPointer | nullInputPointer
  | nullOutputBufferPointer | nullManualTransformBuilderPointer | nullBuilderPointer
  | nullManualBuilderOutputPointer
  deriving DecidableEq, Repr

/-- The numbers of the codes, error.rs:12-39. -/
def Code.toNat : Code → Nat
  | .success => 0
  | .invalidLength => 1
  | .outputBufferTooSmall => 2
  | .allocationFailed => 3
  | .sizeEstimationFailed => 4
  | .nullDataPointer => 5
  | .nullEstimatorPointer => 6
  | .nullTransformSettingsPointer => 7
  | .nullInputPointer => 8
  | .nullOutputBufferPointer => 9
  | .nullManualTransformBuilderPointer => 10
  | .nullBuilderPointer => 11
  | .nullManualBuilderOutputPointer => 12

/-- `From<Bc1Error<E>> for Dltbc1Result`, error.rs:76-89 (bc2-api: same lines). -/
def Code.ofError {E : Type} : BcError E → Code
  | .invalidLength _ => .invalidLength
  | .outputBufferTooSmall _ _ => .outputBufferTooSmall
  | .allocationFailed => .allocationFailed
  | .sizeEstimationFailed _ => .sizeEstimationFailed

/-- `dltbc1_error_message`, error.rs:131-172, and `dltbc2_error_message` (bc2-api: same lines). -/
def errorMessage (b : Bc) : Code → String
  | .success => "Success"
  | .invalidLength => match b with
    | .bc1 => "Invalid input length: Length must be divisible by 8 (BC1 block size)"
    | .bc2 => "Invalid input length: Length must be divisible by 16 (BC2 block size)"
  | .outputBufferTooSmall => "Output buffer too small for the operation"
  | .allocationFailed => "Memory allocation failed"
  | .sizeEstimationFailed => "Size estimation failed during transform optimization"
  | .nullDataPointer => "Null pointer provided for data parameter"
  | .nullEstimatorPointer => "Null pointer provided for DltSizeEstimator parameter"
  | .nullTransformSettingsPointer => match b with
    | .bc1 => "Null pointer provided for Dltbc1TransformSettings parameter"
    | .bc2 => "Null pointer provided for Dltbc2TransformSettings parameter"
  | .nullInputPointer => "Null pointer provided for input parameter"
  | .nullOutputBufferPointer => "Null pointer provided for output parameter"
  | .nullManualTransformBuilderPointer => match b with
    | .bc1 => "Null pointer provided for Dltbc1ManualTransformBuilder parameter"
    | .bc2 => "Null pointer provided for Dltbc2ManualTransformBuilder parameter"
  | .nullBuilderPointer => match b with
    | .bc1 => "Null pointer provided for Dltbc1EstimateSettingsBuilder parameter"
    | .bc2 => "Null pointer provided for Dltbc2EstimateSettingsBuilder parameter"
  | .nullManualBuilderOutputPointer => "Null pointer provided for manual builder output parameter"

/-! ## C estimators -/

/-- `DltSizeEstimator`, size_estimation.rs:43-52: the two function pointers applied to their context.  They get the
value that `*out_size` has before the call and yield a result code and the value it has after it. -/
structure CEst (σ : Type) where
  maxSize : σ → Nat → Nat → σ × BitVec 32 × Nat
  estimate : σ → Buf → Nat → Nat → σ × BitVec 32 × Nat

/-- Both methods of `SizeEstimationOperations for DltSizeEstimator` end like this, size_estimation.rs:83-87, 107-111. -/
def cResult {σ : Type} : σ × BitVec 32 × Nat → σ × Except (BitVec 32) Nat
  | (st, code, size) => (st, if code = 0#32 then .ok size else .error code)

/-- `impl SizeEstimationOperations for DltSizeEstimator`, size_estimation.rs:76-113, and for references to it, 116-134. -/
def CEst.ops {σ : Type} (e : CEst σ) : Estimator σ (BitVec 32) where
  maxSize st len := cResult (e.maxSize st len 0)
  estimate st data n := cResult (e.estimate st data n 0)

/-! ## The process -/

/-- `Dltbc1AutoTransformBuilder`, bc1-api c_api auto_transform_builder.rs:20-23 (bc2-api: same lines). -/
structure CAuto (σ : Type) where
  estimator : CEst σ
  useAll : Bool

/-- The state of a process that uses the library. -/
structure State (b : Bc) (σ : Type) where
  /-- bytes -/
  mem : Nat → Byte
  /-- the boxes with manual builders -/
  manual : Nat → Option b.Manual
  /-- the boxes with automatic builders -/
  auto : Nat → Option (CAuto σ)
  /-- the structures with estimators -/
  ests : Nat → Option (CEst σ)
  /-- variables of the caller of type `Dltbc1ManualTransformBuilder*` -/
  cells : Nat → Nat
  /-- variables of the caller of type `Dltbc1TransformSettings` (core C API) -/
  details : Nat → ColourSettings
  /-- the state of the estimators -/
  st : σ

/-- A map with another value at one place. -/
def upd {α : Type} (f : Nat → α) (p : Nat) (x : α) : Nat → α := fun q => if q = p then x else f q

/-- `n` bytes from address `p`: `slice::from_raw_parts`. -/
def bytesAt (mem : Nat → Byte) (p n : Nat) : Buf := (List.range n).map fun i => mem (p + i)

/-- Memory after the bytes have been stored from address `p` on. -/
def putBytes (mem : Nat → Byte) (p : Nat) (bs : Buf) : Nat → Byte :=
  fun q => if p ≤ q then (bs[q - p]?).getD (mem q) else mem q

/-- A shared and a mutable slice must not overlap; an empty slice overlaps nothing. -/
def disjoint (p n q k : Nat) : Bool := n = 0 || k = 0 || p + n ≤ q || q + k ≤ p

variable {b : Bc} {σ : Type}

/-- Can the allocator answer `a`?  It gives a non-null address that holds no object; which one is not determined. -/
def State.canGive (s : State b σ) (a : Nat) : Bool :=
  a ≠ 0 && (s.manual a).isNone && (s.auto a).isNone && (s.ests a).isNone

/-! ## The manual builder -/

/-- `dltbc1_new_ManualTransformBuilder`, c_api manual_transform_builder.rs:71-77 (here and below: bc2-api has the same
code on the same lines).  `a` is the answer of the allocator. -/
def newManual (s : State b σ) (a : Nat) : Option (State b σ × Nat) :=
  if s.canGive a then some ({ s with manual := upd s.manual a (some b.new) }, a) else none

/-- `dltbc1_free_ManualTransformBuilder`, manual_transform_builder.rs:86-94. -/
def freeManual (s : State b σ) (p : Nat) : Option (State b σ) :=
  if p ≠ 0 then do
    let _ ← s.manual p
    pure { s with manual := upd s.manual p none }
  else some s

/-- `dltbc1_clone_ManualTransformBuilder`, manual_transform_builder.rs:107-122. -/
def cloneManual (s : State b σ) (p a : Nat) : Option (State b σ × Nat) :=
  if p = 0 then some (s, 0)
  else do
    let inner ← s.manual p
    if s.canGive a then pure ({ s with manual := upd s.manual a (some inner) }, a) else none

/-- `dltbc1_ManualTransformBuilder_SetDecorrelationMode`, manual_transform_builder.rs:150-160; `mode` is the byte the caller
passes. -/
def setDecorrelationMode (s : State b σ) (p mode : Nat) : Option (State b σ) := do
  let mode ← apiVariantOfRepr mode
  if p = 0 then pure s
  else
    let inner ← s.manual p
    pure { s with manual := upd s.manual p (some (b.decorrelationMode inner mode)) }

/-- `dltbc1_ManualTransformBuilder_SetSplitColourEndpoints`, manual_transform_builder.rs:183-193. -/
def setSplitColourEndpoints (s : State b σ) (p : Nat) (split : Bool) : Option (State b σ) :=
  if p = 0 then some s
  else do
    let inner ← s.manual p
    pure { s with manual := upd s.manual p (some (b.splitColourEndpoints inner split)) }

/-- `dltbc1_ManualTransformBuilder_ResetToDefaults`, manual_transform_builder.rs:203-212. -/
def resetToDefaults (s : State b σ) (p : Nat) : Option (State b σ) :=
  if p = 0 then some s
  else do
    let _ ← s.manual p
    pure { s with manual := upd s.manual p (some b.new) }

/-- The common text of `dltbc1_ManualTransformBuilder_Transform`, manual_transform_builder.rs:256-286, and
`…_Untransform`, 323-353; `f` is `transform` or `untransform` of the Rust builder. -/
def manualCall (f : b.Manual → Buf → Buf → Option (Buf × Except (BcError String) Unit)) (s : State b σ)
    (input inputLen output outputLen p : Nat) : Option (State b σ × Code) :=
  if input = 0 then some (s, .nullDataPointer)
  else if output = 0 then some (s, .nullOutputBufferPointer)
  else if p = 0 then some (s, .nullManualTransformBuilderPointer)
  else if disjoint input inputLen output outputLen then do
    let inner ← s.manual p
    let (out, r) ← f inner (bytesAt s.mem input inputLen) (bytesAt s.mem output outputLen)
    let s := { s with mem := putBytes s.mem output out }
    match r with
    | .ok () => pure (s, .success)
    | .error e => pure (s, .ofError e)
  else none

/-- `dltbc1_ManualTransformBuilder_Transform`, manual_transform_builder.rs:256-286. -/
def manualTransform (m : Machine) (s : State b σ) (input inputLen output outputLen p : Nat) : Option (State b σ × Code) :=
  manualCall (b.transform m) s input inputLen output outputLen p

/-- `dltbc1_ManualTransformBuilder_Untransform`, manual_transform_builder.rs:323-353. -/
def manualUntransform (m : Machine) (s : State b σ) (input inputLen output outputLen p : Nat) : Option (State b σ × Code) :=
  manualCall (b.untransform m) s input inputLen output outputLen p

/-! ## The automatic builder -/

/-- `dltbc1_new_AutoTransformBuilder`, c_api auto_transform_builder.rs:63-79. -/
def newAuto (s : State b σ) (est a : Nat) : Option (State b σ × Nat) :=
  if est = 0 then some (s, 0)
  else do
    let e ← s.ests est
    if s.canGive a then pure ({ s with auto := upd s.auto a (some ⟨e, false⟩) }, a) else none

/-- `dltbc1_free_AutoTransformBuilder`, auto_transform_builder.rs:88-96. -/
def freeAuto (s : State b σ) (p : Nat) : Option (State b σ) :=
  if p ≠ 0 then do
    let _ ← s.auto p
    pure { s with auto := upd s.auto p none }
  else some s

/-- `dltbc1_AutoTransformBuilder_SetUseAllDecorrelationModes`, auto_transform_builder.rs:121-132. -/
def setUseAll (s : State b σ) (p : Nat) (useAll : Bool) : Option (State b σ × Code) :=
  if p = 0 then some (s, .nullBuilderPointer)
  else do
    let x ← s.auto p
    pure ({ s with auto := upd s.auto p (some { x with useAll := useAll }) }, .success)

/-- `dltbc1_AutoTransformBuilder_Transform`, auto_transform_builder.rs:190-250; `cell` is `out_manual_builder`. -/
def autoTransform (env : Env) (m : Machine) (s : State b σ) (p data dataLen output outputLen cell a : Nat) :
    Option (State b σ × Code) :=
  if p = 0 then some (s, .nullBuilderPointer)
  else if data = 0 then some (s, .nullDataPointer)
  else if output = 0 then some (s, .nullOutputBufferPointer)
  else if cell = 0 then some (s, .nullManualBuilderOutputPointer)
  else if disjoint data dataLen output outputLen then do
    let x ← s.auto p
    let (out, st, r) ← b.autoTransform env m x.estimator.ops x.useAll (bytesAt s.mem data dataLen)
      (bytesAt s.mem output outputLen) s.st
    let s := { s with mem := putBytes s.mem output out, st := st }
    match r with
    | .ok manual =>
      if s.canGive a then
        pure ({ s with manual := upd s.manual a (some manual), cells := upd s.cells cell a }, .success)
      else none
    | .error e => pure ({ s with cells := upd s.cells cell 0 }, .ofError e)
  else none

/-! ## The LTU estimator -/

/-- `LosslessTransformUtilsSizeEstimation`, ltu lib.rs:49-119.  `lz` stands for `estimate_num_lz_matches_fast` of the crate
lossless-transform-utils, about which nothing is assumed.  The pointer that the library passes is not null. -/
def ltu {E : Type} (lz : Buf → Nat) : Estimator σ E where
  maxSize st _ := (st, .ok 0)
  estimate st data _ := (st, .ok (if data.length = 0 then 0 else data.length - lz data))

/-- `create_c_size_estimator` with `ltu_max_compressed_size` and `ltu_estimate_compressed_size`, ltu c_api.rs:104-154; the
context and `out_size` are not null. -/
def ltuC (lz : Buf → Nat) : CEst σ where
  maxSize st len out := match (ltu (E := Unit) lz).maxSize st len with
    | (st, .ok size) => (st, 0#32, size)
    | (st, .error _) => (st, 2#32, out)
  estimate st data n out := match (ltu (E := Unit) lz).estimate st data n with
    | (st, .ok size) => (st, 0#32, size)
    | (st, .error _) => (st, 3#32, out)

/-- `dltltu_new_size_estimator`, ltu c_api.rs:74-78.  The boxed context has size 0 and takes no memory. -/
def newLtu (lz : Buf → Nat) (s : State b σ) (a : Nat) : Option (State b σ × Nat) :=
  if s.canGive a then some ({ s with ests := upd s.ests a (some (ltuC lz)) }, a) else none

/-- `dltltu_free_size_estimator`, ltu c_api.rs:89-101. -/
def freeLtu (s : State b σ) (p : Nat) : Option (State b σ) :=
  if p ≠ 0 then do
    let _ ← s.ests p
    pure { s with ests := upd s.ests p none }
  else some s

/-! ## Histories -/

/-- A call of the library, or a write of the caller to its own memory.  `a` is the answer of the allocator if one is
needed. -/
inductive Event (σ : Type) where
  | newManual (a : Nat)
  | freeManual (p : Nat)
  | cloneManual (p a : Nat)
  | setDecorrelationMode (p mode : Nat)
  | setSplitColourEndpoints (p : Nat) (split : Bool)
  | resetToDefaults (p : Nat)
  | manualTransform (input inputLen output outputLen p : Nat)
  | manualUntransform (input inputLen output outputLen p : Nat)
  | newAuto (est a : Nat)
  | freeAuto (p : Nat)
  | setUseAll (p : Nat) (useAll : Bool)
  | autoTransform (p data dataLen output outputLen cell a : Nat)
  | newLtu (lz : Buf → Nat) (a : Nat)
  | freeLtu (p : Nat)
  | write (p : Nat) (bytes : Buf)
  | writeEst (p : Nat) (e : CEst σ)
  | writeCell (p x : Nat)

/-- What a call returns. -/
inductive Reply where
  | unit
  | ptr (p : Nat)
  | code (c : Code)
  deriving DecidableEq, Repr

/-- One event. -/
def step (env : Env) (m : Machine) (s : State b σ) : Event σ → Option (State b σ × Reply)
  | .newManual a => (newManual s a).map fun r => (r.1, .ptr r.2)
  | .freeManual p => (freeManual s p).map fun s => (s, .unit)
  | .cloneManual p a => (cloneManual s p a).map fun r => (r.1, .ptr r.2)
  | .setDecorrelationMode p mode => (setDecorrelationMode s p mode).map fun s => (s, .unit)
  | .setSplitColourEndpoints p split => (setSplitColourEndpoints s p split).map fun s => (s, .unit)
  | .resetToDefaults p => (resetToDefaults s p).map fun s => (s, .unit)
  | .manualTransform i il o ol p => (manualTransform m s i il o ol p).map fun r => (r.1, .code r.2)
  | .manualUntransform i il o ol p => (manualUntransform m s i il o ol p).map fun r => (r.1, .code r.2)
  | .newAuto est a => (newAuto s est a).map fun r => (r.1, .ptr r.2)
  | .freeAuto p => (freeAuto s p).map fun s => (s, .unit)
  | .setUseAll p useAll => (setUseAll s p useAll).map fun r => (r.1, .code r.2)
  | .autoTransform p d dl o ol cell a => (autoTransform env m s p d dl o ol cell a).map fun r => (r.1, .code r.2)
  | .newLtu lz a => (newLtu lz s a).map fun r => (r.1, .ptr r.2)
  | .freeLtu p => (freeLtu s p).map fun s => (s, .unit)
  | .write p bytes => some ({ s with mem := putBytes s.mem p bytes }, .unit)
  | .writeEst p e =>
    if p ≠ 0 && (s.manual p).isNone && (s.auto p).isNone then some ({ s with ests := upd s.ests p (some e) }, .unit) else none
  | .writeCell p x => some ({ s with cells := upd s.cells p x }, .unit)

/-- A history, newest event first, each event with the state before it and the reply. -/
inductive History (env : Env) (m : Machine) (s0 : State b σ) :
    List (State b σ × Event σ × Reply) → State b σ → Prop where
  | nil : History env m s0 [] s0
  | cons {h s e s' r} : History env m s0 h s → step env m s e = some (s', r) →
      History env m s0 ((s, e, r) :: h) s'

/-! ## The core C API -/

/-- `Dltbc1ErrorCode` of the core crate, bc1 c_api/transform_auto.rs:39-58 (bc2: 40-59). -/
inductive CoreCode where
  | success | nullDataPointer | nullOutputBufferPointer | nullEstimatorPointer | nullTransformSettingsPointer
  | invalidDataLength | outputBufferTooSmall | sizeEstimationError | transformationError
  deriving DecidableEq, Repr

/-- The numbers of the codes, transform_auto.rs:39-58. -/
def CoreCode.toNat : CoreCode → Nat
  | .success => 0
  | .nullDataPointer => 1
  | .nullOutputBufferPointer => 2
  | .nullEstimatorPointer => 3
  | .nullTransformSettingsPointer => 4
  | .invalidDataLength => 5
  | .outputBufferTooSmall => 6
  | .sizeEstimationError => 7
  | .transformationError => 8

/-- `From<Bc1ValidationError> for Dltbc1Result`, bc1 c_api/transform_with_settings.rs:41-51 (bc2: 32-42). -/
def CoreCode.ofValidation : ValidationError → CoreCode
  | .invalidLength _ => .invalidDataLength
  | .outputBufferTooSmall _ _ => .outputBufferTooSmall

/-- The safe functions of the core crates, see Model/Safe. -/
def coreTransform : Bc → Machine → Buf → Buf → ColourSettings → Option (Buf × Except ValidationError Unit)
  | .bc1 => Bc1.transformSafe
  | .bc2 => Bc2.transformSafe

/-- The safe functions of the core crates, see Model/Safe. -/
def coreUntransform : Bc → Machine → Buf → Buf → ColourSettings → Option (Buf × Except ValidationError Unit)
  | .bc1 => Bc1.untransformSafe
  | .bc2 => Bc2.untransformSafe

/-- `transform_bc1_auto_safe` and `transform_bc2_auto_safe` followed by `From<Bc1AutoTransformError<T>> for Dltbc1Result`,
bc1 c_api/transform_auto.rs:87-100 (bc2: 88-101). -/
def coreAuto : Bc → Env → Machine → Estimator σ (BitVec 32) → Bool → Buf → Buf → σ →
    Option (Buf × σ × Except CoreCode ColourSettings)
  | .bc1 => fun env m est useAll inp out st => (Bc1.transformAutoSafe env m est useAll inp out st).map
      fun r => (r.1, r.2.1, r.2.2.mapError fun
        | .invalidLength _ => .invalidDataLength
        | .outputBufferTooSmall _ _ => .outputBufferTooSmall
        | .determineBest _ => .sizeEstimationError)
  | .bc2 => fun env m est useAll inp out st => (Bc2.transformAutoSafe env m est useAll inp out st).map
      fun r => (r.1, r.2.1, r.2.2.mapError fun
        | .invalidLength _ => .invalidDataLength
        | .outputBufferTooSmall _ _ => .outputBufferTooSmall
        | .determineBest _ => .sizeEstimationError)

/-- `Dltbc1TransformSettings` and `Dltbc1UntransformSettings` as the caller passes them: the flag and the byte of the
variant; the conversions of bc1 c_api/transform_with_settings.rs:23-39 (bc2: transform_auto.rs:112-119,
transform_with_settings.rs:23-30) copy both fields. -/
def coreSettings (split : Bool) (mode : Nat) : Option ColourSettings := do
  let v ← coreVariantOfRepr mode
  pure ⟨v, split⟩

/-- The common text of `dltbc1core_transform`, bc1 c_api/transform_with_settings.rs:73-100 (bc2: 64-91), and
`dltbc1core_untransform`, 119-146 (bc2: 110-137). -/
def coreCall (f : Buf → Buf → ColourSettings → Option (Buf × Except ValidationError Unit)) (s : State b σ)
    (input inputLen output outputLen : Nat) (split : Bool) (mode : Nat) : Option (State b σ × CoreCode) := do
  let settings ← coreSettings split mode
  if input = 0 then pure (s, .nullDataPointer)
  else if output = 0 then pure (s, .nullOutputBufferPointer)
  else if disjoint input inputLen output outputLen then
    let (out, r) ← f (bytesAt s.mem input inputLen) (bytesAt s.mem output outputLen) settings
    let s := { s with mem := putBytes s.mem output out }
    match r with
    | .ok () => pure (s, .success)
    | .error e => pure (s, .ofValidation e)
  else none

/-- `dltbc1core_transform_auto`, bc1 c_api/transform_auto.rs:143-190 (bc2: 153-200). -/
def coreTransformAuto (env : Env) (m : Machine) (s : State b σ) (data dataLen output outputLen est : Nat) (useAll : Bool)
    (details : Nat) : Option (State b σ × CoreCode) :=
  if data = 0 then some (s, .nullDataPointer)
  else if output = 0 then some (s, .nullOutputBufferPointer)
  else if est = 0 then some (s, .nullEstimatorPointer)
  else if details = 0 then some (s, .nullTransformSettingsPointer)
  else if disjoint data dataLen output outputLen then do
    let e ← s.ests est
    let (out, st, r) ← coreAuto b env m e.ops useAll (bytesAt s.mem data dataLen) (bytesAt s.mem output outputLen) s.st
    let s := { s with mem := putBytes s.mem output out, st := st }
    match r with
    | .ok settings => pure ({ s with details := upd s.details details settings }, .success)
    | .error code => pure (s, code)
  else none

end Dlt.CApi
