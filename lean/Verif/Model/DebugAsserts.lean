import Verif.Model.Checked
import Verif.Model.Safe
/-!
# Builds with debug assertions

The other modules model release builds.  This one adds the `debug_assert!`s on the way from the safe slice
functions to the kernels.  They come in three kinds:

* `len.is_multiple_of(8)` or `(16)` at the entry points and in most kernels: the entry points' one is modelled, the
  kernels receive the same `len`;
* `decorrelation_mode != YCoCgVariant::None` (bc1 with_split_colour_and_recorr/transform/mod.rs:41): the caller
  asks the same question just before (bc1 transform_with_settings.rs:40);
* `block_count > 0`, first statement of the kernels listed below.

Overflow checks of integer arithmetic are in `Model/Checked.lean` and `Model/Dds.lean`.
-/

namespace Dlt

namespace Bc1

/-- Does the kernel chosen by `transform_bc1_with_settings` begin with `debug_assert!(block_count > 0)`?
bc1 with_split_colour/transform/avx512bw.rs:25, with_split_colour_and_recorr/transform/avx512bw.rs:23.  The
dispatch is `transformWithSplitColour`, `transformWithSplitColourAndRecorr` (Model/Bc1). -/
def transformAsserts (m : Machine) (s : ColourSettings) : Bool :=
  match m with
  | .x86 f => s.split && f.avx512bw
  | .other _ _ => false

/-- The same for `untransform_bc1_with_settings`: bc1 with_split_colour/untransform/avx512bw.rs:17,
avx2.rs:16, sse2.rs:16 and with_split_colour_and_recorr/untransform/avx512bw.rs:226, avx2.rs:73, sse2.rs:73. -/
def untransformAsserts (m : Machine) (s : ColourSettings) : Bool :=
  match m with
  | .x86 f => s.split && (f.avx512bw || f.avx2 || f.sse2)
  | .other _ _ => false

/-- `transform_bc1_with_settings` (safe) in a debug build: validation as in `transformSafe`, then the assertions. -/
def transformSafeDebug (m : Machine) (input output : Buf) (s : ColourSettings) :
    Option (Buf × Except ValidationError Unit) :=
  if input.length % 8 = 0 ∧ input.length ≤ output.length ∧ transformAsserts m s ∧ input.length / 8 = 0 then none
  else transformSafe m input output s

/-- `untransform_bc1_with_settings` (safe) in a debug build. -/
def untransformSafeDebug (m : Machine) (input output : Buf) (s : ColourSettings) :
    Option (Buf × Except ValidationError Unit) :=
  if input.length % 8 = 0 ∧ input.length ≤ output.length ∧ untransformAsserts m s ∧ input.length / 8 = 0 then none
  else untransformSafe m input output s

/-- `transform_bc1_auto`, bc1 transform_auto.rs:200-270, in a debug build: every candidate is transformed with the
assertions. -/
def transformAutoDebug {σ E : Type} (env : Env) (m : Machine) (est : Estimator σ E) (useAll : Bool)
    (inp out : Buf) (len : Nat) (st : σ) : Option (Buf × σ × Except (DetermineBestError E) ColourSettings) :=
  Auto.prepare env est (len / 2) out st fun comp st =>
    Auto.search env (testOrder useAll) defaultSettings
      (fun out s => if transformAsserts m s ∧ len / 8 = 0 then none else transformWithSettings m inp out len s)
      (measure env est len comp) out st

/-- `transform_bc1_auto` (safe), bc1 safe/transform_auto.rs:95-122, in a debug build. -/
def transformAutoSafeDebug {σ E : Type} (env : Env) (m : Machine) (est : Estimator σ E) (useAll : Bool)
    (input output : Buf) (st : σ) : Option (Buf × σ × Except (AutoError E) ColourSettings) :=
  if input.length % 8 ≠ 0 then some (output, st, .error (.invalidLength input.length))
  else if output.length < input.length then
    some (output, st, .error (.outputBufferTooSmall input.length output.length))
  else do
    let (output, st, r) ← transformAutoDebug env m est useAll input output input.length st
    pure (output, st, r.mapError .determineBest)

end Bc1

namespace Bc3

/-- bc3 with_split_alphas/transform/avx512vbmi.rs:32, reached by `transform_bc3_with_settings` for split alpha
endpoints alone (Model/Bc3 `transformWithSettings`, `transformWithSplitAlphas`).  No kernel of the opposite
direction has the assertion, nor has any kernel of BC2. -/
def transformAsserts (m : Machine) (s : Settings) : Bool :=
  match m with
  | .x86 f => s.splitAlpha && !s.splitColour && s.decorr = .none && f.avx512vbmi
  | .other _ _ => false

/-- `transform_bc3_with_settings` (safe) in a debug build. -/
def transformSafeDebug (m : Machine) (input output : Buf) (s : Settings) :
    Option (Buf × Except ValidationError Unit) :=
  if input.length % 16 = 0 ∧ input.length ≤ output.length ∧ transformAsserts m s ∧ input.length / 16 = 0 then none
  else transformSafe m input output s
/-- `transform_bc3_auto`, bc3 transform_auto.rs:196-294, in a debug build: every candidate is transformed with the
assertions.  (The overflow check of the sum of the two sizes is in `Model/Checked.lean`.) -/
def transformAutoDebug {σ E : Type} (env : Env) (m : Machine) (est : Estimator σ E) (useAll : Bool)
    (inp out : Buf) (len : Nat) (st : σ) : Option (Buf × σ × Except (DetermineBestError E) Settings) :=
  Auto.prepare env est (len / 4) out st fun comp st =>
    Auto.search env (testOrder useAll) defaultSettings
      (fun out s => if transformAsserts m s ∧ len / 16 = 0 then none else transformWithSettings m inp out len s)
      (measure env est len comp) out st

/-- `transform_bc3_auto` (safe), bc3 safe/transform_auto.rs:95-121, in a debug build. -/
def transformAutoSafeDebug {σ E : Type} (env : Env) (m : Machine) (est : Estimator σ E) (useAll : Bool)
    (input output : Buf) (st : σ) : Option (Buf × σ × Except (AutoError E) Settings) :=
  if input.length % 16 ≠ 0 then some (output, st, .error (.invalidLength input.length))
  else if output.length < input.length then
    some (output, st, .error (.outputBufferTooSmall input.length output.length))
  else do
    let (output, st, r) ← transformAutoDebug env m est useAll input output input.length st
    pure (output, st, r.mapError .determineBest)

end Bc3

end Dlt
