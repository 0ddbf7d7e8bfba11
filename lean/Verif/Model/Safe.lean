import Verif.Model.Bc1
import Verif.Model.Bc2
import Verif.Model.Bc3
/-!
# Safe slice wrappers

Models `/repo/src/core/dxt-lossless-transform-bc{1,2,3}/src/transform/safe/transform_with_settings.rs`.
A call takes the input slice and the output slice and yields the output slice afterwards together with
the `Result`; `none` is a panic or undefined behaviour.
-/

namespace Dlt

/-- `Bc1ValidationError`, bc1 safe/transform_with_settings.rs:17-31; `Bc2ValidationError` (bc2, same
lines) and `Bc3ValidationError` (bc3, same lines) have the same cases. -/
inductive ValidationError where
  | invalidLength (len : Nat)
  | outputBufferTooSmall (needed actual : Nat)
  deriving DecidableEq, Repr

namespace Bc1

/-- `transform_bc1_with_settings` (safe), bc1 safe/transform_with_settings.rs:88-117. -/
def transformSafe (m : Machine) (input output : Buf) (s : ColourSettings) : Option (Buf × Except ValidationError Unit) :=
  if input.length % 8 ≠ 0 then some (output, .error (.invalidLength input.length))
  else if output.length < input.length then
    some (output, .error (.outputBufferTooSmall input.length output.length))
  else do
    let output ← transformWithSettings m input output input.length s
    pure (output, .ok ())

/-- `untransform_bc1_with_settings` (safe), bc1 safe/transform_with_settings.rs:192-221. -/
def untransformSafe (m : Machine) (input output : Buf) (s : ColourSettings) : Option (Buf × Except ValidationError Unit) :=
  if input.length % 8 ≠ 0 then some (output, .error (.invalidLength input.length))
  else if output.length < input.length then
    some (output, .error (.outputBufferTooSmall input.length output.length))
  else do
    let output ← untransformWithSettings m input output input.length s
    pure (output, .ok ())

end Bc1

namespace Bc2

/-- `transform_bc2_with_settings` (safe), bc2 safe/transform_with_settings.rs:88-117. -/
def transformSafe (m : Machine) (input output : Buf) (s : ColourSettings) : Option (Buf × Except ValidationError Unit) :=
  if input.length % 16 ≠ 0 then some (output, .error (.invalidLength input.length))
  else if output.length < input.length then
    some (output, .error (.outputBufferTooSmall input.length output.length))
  else do
    let output ← transformWithSettings m input output input.length s
    pure (output, .ok ())

/-- `untransform_bc2_with_settings` (safe), bc2 safe/transform_with_settings.rs:192-221. -/
def untransformSafe (m : Machine) (input output : Buf) (s : ColourSettings) : Option (Buf × Except ValidationError Unit) :=
  if input.length % 16 ≠ 0 then some (output, .error (.invalidLength input.length))
  else if output.length < input.length then
    some (output, .error (.outputBufferTooSmall input.length output.length))
  else do
    let output ← untransformWithSettings m input output input.length s
    pure (output, .ok ())

end Bc2

namespace Bc3

/-- `transform_bc3_with_settings` (safe), bc3 safe/transform_with_settings.rs:90-119. -/
def transformSafe (m : Machine) (input output : Buf) (s : Settings) : Option (Buf × Except ValidationError Unit) :=
  if input.length % 16 ≠ 0 then some (output, .error (.invalidLength input.length))
  else if output.length < input.length then
    some (output, .error (.outputBufferTooSmall input.length output.length))
  else do
    let output ← transformWithSettings m input output input.length s
    pure (output, .ok ())

/-- `untransform_bc3_with_settings` (safe), bc3 safe/transform_with_settings.rs:196-225. -/
def untransformSafe (m : Machine) (input output : Buf) (s : Settings) : Option (Buf × Except ValidationError Unit) :=
  if input.length % 16 ≠ 0 then some (output, .error (.invalidLength input.length))
  else if output.length < input.length then
    some (output, .error (.outputBufferTooSmall input.length output.length))
  else do
    let output ← untransformWithSettings m input output input.length s
    pure (output, .ok ())

end Bc3

end Dlt
