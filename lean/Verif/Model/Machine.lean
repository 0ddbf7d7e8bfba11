import Verif.Model.Mem
import Verif.Model.Color565
/-!
# The machine that runs the code

What the dispatchers ask the CPU, and what differs between architectures.
-/

namespace Dlt

/-- Answers of `/repo/src/core/dxt-lossless-transform-common/src/cpu_detect.rs:17-116` on an x86
machine.  With the cargo feature `no-runtime-cpu-detection` the dispatchers ask
`cfg!(target_feature = ..)` in the same order, which is the same decision on other flags.
Simplification: the flags are independent (a real CPU with `avx2` has `sse2`); the theorems
therefore hold for more combinations than exist. -/
structure Features where
  /-- `target_arch = "x86_64"` rather than `"x86"` -/
  x64 : Bool
  /-- `has_sse2` -/
  sse2 : Bool
  /-- `has_avx2` -/
  avx2 : Bool
  /-- `has_avx512f` -/
  avx512f : Bool
  /-- `has_avx512bw` -/
  avx512bw : Bool
  /-- `has_avx512vbmi` -/
  avx512vbmi : Bool
  /-- Not an answer of the CPU: the bytes that intrinsics such as `_mm512_castsi128_si512` leave
  undefined. -/
  undef : Nat → Byte

/-- A machine: an x86 CPU with its features, or another architecture of either byte order.
`fresh` are the contents of newly allocated memory (the work buffer of
`/repo/src/core/dxt-lossless-transform-bc1/src/transform/with_split_colour_and_recorr/untransform/generic.rs:30`). -/
inductive Machine where
  | x86 (f : Features)
  | other (e : Endian) (fresh : Nat → Byte)

/-- Byte order; x86 is little-endian. -/
def Machine.endian : Machine → Endian
  | .x86 _ => .little
  | .other e _ => e

/-- `Bc1TransformSettings`, `/repo/src/core/dxt-lossless-transform-bc1/src/transform/settings.rs`, and
`Bc2TransformSettings`, `/repo/src/core/dxt-lossless-transform-bc2/src/transform/settings.rs`:
the same two fields.  The untransform settings are aliases of these types. -/
structure ColourSettings where
  /-- `decorrelation_mode` -/
  decorr : Variant
  /-- `split_colour_endpoints` -/
  split : Bool
  deriving DecidableEq, Repr

end Dlt
