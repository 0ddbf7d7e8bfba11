import Verif.Model.Bc1
import Verif.Model.Bc1Bench
import Verif.Model.Bc2Bench
import Verif.Model.Bc3Bench
import Verif.Model.SplitBench
/-!
# The functions exported for benchmarking

Models `src/bench/mod.rs` of the crates `dxt-lossless-transform-bc1`, `-bc2`, `-bc3` and
`transforms/split_565_color_endpoints/bench/mod.rs` of `dxt-lossless-transform-common` (all below
`/repo/src/core/`): one entry per exported function, under the name it is exported with.  Each takes
the byte order of the machine first; the entries under `cfg(target_arch = "x86"/"x86_64")` ignore it.
Exported names with other parameter lists which are the bodies of entries of the lists
(`permute_512_unroll_2_with_separate_pointers`,
`permute_512_untransform_unroll_2_with_components_intrinsics` of BC1, `u32_with_separate_endpoints` of
the endpoint splitter) do not occur separately.

Simplification: the BC3 functions for split alpha endpoints take one pointer per section; they are
called here with the sections of one buffer, in the order of the production function.
-/

namespace Dlt

/-- A function exported for benchmarking: machine's byte order, input, output buffer, length. -/
abbrev Kernel := Endian → Buf → Buf → Nat → Option Buf

namespace Bc1

/-- `bench::transform::standard`, bc1/src/bench/mod.rs:12-196; `portable` calls `shift`
(portable64.rs:35-40), the first four call the production kernels (bench/mod.rs:16-38 of
standard/transform). -/
def benchTransforms : List (String × Kernel) :=
  [("shufps_unroll_4", fun _ => transformSse2),
   ("shuffle_permute_unroll_2", fun _ => transformAvx2),
   ("u32", transformPortable),
   ("permute_512", fun _ => transformAvx512),
   ("punpckhqdq_unroll_2", fun _ => benchPunpckhqdq2),
   ("punpckhqdq_unroll_4", fun _ => benchPunpckhqdq4),
   ("shufps_unroll_2", fun _ => benchShufps2),
   ("gather", fun _ => benchGather),
   ("permute", fun _ => benchPermute),
   ("permute_unroll_2", fun _ => benchPermute2),
   ("shuffle_permute", fun _ => benchShufflePermute),
   ("permute_512_unroll_2", fun _ => benchPermute512x2),
   ("u32_unroll_2", benchU32x2),
   ("u32_unroll_4", benchU32x4),
   ("u32_unroll_8", benchU32x8),
   ("portable", benchShift),
   ("shift", benchShift),
   ("shift_unroll_2", benchShift2),
   ("shift_unroll_4", benchShift4),
   ("shift_unroll_8", benchShift8),
   ("shift_with_count", benchShiftCount),
   ("shift_with_count_unroll_2", benchShiftCount2),
   ("shift_with_count_unroll_4", benchShiftCount4),
   ("shift_with_count_unroll_8", benchShiftCount8)]

/-- `bench::untransform::standard`, bc1/src/bench/mod.rs:202-347. -/
def benchUntransforms : List (String × Kernel) :=
  [("u32_untransform", untransformPortable),
   ("unpck_untransform_unroll_2", fun _ => untransformSse2),
   ("permd_untransform_unroll_2", fun _ => untransformAvx2),
   ("permute_512_untransform_unroll_2", fun _ => untransformAvx512),
   ("unpck_untransform", fun _ => benchUnUnpck),
   ("unpck_untransform_unroll_4", fun _ => benchUnUnpck4),
   ("permd_untransform", fun _ => benchUnPermd),
   ("avx2_unpck_untransform", fun _ => benchUnUnpckAvx2),
   ("avx2_unpck_untransform_unroll_2", fun _ => benchUnUnpckAvx2x2),
   ("permute_512_untransform_unroll_2_intrinsics", fun _ => benchUnPermute512),
   ("u32_untransform_unroll_2", benchUnU32x2),
   ("u32_untransform_unroll_4", benchUnU32x4),
   ("u32_untransform_unroll_8", benchUnU32x8)]

end Bc1

namespace Bc2

/-- `bench::transform::standard`, bc2/src/bench/mod.rs:9-73; `avx2_shuffle`, `sse2_shuffle_v2`,
`sse2_shuffle_v3`, `u32` and `permute_512_v2` are the production kernels (standard/transform/bench/mod.rs:21-49).
The last two entries are not exported but tested beside `permute_512`
(standard/transform/bench/avx512.rs:214-215) and `permute_512_v2` (standard/transform/avx512.rs). -/
def benchTransforms : List (String × Kernel) :=
  [("u32", transformPortable),
   ("u32_unroll_2", benchU32x2),
   ("u32_unroll_4", benchU32x4),
   ("avx2_shuffle", fun _ => transformAvx2),
   ("sse2_shuffle_v2", fun _ => transformSse2V2),
   ("sse2_shuffle_v3", fun _ => transformSse2V3),
   ("shuffle_v1", fun _ => benchShuffleV1),
   ("shuffle_v1_unroll_2", fun _ => benchShuffleV1x2),
   ("permute_512_v2", fun _ => transformAvx512),
   ("permute_512", fun _ => benchPermute512),
   ("permute_512_intrinsics", fun _ => benchPermute512Intrinsics),
   ("permute_512_v2_intrinsics", fun _ => transformAvx512I)]

/-- `bench::untransform::standard`, bc2/src/bench/mod.rs:75-109: the production kernels.
`avx512_shuffle` differs between x86-64 and 32-bit x86; the latter is also
`avx512_shuffle_intrinsics` (standard/untransform/avx512.rs:38-49). -/
def benchUntransforms : List (String × Kernel) :=
  [("u32_untransform", untransformPortable),
   ("sse2_shuffle", fun _ => untransformSse2),
   ("avx2_shuffle", fun _ => untransformAvx2),
   ("avx512_shuffle", fun _ => untransformAvx512 true),
   ("avx512_shuffle", fun _ => untransformAvx512 false)]

end Bc2

namespace Bc3

/-- `bench::transform::standard`, bc3/src/bench/mod.rs:13-41; all but `u32_unroll_2` are the
production kernels (standard/transform/bench/mod.rs).  `u32_avx2_transform` differs between x86-64
and 32-bit x86. -/
def benchTransforms : List (String × Kernel) :=
  [("u32_transform", transformPortable),
   ("u32_avx2_transform", fun _ => transformAvx2 true),
   ("u32_avx2_transform", fun _ => transformAvx2 false),
   ("u32_unroll_2", benchU32x2),
   ("avx512_vbmi_transform", fun _ => transformVbmi)]

/-- `bench::untransform::standard`, bc3/src/bench/mod.rs:113-165; `u32_untransform` and
`u64_untransform` are in standard/untransform/bench/portable.rs, the rest are production kernels.
`u` are the unspecified register contents of `avx512_untransform_32`. -/
def benchUntransforms (u : Nat → Byte) : List (String × Kernel) :=
  [("u32_untransform", benchUnU32),
   ("u32_untransform_v2", untransformV2),
   ("u64_untransform", benchUnU64),
   ("u32_untransform_sse2", fun _ => untransformSse2x32),
   ("u64_untransform_sse2", fun _ => untransformSse2x64),
   ("avx512_untransform", fun _ => untransformVbmi64),
   ("avx512_untransform_32", fun _ => untransformVbmi32 u)]

/-- `bench::transform::with_split_alphas`, bc3/src/bench/mod.rs:43-107. -/
def benchAlphaTransforms : List (String × Kernel) :=
  [("generic_transform_with_split_alphas", fun e inp out len =>
      transformAlphaGeneric e inp 0 out 0 (len / 16) (len / 16 * 2) (len / 16 * 8) (len / 16 * 12) (len / 16)),
   ("avx2_transform_with_split_alphas", fun _ inp out len =>
      transformAlphaAvx2 true inp 0 out 0 (len / 16) (len / 16 * 2) (len / 16 * 8) (len / 16 * 12) (len / 16)),
   ("avx2_transform_with_split_alphas", fun _ inp out len =>
      transformAlphaAvx2 false inp 0 out 0 (len / 16) (len / 16 * 2) (len / 16 * 8) (len / 16 * 12) (len / 16)),
   ("avx512_transform_with_split_alphas", fun _ inp out len =>
      transformAlphaVbmi inp 0 out 0 (len / 16) (len / 16 * 2) (len / 16 * 8) (len / 16 * 12) (len / 16))]

/-- `bench::untransform::with_split_alphas`, bc3/src/bench/mod.rs:167-210. -/
def benchAlphaUntransforms : List (String × Kernel) :=
  [("generic_untransform_with_split_alphas", fun e inp out len =>
      untransformAlphaGeneric e inp 0 (len / 16) (len / 16 * 2) (len / 16 * 8) (len / 16 * 12) out 0 (len / 16)),
   ("sse2_untransform_with_split_alphas", fun _ inp out len =>
      untransformAlphaSse2 inp 0 (len / 16) (len / 16 * 2) (len / 16 * 8) (len / 16 * 12) out 0 (len / 16))]

end Bc3

namespace Split

/-- `transforms/split_565_color_endpoints/bench/mod.rs:25-156`; `u32`, `sse2_shuf_unroll2_impl_asm`,
`avx2_shuf_impl_asm` and `avx512_impl` are the production kernels. -/
def benchSplits : List (String × Kernel) :=
  [("u32", portable),
   ("u64", benchU64),
   ("u64_unroll_2", benchU64x2),
   ("u64_unroll_4", benchU64x4),
   ("u64_unroll_8", benchU64x8),
   ("u64_mix", benchMix),
   ("u64_mix_unroll_2", benchMix2),
   ("u64_mix_unroll_4", benchMix4),
   ("u64_mix_unroll_8", benchMix8),
   ("sse2_shift_impl", fun _ => benchSse2Shift),
   ("sse2_shuf_impl", fun _ => benchSse2Shuf),
   ("sse2_shuf_unroll2_impl_asm", fun _ => sse2),
   ("sse2_shuf_unroll2_impl", fun _ => benchSse2Shuf2),
   ("ssse3_pshufb_unroll2_impl", fun _ => benchSsse3x2),
   ("ssse3_pshufb_unroll4_impl", fun _ => benchSsse3x4),
   ("avx2_shuf_impl_asm", fun _ => avx2),
   ("avx2_shuf_impl", fun _ => benchAvx2Shuf),
   ("avx2_shuf_impl_unroll_2", fun _ => benchAvx2Shuf2),
   ("avx512_impl_unroll2", fun _ => benchAvx512x2),
   ("avx512_impl", fun _ => avx512)]

end Split
end Dlt
