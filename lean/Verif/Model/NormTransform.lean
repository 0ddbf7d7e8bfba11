import Verif.Model.Normalize
import Verif.Model.SplitEndpoints
import Verif.Model.Auto
/-!
# The experimental BC1 transform with block normalization

Models `/repo/src/core/dxt-lossless-transform-bc1/src/experimental/normalize_blocks/transform.rs` and the settings of
`/repo/src/core/dxt-lossless-transform-bc1/src/experimental/mod.rs`.
-/

namespace Dlt

/-- `decorrelate_ycocg_r_ptr` with `src_ptr == dst_ptr`,
common/src/color_565/decorrelate_batch_ptr.rs:336-359 and the loops of lines 58-82, 152-176, 246-270: each
item is read before it is written; `None` does nothing, since the pointers are equal (line 354). -/
def Batch.decorrelateInPlace (e : Endian) (buf : Buf) (numItems : Nat) (v : Variant) : Option Buf :=
  let loop (f : U16 → U16) : Option Buf :=
    forM (fun x buf => do
      let color ← ld16 e buf (x * 2)
      st16 e buf (x * 2) (f color)) 0 numItems buf
  match v with
  | .v1 => loop Color565.decorr1
  | .v2 => loop Color565.decorr2
  | .v3 => loop Color565.decorr3
  | .none => some buf

namespace Norm.Bc1
open Dlt.Bc1

/-- `Bc1TransformDetailsWithNormalization`, experimental/mod.rs:13-28. -/
structure Details where
  /-- `color_normalization_mode` -/
  norm : Mode
  /-- `decorrelation_mode` -/
  decorr : Variant
  /-- `split_colour_endpoints` -/
  split : Bool
  deriving DecidableEq, Repr

/-- `From<Bc1TransformDetailsWithNormalization> for Bc1UntransformSettings`, experimental/mod.rs:30-37. -/
def Details.untransformSettings (d : Details) : ColourSettings := ⟨d.decorr, d.split⟩

/-- `Default`, experimental/mod.rs:39-48. -/
def Details.default : Details := ⟨.none, .v1, true⟩

/-- `From<Bc1TransformSettings>`, experimental/mod.rs:50-58. -/
def Details.ofSettings (s : ColourSettings) : Details := ⟨.none, s.decorr, s.split⟩

/-- `transform_with_separate_pointers`, transform/standard/transform/mod.rs:56-74 and 121-169, with the
colours going to the start of `work` and the indices to `out + len / 2`.  The result is `(work, out)`.
Simplification: the kernels of `Bc1Std` address one region, so the first `len / 2` bytes of the work
buffer are put in front of the second half of the output buffer and the index pointer is `len / 2`. -/
def transformSeparate (m : Machine) (inp work out : Buf) (len : Nat) : Option (Buf × Buf) :=
  if work.length < len / 2 ∨ out.length < len / 2 then none
  else do
    let mem := work.take (len / 2) ++ out.drop (len / 2)
    let mem ← match m with
      | .x86 f =>
        if f.avx512f then transformAvx512Ptrs inp 0 mem 0 (len / 2) len
        else if f.avx2 then transformAvx2Ptrs inp 0 mem 0 (len / 2) len
        else if f.sse2 then transformSse2Ptrs inp 0 mem 0 (len / 2) len
        else transformPtrs .little inp 0 mem 0 (len / 2) len
      | .other e _ => transformPtrs e inp 0 mem 0 (len / 2) len
    pure (mem.take (len / 2) ++ work.drop (len / 2), out.take (len / 2) ++ mem.drop (len / 2))

/-- `transform_bc1_with_normalize_blocks`, transform.rs:65-170.  The result is `(out, work)`.
`split_color_endpoints` reads the first `len / 2` bytes of the work buffer. -/
def transformNormalize (m : Machine) (inp out work : Buf) (len : Nat) (d : Details) : Option (Buf × Buf) :=
  if d.norm ≠ .none ∧ d.split then do
    let (work, out) ← transformSeparate m inp work out len
    let t ← normalizeSplit d.norm 0 (len / 2) (len / 8) ⟨work, some out⟩
    let work := t.colors
    let out ← t.indices
    let out ← Split.splitColorEndpoints m (slice work 0 (len / 2)) out (len / 2)
    let out ← Batch.decorrelateInPlace m.endian out (len / 2 / 2) d.decorr
    pure (out, work)
  else if d.norm ≠ .none then do
    let out ← stdTransform m inp out len
    let t ← normalizeSplit d.norm 0 (len / 2) (len / 8) ⟨out, none⟩
    let out ← Batch.decorrelateInPlace m.endian t.colors (len / 2 / 2) d.decorr
    pure (out, work)
  else if d.split then do
    let (work, out) ← transformSeparate m inp work out len
    let out ← Split.splitColorEndpoints m (slice work 0 (len / 2)) out (len / 2)
    let out ← Batch.decorrelateInPlace m.endian out (len / 2 / 2) d.decorr
    pure (out, work)
  else do
    let out ← stdTransform m inp out len
    let out ← Batch.decorrelateInPlace m.endian out (len / 2 / 2) d.decorr
    pure (out, work)

/-- The buffer part of `test_normalize_variant_with_normalization`, transform.rs:338-378: `input` holds
separated blocks, the candidate's colour section goes to the work buffer. -/
def prepareVariant (m : Machine) (input work : Buf) (len : Nat) (d : Details) : Option Buf :=
  if d.split then do
    let work ← Split.splitColorEndpoints m (slice input 0 (len / 2)) work (len / 2)
    Batch.decorrelateInPlace m.endian work (len / 2 / 2) d.decorr
  else Batch.decorrelateSlice m.endian (slice input 0 (len / 2)) work d.decorr

/-- The loop over normalization modes and test order, transform.rs:290-316, with the comparison of
`test_normalize_variant_with_normalization`, lines 390-407: a candidate whose estimation fails is skipped.
A candidate comes with the separated blocks that it is tested on. -/
def testLoop {σ E : Type} (m : Machine) (est : Estimator σ E) (len comp : Nat) :
    List (Details × Buf) → Buf → σ → Details → Nat → Option (Buf × σ × Details)
  | [], work, st, best, _ => some (work, st, best)
  | (cur, input) :: rest, work, st, best, bestSize => do
    let work ← prepareVariant m input work len cur
    match est.estimate st (slice work 0 (len / 2)) comp with
    | (st, .error _) => testLoop m est len comp rest work st best bestSize
    | (st, .ok size) =>
      if size < bestSize then testLoop m est len comp rest work st cur size
      else testLoop m est len comp rest work st best bestSize

/-- The candidates in the order of the nested loops, transform.rs:290-297. -/
def candidates (useAll : Bool) (splits : List Buf) : List (Details × Buf) :=
  (Mode.all.zip splits).flatMap fun (mode, input) =>
    (testOrder useAll).map fun s => (⟨mode, s.decorr, s.split⟩, input)

/-- What the allocator does: whether allocation number `k` of `n` bytes succeeds, the contents of the new
memory, and the word size.  (`allocate_align_64`, common/src/allocate.rs.) -/
structure Heap where
  canAlloc : Nat → Nat → Bool
  fresh : Nat → Nat → Byte
  /-- `usize::MAX` -/
  usizeMax : Nat

/-- New memory. -/
def Heap.buf (h : Heap) (k n : Nat) : Buf := (List.range n).map (h.fresh k)

/-- The part of `transform_bc1_auto_with_normalization` after the scratch buffer, transform.rs:253-331.
Allocations 0-2 are the normalization buffers, 3 the scratch buffer, 4-6 the split buffers, 7 the
work buffer, 8 the scratch buffer of `transform_bc1_auto`. -/
def autoBody {σ E : Type} (h : Heap) (m : Machine) (est : Estimator σ E) (useAll : Bool)
    (inp out : Buf) (len comp : Nat) (st : σ) : Option (Buf × σ × Except (DetermineBestError E) Details) := do
  let (bufs, any) ← allModes (.separate inp) [h.buf 0 len, h.buf 1 len, h.buf 2 len] len
  if any then
    if h.canAlloc 4 len && h.canAlloc 5 len && h.canAlloc 6 len then
      let b0 ← bufs[0]?
      let b1 ← bufs[1]?
      let b2 ← bufs[2]?
      let s0 ← stdTransform m b0 (h.buf 4 len) len
      let s1 ← stdTransform m b1 (h.buf 5 len) len
      let s2 ← stdTransform m b2 (h.buf 6 len) len
      if h.canAlloc 7 (len / 2) then
        let (work, st, best) ← testLoop m est len comp (candidates useAll [s0, s1, s2]) (h.buf 7 (len / 2)) st
          .default h.usizeMax
        let (out, _) ← transformNormalize m inp out work len best
        pure (out, st, .ok best)
      else pure (out, st, .error .allocate)
    else pure (out, st, .error .allocate)
  else
    let (out, st, r) ← transformAuto ⟨h.canAlloc 8, h.usizeMax⟩ m est useAll inp out len st
    pure (out, st, r.map Details.ofSettings)

/-- `transform_bc1_auto_with_normalization`, transform.rs:222-332. -/
def autoNormalize {σ E : Type} (h : Heap) (m : Machine) (est : Estimator σ E) (useAll : Bool)
    (inp out : Buf) (len : Nat) (st : σ) : Option (Buf × σ × Except (DetermineBestError E) Details) :=
  if h.canAlloc 0 len && h.canAlloc 1 len && h.canAlloc 2 len then
    match est.maxSize st (len / 2) with
    | (st, .error e) => some (out, st, .error (.sizeEstimation e))
    | (st, .ok maxComp) =>
      if maxComp = 0 then autoBody h m est useAll inp out len 0 st
      else if h.canAlloc 3 maxComp then autoBody h m est useAll inp out len maxComp st
      else some (out, st, .error .allocate)
  else some (out, st, .error .allocate)

end Norm.Bc1
end Dlt
