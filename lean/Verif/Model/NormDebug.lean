import Verif.Model.NormTransform
import Verif.Model.DebugAsserts
/-!
# The BC1 transform with block normalization in debug builds

`Model/NormTransform` is the release build.  A debug build adds the `debug_assert!`s and the checks that the compiler and the standard
library make with debug assertions: `*p` and `&*p` panic if `p` is not aligned for its type, and so does `slice::from_raw_parts`.
`Color565` (common/src/color_565/mod.rs) holds one `u16`, so it is aligned at even addresses.  All other accesses of these functions
to buffers are unaligned reads and writes or accesses to bytes.

The assertions that buffers do not overlap (normalize.rs:426-433) hold here, since buffers are separate regions.
-/

namespace Dlt

/-- `Model/NormTransform.lean` `Batch.decorrelateInPlace` with the buffer at the address `addr`: `&*src_ptr.add(x)` and
`*dst_ptr.add(x) = ..`, decorrelate_batch_ptr.rs:75-76, 169-170, 263-264. -/
def Batch.decorrelateInPlaceDebug (e : Endian) (addr : Nat) (buf : Buf) (numItems : Nat) (v : Variant) : Option Buf :=
  let loop (f : U16 → U16) : Option Buf :=
    forM (fun x buf =>
      if (addr + x * 2) % 2 ≠ 0 then none
      else do
        let color ← ld16 e buf (x * 2)
        st16 e buf (x * 2) (f color)) 0 numItems buf
  match v with
  | .v1 => loop Color565.decorr1
  | .v2 => loop Color565.decorr2
  | .v3 => loop Color565.decorr3
  | .none => some buf

/-- `split_color_endpoints` with its assertion, common/src/transforms/split_565_color_endpoints/mod.rs:116-119.  The kernels repeat it. -/
def Split.splitColorEndpointsDebug (m : Machine) (colors out : Buf) (len : Nat) : Option Buf :=
  if 4 ≤ len ∧ len % 4 = 0 then Split.splitColorEndpoints m colors out len else none

namespace Norm.Bc1
open Dlt.Bc1

/-- `transform_bc1_with_normalize_blocks`, transform.rs:65-170, in a debug build; the output buffer is at the address `outAddr`. -/
def transformNormalizeDebug (m : Machine) (inp out work : Buf) (outAddr len : Nat) (d : Details) : Option (Buf × Buf) :=
  if len % 8 ≠ 0 then none
  else if d.norm ≠ .none ∧ d.split then do
    let (work, out) ← transformSeparate m inp work out len
    let t ← normalizeSplit d.norm 0 (len / 2) (len / 8) ⟨work, some out⟩
    let work := t.colors
    let out ← t.indices
    let out ← Split.splitColorEndpointsDebug m (slice work 0 (len / 2)) out (len / 2)
    let out ← Batch.decorrelateInPlaceDebug m.endian outAddr out (len / 2 / 2) d.decorr
    pure (out, work)
  else if d.norm ≠ .none then do
    let out ← stdTransform m inp out len
    let t ← normalizeSplit d.norm 0 (len / 2) (len / 8) ⟨out, none⟩
    let out ← Batch.decorrelateInPlaceDebug m.endian outAddr t.colors (len / 2 / 2) d.decorr
    pure (out, work)
  else if d.split then do
    let (work, out) ← transformSeparate m inp work out len
    let out ← Split.splitColorEndpointsDebug m (slice work 0 (len / 2)) out (len / 2)
    let out ← Batch.decorrelateInPlaceDebug m.endian outAddr out (len / 2 / 2) d.decorr
    pure (out, work)
  else do
    let out ← stdTransform m inp out len
    let out ← Batch.decorrelateInPlaceDebug m.endian outAddr out (len / 2 / 2) d.decorr
    pure (out, work)

/-- The buffer part of `test_normalize_variant_with_normalization`, transform.rs:338-378, in a debug build: the slices of colours are
aligned.  (The two slices have the same length, as decorrelate_batch_slice.rs:242-245 asserts.) -/
def prepareVariantDebug (m : Machine) (input work : Buf) (inAddr workAddr len : Nat) (d : Details) : Option Buf :=
  if d.split then do
    let work ← Split.splitColorEndpointsDebug m (slice input 0 (len / 2)) work (len / 2)
    if workAddr % 2 ≠ 0 then none else Batch.decorrelateInPlaceDebug m.endian workAddr work (len / 2 / 2) d.decorr
  else if inAddr % 2 ≠ 0 ∨ workAddr % 2 ≠ 0 then none
  else Batch.decorrelateSlice m.endian (slice input 0 (len / 2)) work d.decorr

/-- `testLoop` in a debug build; `inAddr` are the addresses of the separated blocks of each mode. -/
def testLoopDebug {σ E : Type} (m : Machine) (est : Estimator σ E) (len comp : Nat) (inAddr : Mode → Nat) (workAddr : Nat) :
    List (Details × Buf) → Buf → σ → Details → Nat → Option (Buf × σ × Details)
  | [], work, st, best, _ => some (work, st, best)
  | (cur, input) :: rest, work, st, best, bestSize => do
    let work ← prepareVariantDebug m input work (inAddr cur.norm) workAddr len cur
    match est.estimate st (slice work 0 (len / 2)) comp with
    | (st, .error _) => testLoopDebug m est len comp inAddr workAddr rest work st best bestSize
    | (st, .ok size) =>
      if size < bestSize then testLoopDebug m est len comp inAddr workAddr rest work st cur size
      else testLoopDebug m est len comp inAddr workAddr rest work st best bestSize

/-- The split buffers are the allocations 4 to 6, transform.rs:268-269. -/
def splitAddr (addr : Nat → Nat) : Mode → Nat
  | .none => addr 4
  | .color0Only => addr 5
  | .replicate => addr 6

/-- `autoBody` in a debug build; allocation number `k` is at the address `addr k`. -/
def autoBodyDebug {σ E : Type} (h : Heap) (addr : Nat → Nat) (m : Machine) (est : Estimator σ E) (useAll : Bool)
    (inp out : Buf) (outAddr len comp : Nat) (st : σ) : Option (Buf × σ × Except (DetermineBestError E) Details) := if len % 8 ≠ 0 then none else do
  let (bufs, any) ← allModes (.separate inp) [h.buf 0 len, h.buf 1 len, h.buf 2 len] len
  if any then
    if h.canAlloc 4 len && h.canAlloc 5 len && h.canAlloc 6 len then
      let b0 ← bufs[0]?
      let b1 ← bufs[1]?
      let b2 ← bufs[2]?
      let s0 ← stdTransform m b0 (h.buf 4 len) len
      let s1 ← stdTransform m b1 (h.buf 5 len) len
      let s2 ← stdTransform m b2 (h.buf 6 len) len
      if h.canAlloc 7 (len / 2) then
        let (work, st, best) ← testLoopDebug m est len comp (splitAddr addr) (addr 7) (candidates useAll [s0, s1, s2])
          (h.buf 7 (len / 2)) st .default h.usizeMax
        let (out, _) ← transformNormalizeDebug m inp out work outAddr len best
        pure (out, st, .ok best)
      else pure (out, st, .error .allocate)
    else pure (out, st, .error .allocate)
  else
    let (out, st, r) ← transformAutoDebug ⟨h.canAlloc 8, h.usizeMax⟩ m est useAll inp out len st
    pure (out, st, r.map Details.ofSettings)

/-- `transform_bc1_auto_with_normalization`, transform.rs:222-332, in a debug build. -/
def autoNormalizeDebug {σ E : Type} (h : Heap) (addr : Nat → Nat) (m : Machine) (est : Estimator σ E) (useAll : Bool)
    (inp out : Buf) (outAddr len : Nat) (st : σ) : Option (Buf × σ × Except (DetermineBestError E) Details) :=
  if h.canAlloc 0 len && h.canAlloc 1 len && h.canAlloc 2 len then
    match est.maxSize st (len / 2) with
    | (st, .error e) => some (out, st, .error (.sizeEstimation e))
    | (st, .ok maxComp) =>
      if maxComp = 0 then autoBodyDebug h addr m est useAll inp out outAddr len 0 st
      else if h.canAlloc 3 maxComp then autoBodyDebug h addr m est useAll inp out outAddr len maxComp st
      else some (out, st, .error .allocate)
  else some (out, st, .error .allocate)

end Norm.Bc1
end Dlt
