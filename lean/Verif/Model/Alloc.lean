import Verif.Model.NormTransform
/-!
# Scratch memory

Models `/repo/src/core/dxt-lossless-transform-common/src/allocate.rs` and the way the automatic transforms
take and release their scratch memory: bc{1,2,3} `transform/transform_auto.rs` and
bc1 `experimental/normalize_blocks/transform.rs`.

The models in `Auto` and `NormTransform` only ask whether an allocation succeeds.  Here the allocator is a machine
with a set of live blocks.  Every release is a step of its own: where Rust drops a value at the
end of its scope, the drop is written out, on every path out of the function and in the order of the
language (the last declared variable first).  Releasing a block that is not live, and reading a slot of a
`MaybeUninit` array that was not written, are undefined behaviour: `none`.

Simplifications: the crate `safe-allocator-api` (not in the repository) is represented by
`RawAlloc::new` asking the allocator and `Drop` releasing the block; memory that an estimator takes for
itself is not counted.
-/

namespace Dlt.Alloc

/-- A `RawAlloc`: the number of the allocation, its address and its size.  The alignment is always 64. -/
structure Block where
  id : Nat
  addr : Nat
  size : Nat
  deriving DecidableEq, Repr

/-- The state of the allocator: the live blocks (newest first), the number of the next one, and the largest
number of bytes that were live at one time. -/
structure Heap where
  live : List Block
  next : Nat
  peak : Nat
  deriving DecidableEq, Repr

/-- The number of live bytes. -/
def Heap.bytes (h : Heap) : Nat := (h.live.map Block.size).sum

/-- The system allocator: where it puts `n` bytes aligned to 64, if it can; what the memory of block `id`
contains at first; and `isize::MAX`. -/
structure Allocator where
  give : Heap → Nat → Option Nat
  fresh : Nat → Nat → Byte
  isizeMax : Nat

/-- The contents of a new block. -/
def Allocator.buf (A : Allocator) (b : Block) : Buf := (List.range b.size).map (A.fresh b.id)

/-- `AllocateError`, allocate.rs:102-113. -/
inductive AllocateError where
  | layout
  | failed
  deriving DecidableEq, Repr

/-- `allocate_align_64`, allocate.rs:97-100 (and `allocate_cache_line_aligned`,
`/repo/src/api/dxt-lossless-transform-api-common/src/allocate.rs:61-77`).  `Layout::from_size_align`
refuses a size that exceeds `isize::MAX` when rounded up to the alignment. -/
def allocateAlign64 (A : Allocator) (n : Nat) (h : Heap) : Except AllocateError Block × Heap :=
  if A.isizeMax + 1 < n + 64 then (.error .layout, h)
  else match A.give h n with
    | none => (.error .failed, h)
    | some a =>
      (.ok ⟨h.next, a, n⟩, ⟨⟨h.next, a, n⟩ :: h.live, h.next + 1, max h.peak (h.bytes + n)⟩)

/-- `Drop for RawAlloc`. -/
def drop (b : Block) (h : Heap) : Option Heap :=
  if b ∈ h.live then some { h with live := h.live.erase b } else none

/-- `assume_init_drop` on each of some slots, allocate.rs:56-60. -/
def dropSlots : List (Option Block) → Heap → Option Heap
  | [], h => some h
  | none :: _, _ => none
  | some b :: rest, h => do dropSlots rest (← drop b h)

/-- The loop of `FixedRawAllocArray::new`, allocate.rs:48-64: `k` slots are left, `i` is the index of the next
one, `count` is `initialized_count`.  `allocations[0..count]` panics when `count` is too large. -/
def newLoop (A : Allocator) (n : Nat) : (k i : Nat) → List (Option Block) → (count : Nat) → Heap →
    Option (Except AllocateError (List (Option Block)) × Heap)
  | 0, _, slots, _, h => some (.ok slots, h)
  | k + 1, i, slots, count, h =>
    match allocateAlign64 A n h with
    | (.ok b, h) => newLoop A n k (i + 1) (slots.set i (some b)) (count + 1) h
    | (.error e, h) =>
      if count ≤ slots.length then do
        let h ← dropSlots (slots.take count) h
        pure (.error e, h)
      else none

/-- `FixedRawAllocArray::<N>::new(num_bytes)`, allocate.rs:39-69. -/
def newArray (A : Allocator) (N n : Nat) (h : Heap) : Option (Except AllocateError (List Block) × Heap) := do
  match ← newLoop A n N 0 (List.replicate N none) 0 h with
  | (.error e, h) => pure (.error e, h)
  | (.ok slots, h) =>
    let bs ← slots.mapM id
    pure (.ok bs, h)

/-- `get_pointer_slice`, allocate.rs:83-85. -/
def pointerSlice (bs : List Block) : List Nat := bs.map Block.addr

/-- Dropping a `FixedRawAllocArray`: the elements of its array in order. -/
def dropArray : List Block → Heap → Option Heap
  | [], h => some h
  | b :: rest, h => do dropArray rest (← drop b h)

/-- Dropping an `Option<RawAlloc>`. -/
def dropOpt : Option Block → Heap → Option Heap
  | none, h => some h
  | some b, h => drop b h

/-- The first part of the three `transform_bcN_auto` with the scratch buffer's life
(bc1 transform_auto.rs:215-270, bc2 211-272, bc3 212-294): `body` is the loop and the final transform,
after it the buffer is dropped, whether `body` succeeded or not. -/
def prepareH {S σ E : Type} (A : Allocator) (est : Estimator σ E) (len : Nat) (out : Buf) (st : σ)
    (body : Nat → σ → Option (Buf × σ × Except (DetermineBestError E) S)) (h : Heap) :
    Option ((Buf × σ × Except (DetermineBestError E) S) × Heap) :=
  match est.maxSize st len with
  | (st, .error e) => some ((out, st, .error (.sizeEstimation e)), h)
  | (st, .ok maxComp) =>
    if maxComp = 0 then (body 0 st).map (·, h)
    else match allocateAlign64 A maxComp h with
      | (.error _, h) => some ((out, st, .error .allocate), h)
      | (.ok b, h) => do
        let r ← body maxComp st
        let h ← drop b h
        pure (r, h)

/-- `transform_bc1_auto`, bc1 transform_auto.rs:200-270. -/
def bc1Auto {σ E : Type} (A : Allocator) (umax : Nat) (m : Machine) (est : Estimator σ E) (useAll : Bool)
    (inp out : Buf) (len : Nat) (st : σ) (h : Heap) :
    Option ((Buf × σ × Except (DetermineBestError E) ColourSettings) × Heap) :=
  prepareH A est (len / 2) out st (fun comp st =>
    Auto.search ⟨fun _ => true, umax⟩ (Bc1.testOrder useAll) Bc1.defaultSettings
      (fun out s => Bc1.transformWithSettings m inp out len s)
      (Bc1.measure ⟨fun _ => true, umax⟩ est len comp) out st) h

/-- `transform_bc2_auto`, bc2 transform_auto.rs:196-272. -/
def bc2Auto {σ E : Type} (A : Allocator) (umax : Nat) (m : Machine) (est : Estimator σ E) (useAll : Bool)
    (inp out : Buf) (len : Nat) (st : σ) (h : Heap) :
    Option ((Buf × σ × Except (DetermineBestError E) ColourSettings) × Heap) :=
  prepareH A est (len / 4) out st (fun comp st =>
    Auto.search ⟨fun _ => true, umax⟩ (Bc2.testOrder useAll) Bc2.defaultSettings
      (fun out s => Bc2.transformWithSettings m inp out len s)
      (Bc2.measure ⟨fun _ => true, umax⟩ est len comp) out st) h

/-- `transform_bc3_auto`, bc3 transform_auto.rs:196-294. -/
def bc3Auto {σ E : Type} (A : Allocator) (umax : Nat) (m : Machine) (est : Estimator σ E) (useAll : Bool)
    (inp out : Buf) (len : Nat) (st : σ) (h : Heap) :
    Option ((Buf × σ × Except (DetermineBestError E) Bc3.Settings) × Heap) :=
  prepareH A est (len / 4) out st (fun comp st =>
    Auto.search ⟨fun _ => true, umax⟩ (Bc3.testOrder useAll) Bc3.defaultSettings
      (fun out s => Bc3.transformWithSettings m inp out len s)
      (Bc3.measure ⟨fun _ => true, umax⟩ est len comp) out st) h

open Norm.Bc1 Dlt.Bc1 in
/-- The branch of `transform_bc1_auto_with_normalization` for data in which some block normalizes,
transform.rs:259-317; `bufs` are the normalized blocks. -/
def normBranch {σ E : Type} (A : Allocator) (umax : Nat) (m : Machine) (est : Estimator σ E) (useAll : Bool)
    (inp out : Buf) (len comp : Nat) (bufs : List Buf) (st : σ) (h : Heap) :
    Option ((Buf × σ × Except (DetermineBestError E) Details) × Heap) := do
  match ← newArray A 3 len h with
  | (.error _, h) => pure ((out, st, .error .allocate), h)
  | (.ok split, h) =>
    let b0 ← bufs[0]?
    let b1 ← bufs[1]?
    let b2 ← bufs[2]?
    let p0 ← split[0]?
    let p1 ← split[1]?
    let p2 ← split[2]?
    let s0 ← stdTransform m b0 (A.buf p0) len
    let s1 ← stdTransform m b1 (A.buf p1) len
    let s2 ← stdTransform m b2 (A.buf p2) len
    match allocateAlign64 A (len / 2) h with
    | (.error _, h) => do
      let h ← dropArray split h
      pure ((out, st, .error .allocate), h)
    | (.ok work, h) => do
      let (w, st, best) ← testLoop m est len comp (candidates useAll [s0, s1, s2]) (A.buf work) st
        .default umax
      let (out, _) ← transformNormalize m inp out w len best
      let h ← drop work h
      let h ← dropArray split h
      pure ((out, st, .ok best), h)

open Norm.Bc1 Dlt.Bc1 in
/-- The rest of `transform_bc1_auto_with_normalization` after the scratch buffer, transform.rs:250-331, with the
drops of `_comp_buffer` and `normalize_buffers` at the end.  When no block normalizes,
`normalize_buffers` is dropped before `transform_bc1_auto` runs, the scratch buffer after it. -/
def autoNormBody {σ E : Type} (A : Allocator) (umax : Nat) (m : Machine) (est : Estimator σ E) (useAll : Bool)
    (inp out : Buf) (len comp : Nat) (scratch : Option Block) (norm : List Block) (st : σ) (h : Heap) :
    Option ((Buf × σ × Except (DetermineBestError E) Details) × Heap) := do
  let n0 ← norm[0]?
  let n1 ← norm[1]?
  let n2 ← norm[2]?
  let (bufs, any) ← allModes (.separate inp) [A.buf n0, A.buf n1, A.buf n2] len
  if any then
    let (r, h) ← normBranch A umax m est useAll inp out len comp bufs st h
    let h ← dropOpt scratch h
    let h ← dropArray norm h
    pure (r, h)
  else
    let h ← dropArray norm h
    let ((out, st, r), h) ← bc1Auto A umax m est useAll inp out len st h
    let h ← dropOpt scratch h
    pure ((out, st, r.map Details.ofSettings), h)

open Norm.Bc1 Dlt.Bc1 in
/-- `transform_bc1_auto_with_normalization`, transform.rs:222-332. -/
def autoNorm {σ E : Type} (A : Allocator) (umax : Nat) (m : Machine) (est : Estimator σ E) (useAll : Bool)
    (inp out : Buf) (len : Nat) (st : σ) (h : Heap) :
    Option ((Buf × σ × Except (DetermineBestError E) Details) × Heap) := do
  match ← newArray A 3 len h with
  | (.error _, h) => pure ((out, st, .error .allocate), h)
  | (.ok norm, h) =>
    match est.maxSize st (len / 2) with
    | (st, .error e) => do
      let h ← dropArray norm h
      pure ((out, st, .error (.sizeEstimation e)), h)
    | (st, .ok maxComp) =>
      if maxComp = 0 then autoNormBody A umax m est useAll inp out len 0 none norm st h
      else match allocateAlign64 A maxComp h with
        | (.error _, h) => do
          let h ← dropArray norm h
          pure ((out, st, .error .allocate), h)
        | (.ok b, h) => autoNormBody A umax m est useAll inp out len maxComp (some b) norm st h

end Dlt.Alloc
