import Verif.Model.Machine
/-!
# Batch colour functions

`/repo/src/core/dxt-lossless-transform-common/src/color_565/decorrelate_batch_*.rs`.  A `Color565` is
one native-endian `u16`, so item `x` lives at byte offset `2 * x`.  The `multiversion` attribute only
compiles the same body for several instruction sets.  `for x in 0..n` is `forM`.
-/

namespace Dlt

/-- `for x in x0..x0+n { out = body x out }` -/
def forM (body : Nat → Buf → Option Buf) : Nat → Nat → Buf → Option Buf
  | _, 0, out => some out
  | x, n + 1, out => (body x out).bind (forM body (x + 1) n)

namespace Batch

/-- The loop `for x in 0..num_items { *dst_ptr.add(x) = f(*src_ptr.add(x)) }`. -/
def mapLoop (e : Endian) (f : U16 → U16) (src : Buf) (sp : Nat) (dst : Buf) (dp numItems : Nat) :
    Option Buf :=
  forM (fun x dst => do
    let color ← ld16 e src (sp + x * 2)
    st16 e dst (dp + x * 2) (f color)) 0 numItems dst

/-- `decorrelate_ycocg_r_ptr`, decorrelate_batch_ptr.rs:336-359, with the variant functions of
lines 58-82, 152-176 and 246-270.  `None` copies the items (`copy_nonoverlapping`, lines 352-357;
source and destination are different regions here). -/
def decorrelatePtr (e : Endian) (src : Buf) (sp : Nat) (dst : Buf) (dp numItems : Nat) (v : Variant) :
    Option Buf :=
  match v with
  | .v1 => mapLoop e Color565.decorr1 src sp dst dp numItems
  | .v2 => mapLoop e Color565.decorr2 src sp dst dp numItems
  | .v3 => mapLoop e Color565.decorr3 src sp dst dp numItems
  | .none => if 0 < numItems then do
      let bs ← ld src sp (numItems * 2)
      st dst dp bs
    else some dst

/-- `recorrelate_ycocg_r_ptr`, decorrelate_batch_ptr.rs:378-401, with the variant functions of lines
105-129, 199-223 and 293-317. -/
def recorrelatePtr (e : Endian) (src : Buf) (sp : Nat) (dst : Buf) (dp numItems : Nat) (v : Variant) :
    Option Buf :=
  match v with
  | .v1 => mapLoop e Color565.recorr1 src sp dst dp numItems
  | .v2 => mapLoop e Color565.recorr2 src sp dst dp numItems
  | .v3 => mapLoop e Color565.recorr3 src sp dst dp numItems
  | .none => if 0 < numItems then do
      let bs ← ld src sp (numItems * 2)
      st dst dp bs
    else some dst

/-- `decorrelate_ycocg_r_slice`, decorrelate_batch_slice.rs:241-249: the item count is that of the
source slice. -/
def decorrelateSlice (e : Endian) (src dst : Buf) (v : Variant) : Option Buf :=
  decorrelatePtr e src 0 dst 0 (src.length / 2) v

/-- `recorrelate_ycocg_r_slice`, decorrelate_batch_slice.rs:290-298. -/
def recorrelateSlice (e : Endian) (src dst : Buf) (v : Variant) : Option Buf :=
  recorrelatePtr e src 0 dst 0 (src.length / 2) v

/-- The loop `for x in 0..num_items / 2 { .. }` of the split functions,
decorrelate_batch_split_ptr.rs:120-131. -/
def splitLoop (e : Endian) (f : U16 → U16) (src0 : Buf) (sp0 : Nat) (src1 : Buf) (sp1 : Nat)
    (dst : Buf) (dp numItems : Nat) : Option Buf :=
  forM (fun x dst => do
    let c0 ← ld16 e src0 (sp0 + x * 2)
    let c1 ← ld16 e src1 (sp1 + x * 2)
    let dst ← st16 e dst (dp + (x * 2) * 2) (f c0)
    st16 e dst (dp + (x * 2 + 1) * 2) (f c1)) 0 (numItems / 2) dst

/-- `recorrelate_ycocg_r_ptr_split`, decorrelate_batch_split_ptr.rs:324-359, with the variant functions
of lines 94-135, 174-215 and 254-295.  The `None` case interleaves without transforming. -/
def recorrelatePtrSplit (e : Endian) (src0 : Buf) (sp0 : Nat) (src1 : Buf) (sp1 : Nat) (dst : Buf)
    (dp numItems : Nat) (v : Variant) : Option Buf :=
  match v with
  | .v1 => splitLoop e Color565.recorr1 src0 sp0 src1 sp1 dst dp numItems
  | .v2 => splitLoop e Color565.recorr2 src0 sp0 src1 sp1 dst dp numItems
  | .v3 => splitLoop e Color565.recorr3 src0 sp0 src1 sp1 dst dp numItems
  | .none => if 0 < numItems then splitLoop e id src0 sp0 src1 sp1 dst dp numItems else some dst

/-- `recorrelate_ycocg_r_slice_split`, decorrelate_batch_split_slice.rs:252-276: the item count is
twice that of the first source slice. -/
def recorrelateSliceSplit (e : Endian) (src0 src1 dst : Buf) (v : Variant) : Option Buf :=
  recorrelatePtrSplit e src0 0 src1 0 dst 0 (src0.length / 2 * 2) v

end Batch
end Dlt
