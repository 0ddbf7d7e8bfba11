import Verif.Model.Decode
import Verif.Model.Batch
/-!
# Block normalization

Models `/repo/src/core/dxt-lossless-transform-bc{1,2,3}/src/experimental/normalize_blocks/normalize.rs`.

The functions accept identical input and output pointers.  A source is therefore an `Option Buf`:
`some inp` is a region of its own, `none` says that the source pointer is the destination pointer, so
that reads see what was written before.  The `debug_assert!`s on overlap and on the length are the
contract of the functions and not modelled as code.

`(dst as *mut u64).write_unaligned(read_unaligned(src as *const u64))` moves eight bytes, on machines of
either byte order.
-/

namespace Dlt.Norm

/-- `enum ColorNormalizationMode`, bc1 normalize.rs:487-500, bc2 338-352, bc3 143-156. -/
inductive Mode where
  | none
  | color0Only
  | replicate
  deriving DecidableEq, Repr

/-- `ColorNormalizationMode::all_values()`, derived from the order of the variants. -/
def Mode.all : List Mode := [.none, .color0Only, .replicate]

/-- Copy eight bytes. -/
def copy64 (src : Option Buf) (sp : Nat) (dst : Buf) (dp : Nat) : Option Buf := do
  let w ← ld (src.getD dst) sp 8
  st dst dp w

/-- `write_bytes(p, v, n)`: fill `n` bytes. -/
def fill (dst : Buf) (dp : Nat) (v : Byte) (n : Nat) : Option Buf := st dst dp (List.replicate n v)

/-- `copy_nonoverlapping(input_ptr, output_ptr, len)` unless the pointers are equal: the first
statement of all `normalize_blocks`, bc1 normalize.rs:53-63, bc2 50-61, bc3 52-62. -/
def copyAll (src : Option Buf) (dst : Buf) (len : Nat) : Option Buf :=
  match src with
  | .none => some dst
  | some inp => do
    let bs ← ld inp 0 len
    st dst 0 bs

/-- The bytes of `color565.raw_value().to_le_bytes()`. -/
def lo (c : U16) : Byte := c.extractLsb' 0 8
/-- See `lo`. -/
def hi (c : U16) : Byte := c.extractLsb' 8 8

/-- Where the input of `normalize_blocks_all_modes` is: in a region of its own, or in the same memory
as output buffer number `k`. -/
inductive Input where
  | separate (inp : Buf)
  | output (k : Nat)

/-- The input bytes, given the current contents of the output buffers. -/
def Input.region (i : Input) (outs : List Buf) : Option Buf :=
  match i with
  | .separate inp => some inp
  | .output k => outs[k]?

/-- The source of a write to output buffer `x`. -/
def Input.source (i : Input) (outs : List Buf) (x : Nat) : Option (Option Buf) :=
  match i with
  | .separate inp => some (some inp)
  | .output k => if k = x then some .none else (outs[k]?).map some

/-- `for x in 0..n`: apply `f x source buffer` to every output buffer in turn.  (Each buffer is
addressed by its own pointer `dst_block_ptrs[x]`; the pointers start at the start of the buffers and
advance together, so one offset `dp` serves all of them.) -/
def eachOutput (i : Input) (f : Nat → Option Buf → Buf → Option Buf) :
    (n : Nat) → List Buf → Option (List Buf)
  | 0, outs => some outs
  | n + 1, outs => do
    let outs ← eachOutput i f n outs
    let src ← i.source outs n
    let dst ← outs[n]?
    let dst ← f n src dst
    pure (outs.set n dst)

/-! ## BC1 -/

namespace Bc1

/-- `enum BlockCase`, bc1 normalize.rs:191-198. -/
inductive Case where
  | transparent
  | solid
  | cannot
  deriving DecidableEq, Repr

/-- The analysis of one decoded block, bc1 normalize.rs:135-182: the case and the colour handed to
the output handler. -/
def classify (px : Pixels) : Option (Case × U16) := do
  if ← px.identical then
    let pixel ← px[0]?
    if pixel.a = 0 then pure (.transparent, 0)
    else
      let color565 := pixel.to565Lossy
      if Color565.to8888Lossy color565 = pixel then pure (.solid, color565)
      else pure (.cannot, color565)
  else pure (.cannot, 0)

/-- `normalize_blocks_impl`, bc1 normalize.rs:119-187.  `region` is the memory that `input_ptr` points
to, in terms of the state that the handler updates. -/
def impl {σ : Type} (region : σ → Option Buf) (len : Nat)
    (handle : Nat → Case → U16 → σ → Option σ) (s : σ) : Option σ := do
  let (_, s) ← whileM (len + 1) (fun (sp, _) => sp < len) (fun (sp, s) => do
    let inp ← region s
    let px ← Decode.bc1 inp sp
    let (case, color) ← classify px
    let s ← handle sp case color s
    pure (sp + 8, s)) (0, s)
  pure s

/-- `write_normalized_solid_color_block`, bc1 normalize.rs:215-259. -/
def writeSolid (src : Option Buf) (sp : Nat) (dst : Buf) (dp : Nat) (color : U16) (mode : Mode) :
    Option Buf := do
  let dst ← st8 dst dp (lo color)
  let dst ← st8 dst (dp + 1) (hi color)
  match mode with
  | .none => copy64 src sp dst dp
  | .color0Only =>
    let dst ← st8 dst (dp + 2) 0
    let dst ← st8 dst (dp + 3) 0
    let dst ← st8 dst (dp + 4) 0
    let dst ← st8 dst (dp + 5) 0
    let dst ← st8 dst (dp + 6) 0
    st8 dst (dp + 7) 0
  | .replicate =>
    let dst ← st8 dst (dp + 2) (lo color)
    let dst ← st8 dst (dp + 3) (hi color)
    let dst ← st8 dst (dp + 4) 0
    let dst ← st8 dst (dp + 5) 0
    let dst ← st8 dst (dp + 6) 0
    st8 dst (dp + 7) 0

/-- `normalize_blocks`, bc1 normalize.rs:38-96. -/
def normalizeBlocks (src : Option Buf) (out : Buf) (len : Nat) (mode : Mode) : Option Buf :=
  if mode = .none then copyAll src out len
  else do
    let (_, out) ← impl (fun (_, out) => some (src.getD out)) len (fun sp case color (dp, out) => do
      let out ← match case with
        | .transparent => fill out dp 0xFF 8
        | .solid => writeSolid src sp out dp color mode
        | .cannot => copy64 src sp out dp
      pure (dp + 8, out)) (0, out)
    pure out

/-- `normalize_blocks_all_modes`, bc1 normalize.rs:417-480: the output buffers and `any_normalized`. -/
def allModes (i : Input) (outs : List Buf) (len : Nat) : Option (List Buf × Bool) := do
  let (_, outs, any) ← impl (fun (_, outs, _) => i.region outs) len (fun sp case color (dp, outs, any) => do
    match case with
    | .transparent =>
      let outs ← eachOutput i (fun _ _ dst => fill dst dp 0xFF 8) 3 outs
      pure (dp + 8, outs, true)
    | .solid =>
      let outs ← eachOutput i (fun x src dst => do
        let mode ← Mode.all[x]?
        writeSolid src sp dst dp color mode) 3 outs
      pure (dp + 8, outs, true)
    | .cannot =>
      let outs ← eachOutput i (fun _ src dst => copy64 src sp dst dp) 3 outs
      pure (dp + 8, outs, any)) (0, outs, false)
  pure (outs, any)

/-- The memory of `normalize_split_blocks_in_place`: the region that holds the colours and the region
that holds the indices; `none` says that it is the same region. -/
structure Split where
  /-- where `colors_ptr` points to -/
  colors : Buf
  /-- where `indices_ptr` points to -/
  indices : Option Buf

/-- Store through `colors_ptr`. -/
def Split.stC (t : Split) (off : Nat) (bs : Buf) : Option Split := do
  let c ← st t.colors off bs
  pure { t with colors := c }

/-- Store through `indices_ptr`. -/
def Split.stX (t : Split) (off : Nat) (bs : Buf) : Option Split :=
  match t.indices with
  | .none => do
    let c ← st t.colors off bs
    pure { t with colors := c }
  | some x => do
    let x ← st x off bs
    pure { t with indices := some x }

/-- The body of the loop of `normalize_split_blocks_in_place`, bc1 normalize.rs:299-381, for one
block. -/
def splitBody (mode : Mode) (cp xp : Nat) (t : Split) : Option Split := do
  let temp := List.replicate 8 (0 : Byte)
  let c ← ld t.colors cp 4
  let temp ← st temp 0 c
  let x ← ld (t.indices.getD t.colors) xp 4
  let temp ← st temp 4 x
  let px ← Decode.bc1 temp 0
  if ← px.identical then
    let pixel ← px[0]?
    if pixel.a = 0 then
      let t ← t.stC cp (List.replicate 4 0xFF)
      t.stX xp (List.replicate 4 0xFF)
    else
      let color565 := pixel.to565Lossy
      if Color565.to8888Lossy color565 = pixel then
        match mode with
        | .none => Option.none  -- `unreachable_unchecked()`
        | .color0Only =>
          let t ← t.stC cp [lo color565]
          let t ← t.stC (cp + 1) [hi color565]
          let t ← t.stC (cp + 2) [0]
          let t ← t.stC (cp + 3) [0]
          let t ← t.stX xp [0]
          let t ← t.stX (xp + 1) [0]
          let t ← t.stX (xp + 2) [0]
          t.stX (xp + 3) [0]
        | .replicate =>
          let t ← t.stC cp [lo color565]
          let t ← t.stC (cp + 1) [hi color565]
          let t ← t.stC (cp + 2) [lo color565]
          let t ← t.stC (cp + 3) [hi color565]
          let t ← t.stX xp [0]
          let t ← t.stX (xp + 1) [0]
          let t ← t.stX (xp + 2) [0]
          t.stX (xp + 3) [0]
      else pure t
  else pure t

/-- `for block_idx in 0..num_blocks` -/
def splitLoop (mode : Mode) (cp xp : Nat) : Nat → Split → Option Split
  | 0, t => some t
  | n + 1, t => do
    let t ← splitLoop mode cp xp n t
    splitBody mode (cp + n * 4) (xp + n * 4) t

/-- `normalize_split_blocks_in_place`, bc1 normalize.rs:286-383. -/
def normalizeSplit (mode : Mode) (cp xp numBlocks : Nat) (t : Split) : Option Split :=
  if mode = .none then some t else splitLoop mode cp xp numBlocks t

end Bc1

/-! ## BC2 -/

namespace Bc2

/-- The analysis of one decoded block, bc2 normalize.rs:127-158.  `true` is
`BlockCase::SolidColorRoundtrippable`. -/
def classify (px : Pixels) : Option (Bool × U16) := do
  if ← px.identicalIgnoreAlpha then
    let pixel ← px[0]?
    let color565 := pixel.to565Lossy
    let c := Color565.to8888Lossy color565
    if (⟨c.r, c.g, c.b, 255⟩ : Color8888) = ⟨pixel.r, pixel.g, pixel.b, 255⟩ then pure (true, color565)
    else pure (false, color565)
  else pure (false, 0)

/-- `normalize_blocks_impl`, bc2 normalize.rs:114-163. -/
def impl {σ : Type} (region : σ → Option Buf) (len : Nat)
    (handle : Nat → Bool → U16 → σ → Option σ) (s : σ) : Option σ := do
  let (_, s) ← whileM (len + 1) (fun (sp, _) => sp < len) (fun (sp, s) => do
    let inp ← region s
    let px ← Decode.bc2 inp sp
    let (case, color) ← classify px
    let s ← handle sp case color s
    pure (sp + 16, s)) (0, s)
  pure s

/-- The eight bytes of a normalized colour block, written one by one at `dp`. -/
def writeColour (dst : Buf) (dp : Nat) (color : U16) (c1lo c1hi : Byte) : Option Buf := do
  let dst ← st8 dst dp (lo color)
  let dst ← st8 dst (dp + 1) (hi color)
  let dst ← st8 dst (dp + 2) c1lo
  let dst ← st8 dst (dp + 3) c1hi
  let dst ← st8 dst (dp + 4) 0
  let dst ← st8 dst (dp + 5) 0
  let dst ← st8 dst (dp + 6) 0
  st8 dst (dp + 7) 0

/-- `write_normalized_solid_color_block`, bc2 normalize.rs:285-332. -/
def writeSolid (src : Option Buf) (sp : Nat) (dst : Buf) (dp : Nat) (color : U16) (mode : Mode) :
    Option Buf :=
  match mode with
  | .none => copy64 src (sp + 8) dst (dp + 8)
  | .color0Only => writeColour dst (dp + 8) color 0 0
  | .replicate => writeColour dst (dp + 8) color (lo color) (hi color)

/-- The handler body for one output buffer, bc2 normalize.rs:67-86 and 222-255. -/
def writeBlock (src : Option Buf) (sp : Nat) (dst : Buf) (dp : Nat) (case : Bool) (color : U16)
    (mode : Mode) : Option Buf :=
  if case then do
    let dst ← copy64 src sp dst dp
    writeSolid src sp dst dp color mode
  else do
    let dst ← copy64 src sp dst dp
    copy64 src (sp + 8) dst (dp + 8)

/-- `normalize_blocks`, bc2 normalize.rs:35-92. -/
def normalizeBlocks (src : Option Buf) (out : Buf) (len : Nat) (mode : Mode) : Option Buf :=
  if mode = .none then copyAll src out len
  else do
    let (_, out) ← impl (fun (_, out) => some (src.getD out)) len (fun sp case color (dp, out) => do
      let out ← writeBlock src sp out dp case color mode
      pure (dp + 16, out)) (0, out)
    pure out

/-- `normalize_blocks_all_modes`, bc2 normalize.rs:193-259. -/
def allModes (i : Input) (outs : List Buf) (len : Nat) : Option (List Buf) := do
  let (_, outs) ← impl (fun (_, outs) => i.region outs) len (fun sp case color (dp, outs) => do
    let outs ← eachOutput i (fun x src dst => do
      let mode ← Mode.all[x]?
      writeBlock src sp dst dp case color mode) 3 outs
    pure (dp + 16, outs)) (0, outs)
  pure outs

/-- `normalize_split_blocks_in_place`, bc2 normalize.rs:382-476, for one block.  The three sections
are separate regions (simplification: they do not overlap in any use). -/
def splitBody (mode : Mode) (alpha : Buf) (ap : Nat) (colors : Buf) (cp : Nat) (indices : Buf) (xp : Nat) :
    Option (Buf × Buf) := do
  let temp := List.replicate 16 (0 : Byte)
  let a ← ld alpha ap 8
  let temp ← st temp 0 a
  let c ← ld colors cp 4
  let temp ← st temp 8 c
  let x ← ld indices xp 4
  let temp ← st temp 12 x
  let px ← Decode.bc2 temp 0
  let (case, color) ← classify px
  if case then
    match mode with
    | .none => pure (colors, indices)
    | .color0Only =>
      let colors ← st8 colors cp (lo color)
      let colors ← st8 colors (cp + 1) (hi color)
      let colors ← st8 colors (cp + 2) 0
      let colors ← st8 colors (cp + 3) 0
      let indices ← st8 indices xp 0
      let indices ← st8 indices (xp + 1) 0
      let indices ← st8 indices (xp + 2) 0
      let indices ← st8 indices (xp + 3) 0
      pure (colors, indices)
    | .replicate =>
      let colors ← st8 colors cp (lo color)
      let colors ← st8 colors (cp + 1) (hi color)
      let colors ← st8 colors (cp + 2) (lo color)
      let colors ← st8 colors (cp + 3) (hi color)
      let indices ← st8 indices xp 0
      let indices ← st8 indices (xp + 1) 0
      let indices ← st8 indices (xp + 2) 0
      let indices ← st8 indices (xp + 3) 0
      pure (colors, indices)
  else pure (colors, indices)

/-- `normalize_split_blocks_in_place`, bc2 normalize.rs:382-476: the colours and the indices. -/
def normalizeSplit (mode : Mode) (alpha : Buf) : Nat → Buf → Buf → Option (Buf × Buf)
  | 0, colors, indices => some (colors, indices)
  | n + 1, colors, indices =>
    if mode = .none then some (colors, indices)
    else do
      let (colors, indices) ← normalizeSplit mode alpha n colors indices
      splitBody mode alpha (n * 8) colors (n * 4) indices (n * 4)

end Bc2

/-! ## BC3 -/

namespace Bc3

/-- `enum AlphaNormalizationMode`, bc3 normalize.rs:117-136. -/
inductive AlphaMode where
  | none
  | uniformAlphaZeroIndices
  | opaqueFillAll
  | opaqueZeroAlphaMaxIndices
  deriving DecidableEq, Repr

/-- `AlphaNormalizationMode::all_values()`. -/
def AlphaMode.all : List AlphaMode :=
  [.none, .uniformAlphaZeroIndices, .opaqueFillAll, .opaqueZeroAlphaMaxIndices]

/-- The branch `UniformAlphaZeroIndices` of `normalize_alpha`, bc3 normalize.rs:188-195. -/
def writeUniform (dst : Buf) (dp : Nat) (alpha : Byte) : Option Buf := do
  let dst ← st8 dst dp alpha
  let dst ← st8 dst (dp + 1) 0
  fill dst (dp + 2) 0 6

/-- `normalize_alpha`, bc3 normalize.rs:176-229. -/
def normalizeAlpha (src : Option Buf) (sp : Nat) (dst : Buf) (dp : Nat) (alpha : Byte)
    (mode : AlphaMode) : Option Buf :=
  match mode with
  | .none => copy64 src sp dst dp
  | .uniformAlphaZeroIndices => writeUniform dst dp alpha
  | .opaqueFillAll => if alpha = 255 then fill dst dp 0xFF 8 else writeUniform dst dp alpha
  | .opaqueZeroAlphaMaxIndices =>
    if alpha = 255 then do
      let dst ← st8 dst dp 0
      let dst ← st8 dst (dp + 1) 0
      fill dst (dp + 2) 0xFF 6
    else writeUniform dst dp alpha

/-- `normalize_color`, bc3 normalize.rs:249-288. -/
def normalizeColor (color : U16) (dst : Buf) (dp : Nat) (mode : Mode) : Option Buf :=
  match mode with
  | .none => some dst
  | .color0Only => Bc2.writeColour dst (dp + 8) color 0 0
  | .replicate => Bc2.writeColour dst (dp + 8) color (lo color) (hi color)

/-- What `normalize_blocks_impl` finds out about a block. -/
structure Info where
  /-- `alpha_case == AlphaBlockCase::UniformAlpha` -/
  uniformAlpha : Bool
  /-- `color_case == ColorBlockCase::SolidColorRoundtrippable` -/
  solid : Bool
  /-- `color565` -/
  color : U16
  /-- `decoded_block.pixels[0].a` -/
  alpha : Byte

/-- The analysis of one decoded block, bc3 normalize.rs:345-385. -/
def classify (px : Pixels) : Option Info := do
  let uniform ← px.identicalAlpha
  let solidColor ← px.identicalIgnoreAlpha
  let pixel ← px[0]?
  let color565 := pixel.to565Lossy
  let c := Color565.to8888Lossy color565
  let solid := solidColor && decide ((⟨c.r, c.g, c.b, 255⟩ : Color8888) = ⟨pixel.r, pixel.g, pixel.b, 255⟩)
  pure ⟨uniform, solid, color565, pixel.a⟩

/-- `normalize_blocks_impl`, bc3 normalize.rs:330-390. -/
def impl {σ : Type} (region : σ → Option Buf) (len : Nat)
    (handle : Nat → Info → σ → Option σ) (s : σ) : Option σ := do
  let (_, s) ← whileM (len + 1) (fun (sp, _) => sp < len) (fun (sp, s) => do
    let inp ← region s
    let px ← Decode.bc3 inp sp
    let info ← classify px
    let s ← handle sp info s
    pure (sp + 16, s)) (0, s)
  pure s

/-- The handler body for one output buffer, bc3 normalize.rs:70-104 and 453-494. -/
def writeBlock (src : Option Buf) (sp : Nat) (dst : Buf) (dp : Nat) (i : Info) (am : AlphaMode)
    (cm : Mode) : Option Buf := do
  let dst ←
    if i.uniformAlpha then
      if am ≠ .none then normalizeAlpha src sp dst dp i.alpha am else copy64 src sp dst dp
    else copy64 src sp dst dp
  if i.solid then
    if cm ≠ .none then normalizeColor i.color dst dp cm else copy64 src (sp + 8) dst (dp + 8)
  else copy64 src (sp + 8) dst (dp + 8)

/-- `normalize_blocks`, bc3 normalize.rs:36-110. -/
def normalizeBlocks (src : Option Buf) (out : Buf) (len : Nat) (am : AlphaMode) (cm : Mode) :
    Option Buf :=
  if am = .none ∧ cm = .none then copyAll src out len
  else do
    let (_, out) ← impl (fun (_, out) => some (src.getD out)) len (fun sp info (dp, out) => do
      let out ← writeBlock src sp out dp info am cm
      pure (dp + 16, out)) (0, out)
    pure out

/-- `normalize_blocks_all_modes`, bc3 normalize.rs:419-502, in a release build.  The buffers of the two-dimensional array
`output_ptrs[a][c]` are listed row by row.  The documentation allows the input to be one of the outputs; a debug build panics then
(427-431). -/
def allModes (i : Input) (outs : List Buf) (len : Nat) : Option (List Buf) := do
  let (_, outs) ← impl (fun (_, outs) => i.region outs) len (fun sp info (dp, outs) => do
    let outs ← eachOutput i (fun x src dst => do
      let am ← AlphaMode.all[x / 3]?
      let cm ← Mode.all[x % 3]?
      writeBlock src sp dst dp info am cm) 12 outs
    pure (dp + 16, outs)) (0, outs)
  pure outs

/-- The four sections that `normalize_split_blocks_in_place` works on. -/
structure Sections where
  /-- `alpha_endpoints_ptr` -/
  ae : Buf
  /-- `alpha_indices_ptr` -/
  ai : Buf
  /-- `color_endpoints_ptr` -/
  ce : Buf
  /-- `color_indices_ptr` -/
  ci : Buf

/-- The branch `UniformAlphaZeroIndices` of `normalize_alpha_in_place`, bc3 normalize.rs:649-656. -/
def uniformInPlace (ae : Buf) (ep : Nat) (ai : Buf) (ip : Nat) (alpha : Byte) : Option (Buf × Buf) := do
  let ae ← st8 ae ep alpha
  let ae ← st8 ae (ep + 1) 0
  let ai ← fill ai ip 0 6
  pure (ae, ai)

/-- `normalize_alpha_in_place`, bc3 normalize.rs:642-692. -/
def alphaInPlace (mode : AlphaMode) (ae : Buf) (ep : Nat) (ai : Buf) (ip : Nat) (alpha : Byte) :
    Option (Buf × Buf) :=
  match mode with
  | .uniformAlphaZeroIndices => uniformInPlace ae ep ai ip alpha
  | .opaqueFillAll =>
    if alpha = 255 then do
      let ae ← fill ae ep 0xFF 2
      let ai ← fill ai ip 0xFF 6
      pure (ae, ai)
    else uniformInPlace ae ep ai ip alpha
  | .opaqueZeroAlphaMaxIndices =>
    if alpha = 255 then do
      let ae ← st8 ae ep 0
      let ae ← st8 ae (ep + 1) 0
      let ai ← fill ai ip 0xFF 6
      pure (ae, ai)
    else uniformInPlace ae ep ai ip alpha
  | .none => some (ae, ai)

/-- The colour part of the loop body, bc3 normalize.rs:600-636. -/
def colourInPlace (mode : Mode) (ce : Buf) (cp : Nat) (ci : Buf) (xp : Nat) (color : U16) :
    Option (Buf × Buf) :=
  match mode with
  | .none => some (ce, ci)
  | .color0Only => do
    let ce ← st8 ce cp (lo color)
    let ce ← st8 ce (cp + 1) (hi color)
    let ce ← st8 ce (cp + 2) 0
    let ce ← st8 ce (cp + 3) 0
    let ci ← st8 ci xp 0
    let ci ← st8 ci (xp + 1) 0
    let ci ← st8 ci (xp + 2) 0
    let ci ← st8 ci (xp + 3) 0
    pure (ce, ci)
  | .replicate => do
    let ce ← st8 ce cp (lo color)
    let ce ← st8 ce (cp + 1) (hi color)
    let ce ← st8 ce (cp + 2) (lo color)
    let ce ← st8 ce (cp + 3) (hi color)
    let ci ← st8 ci xp 0
    let ci ← st8 ci (xp + 1) 0
    let ci ← st8 ci (xp + 2) 0
    let ci ← st8 ci (xp + 3) 0
    pure (ce, ci)

/-- One iteration of `normalize_split_blocks_in_place`, bc3 normalize.rs:554-639. -/
def splitBody (am : AlphaMode) (cm : Mode) (i : Nat) (t : Sections) : Option Sections := do
  let temp := List.replicate 16 (0 : Byte)
  let ae ← ld t.ae (i * 2) 2
  let temp ← st temp 0 ae
  let ai ← ld t.ai (i * 6) 6
  let temp ← st temp 2 ai
  let ce ← ld t.ce (i * 4) 4
  let temp ← st temp 8 ce
  let ci ← ld t.ci (i * 4) 4
  let temp ← st temp 12 ci
  let px ← Decode.bc3 temp 0
  let first ← px[0]?
  let t ←
    if am ≠ .none ∧ (← px.identicalAlpha) then do
      let (ae, ai) ← alphaInPlace am t.ae (i * 2) t.ai (i * 6) first.a
      pure { t with ae := ae, ai := ai }
    else pure t
  if cm ≠ .none ∧ (← px.identicalIgnoreAlpha) then
    let p : Color8888 := ⟨first.r, first.g, first.b, 255⟩
    let color565 := p.to565Lossy
    if Color565.to8888Lossy color565 = p then
      let (ce, ci) ← colourInPlace cm t.ce (i * 4) t.ci (i * 4) color565
      pure { t with ce := ce, ci := ci }
    else pure t
  else pure t

/-- `normalize_split_blocks_in_place`, bc3 normalize.rs:539-693.  The four sections are separate
regions (simplification: they do not overlap in any use). -/
def normalizeSplit (am : AlphaMode) (cm : Mode) : Nat → Sections → Option Sections
  | 0, t => some t
  | n + 1, t =>
    if am = .none ∧ cm = .none then some t
    else do
      let t ← normalizeSplit am cm n t
      splitBody am cm n t

end Bc3
end Dlt.Norm
