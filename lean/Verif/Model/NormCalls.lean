import Verif.Model.Normalize
/-!
# Block normalization in debug builds

The functions of `experimental/normalize_blocks/normalize.rs` of the three formats with their `debug_assert!`s.  Buffers are at addresses
here, so that the assertions about overlaps can be evaluated; `none` is a panic.  The work itself is that of `Model/Normalize`, where a
source `none` is the output buffer itself.  No buffer goes beyond the end of the address space, so `add(len)` is exact.
(`normalize_split_blocks_in_place` has no assertions.)
-/

namespace Dlt.Norm

/-- The condition of the assertions on two buffers: bc1 normalize.rs:45-50 and 426-433, bc2 43-48 and 200-207, bc3 44-49. -/
def assertApart (inAddr outAddr len : Nat) : Bool :=
  inAddr == outAddr || decide (inAddr + len ≤ outAddr) || decide (outAddr + len ≤ inAddr)

namespace Bc1

/-- `normalize_blocks`, bc1 normalize.rs:38-96; the assertion on the length is in `normalize_blocks_impl`, line 123. -/
def normalizeBlocksDebug (inAddr outAddr : Nat) (src : Option Buf) (out : Buf) (len : Nat) (mode : Mode) : Option Buf :=
  if assertApart inAddr outAddr len then
    if mode = .none then copyAll src out len
    else if len % 8 = 0 then normalizeBlocks src out len mode
    else none
  else none

/-- `normalize_blocks_all_modes`, bc1 normalize.rs:417-480; assertions in lines 422-433.  (The type fixes the number of pointers.) -/
def allModesDebug (inAddr : Nat) (outAddrs : List Nat) (i : Input) (outs : List Buf) (len : Nat) : Option (List Buf × Bool) :=
  if len % 8 = 0 then
    if outAddrs.length = 3 then
      if outAddrs.all fun o => assertApart inAddr o len then allModes i outs len
      else none
    else none
  else none

end Bc1

namespace Bc2

/-- `normalize_blocks`, bc2 normalize.rs:35-92; assertions in lines 41-48. -/
def normalizeBlocksDebug (inAddr outAddr : Nat) (src : Option Buf) (out : Buf) (len : Nat) (mode : Mode) : Option Buf :=
  if len % 16 = 0 then
    if assertApart inAddr outAddr len then normalizeBlocks src out len mode
    else none
  else none

/-- `normalize_blocks_all_modes`, bc2 normalize.rs:193-259; assertions in lines 198-209. -/
def allModesDebug (inAddr : Nat) (outAddrs : List Nat) (i : Input) (outs : List Buf) (len : Nat) : Option (List Buf) :=
  if len % 16 = 0 then
    if outAddrs.length = 3 then
      if outAddrs.all fun o => assertApart inAddr o len then allModes i outs len
      else none
    else none
  else none

end Bc2

namespace Bc3

/-- `normalize_blocks`, bc3 normalize.rs:36-110; assertions in lines 43-49. -/
def normalizeBlocksDebug (inAddr outAddr : Nat) (src : Option Buf) (out : Buf) (len : Nat) (am : AlphaMode) (cm : Mode) : Option Buf :=
  if len % 16 = 0 then
    if assertApart inAddr outAddr len then normalizeBlocks src out len am cm
    else none
  else none

/-- `normalize_blocks_all_modes`, bc3 normalize.rs:419-502; assertions in lines 425-431.  The second one has no case for equal
pointers. -/
def allModesDebug (inAddr : Nat) (outAddrs : List Nat) (i : Input) (outs : List Buf) (len : Nat) : Option (List Buf) :=
  if len % 16 = 0 then
    if outAddrs.all fun o => decide (inAddr + len ≤ o) || decide (o + len ≤ inAddr) then allModes i outs len
    else none
  else none

end Bc3
end Dlt.Norm
