import Verif.Model.Mem
/-!
# BC7 bit helpers

Models `/repo/src/core/dxt-lossless-transform-bc7/src/util/{msb_extract_bits,msb_insert_bits}.rs`,
the only code of the BC7 crate (`lib.rs` re-exports nothing else).

`none` is the panic of a failed `debug_assert!`.  (Release builds compile the assertions out; the
range arguments then lead to wrapping subtractions, which is outside the contract of the functions
and not modelled.)
-/

namespace Dlt.Bc7

/-- `extract_msb_bits`, msb_extract_bits.rs:19-33.  `1u32 << num_bits` cannot overflow since
`num_bits ≤ 8`. -/
def extractMsbBits (byte : Byte) (start stop : Nat) : Option Byte :=
  if start ≤ stop ∧ stop ≤ 7 then
    let numBits := stop - start + 1
    let mask : U32 := (1#32 <<< numBits) - 1#32
    let shift := 7 - stop
    some ((byte >>> shift) &&& mask.setWidth 8)
  else none

/-- `insert_msb_bits`, msb_insert_bits.rs:20-39. -/
def insertMsbBits (byte value : Byte) (start stop : Nat) : Option Byte :=
  if start ≤ stop ∧ stop ≤ 7 then
    let numBits := stop - start + 1
    let mask : U32 := ((1#32 <<< numBits) - 1#32) <<< (7 - stop)
    let cleared := byte &&& ~~~(mask.setWidth 8)
    let shift := 7 - stop
    let positioned := (value <<< shift) &&& mask.setWidth 8
    some (cleared ||| positioned)
  else none

end Dlt.Bc7
