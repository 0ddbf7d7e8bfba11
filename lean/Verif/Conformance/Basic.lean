import Verif.Model.Mem
/-!
# What the replayed unit tests share

The modules in this directory run unit tests of the repository in the model, by evaluation in the kernel.  What a test asserts about
the Rust code must hold in the model too; the examples are evidence that the model describes the code.  They are tests and none of the
claims rests on them.
-/

namespace Dlt.Conformance

deriving instance DecidableEq for Except

/-- `Result::is_err` of a call that returns. -/
def isErr {ε α : Type} : Option (Except ε α) → Bool
  | some (.error _) => true
  | _ => false

/-- `Result::is_ok` of a call that returns. -/
def isOk {ε α : Type} : Option (Except ε α) → Bool
  | some (.ok _) => true
  | _ => false

/-- Bytes given as numbers. -/
def bytes (l : List Nat) : Buf := l.map (BitVec.ofNat 8)

end Dlt.Conformance
