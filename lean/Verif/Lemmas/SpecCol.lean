import Verif.Lemmas.Bc1
import Verif.Props.Color
/-! Little-endian colours as specified. -/

namespace Dlt
open Spec

theorem decorrelate_lt (v : Variant) (c : U16) : Spec.decorrelate v c.toNat < 65536 := by
  rw [← Props.C09_ycocg_meaning]; exact (Color565.decorr v c).isLt

theorem encCol_little (v : Variant) (bs : Buf) (h : bs.length = 2) :
    encCol .little v bs = Spec.colour v bs := by
  match bs, h with
  | [lo, hi], _ =>
    have h1 : lo.toNat + 256 * hi.toNat = (of16 .little [lo, hi]).toNat := by
      rw [of16_little_toNat]; omega
    simp only [Spec.colour, h1, encCol, to16]
    rw [← Props.C09_ycocg_meaning]
    generalize Color565.decorr v (of16 .little [lo, hi]) = w
    have hw := w.isLt
    congr 1
    · apply BitVec.eq_of_toNat_eq
      simp [BitVec.extractLsb'_toNat]
    · congr 1
      apply BitVec.eq_of_toNat_eq
      simp [BitVec.extractLsb'_toNat, Nat.shiftRight_eq_div_pow]

end Dlt
