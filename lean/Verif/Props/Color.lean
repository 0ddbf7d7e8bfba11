import Verif.Spec
import Verif.Lemmas.Color565
/-!
# Colour decorrelation: C08, C09
-/

namespace Dlt.Props
open Color565

/-- **C08.** Recorrelation undoes decorrelation and decorrelation undoes recorrelation, for every
variant and every colour. -/
theorem C08_decorrelation_bijective (v : Variant) (c : U16) :
    recorr v (decorr v c) = c ∧ decorr v (recorr v c) = c :=
  ⟨recorr_decorr v c, decorr_recorr v c⟩

/-- The variants really change colours: no theorem above is about the identity. -/
example : decorr .v1 0xABCD#16 ≠ 0xABCD#16 ∧ decorr .v1 0xABCD#16 ≠ decorr .v2 0xABCD#16 ∧
    decorr .v2 0xABCD#16 ≠ decorr .v3 0xABCD#16 := by decide

/-- **C09.** The decorrelated word holds `Y`, `Co`, `Cg` and the low green bit at the documented bit
positions (`Spec.decorrelate`). -/
theorem C09_ycocg_meaning (v : Variant) (c : U16) :
    (decorr v c).toNat = Spec.decorrelate v c.toNat := by
  have hc := c.isLt
  have e1 : c.toNat / 2048 % 32 = c.toNat / 2048 := by omega
  have hr : c.toNat / 2048 < 32 := by omega
  have hg : c.toNat / 64 % 32 < 32 := by omega
  have hb : c.toNat % 32 < 32 := by omega
  have key : ∀ r g b : Nat, r < 32 → g < 32 → b < 32 →
      (Spec.co r b).toNat = coN r b ∧ (Spec.cg r g b).toNat = cgN r g b ∧
      (Spec.yy r g b).toNat = yN r g b := by
    intro r g b hr hg hb
    have h1 : Spec.co r b = (coN r b : Int) := by simp only [Spec.co, coN]; omega
    have h2 : Spec.tt r b = (tN r b : Int) := by simp only [Spec.tt, tN, h1]; omega
    have ht : tN r b < 32 := by unfold tN; omega
    have h3 : Spec.cg r g b = (cgN r g b : Int) := by simp only [Spec.cg, cgN, h2]; omega
    have h4 : Spec.yy r g b = (yN r g b : Int) := by simp only [Spec.yy, yN, h2, h3]; omega
    rw [h1, h3, h4]; simp
  obtain ⟨k1, k2, k3⟩ := key _ _ _ hr hg hb
  cases v
  · simp only [decorr, Spec.decorrelate, Spec.red5, Spec.green5, Spec.blue5, Spec.greenLow,
      Nat.reducePow, e1, k1, k2, k3, decorr1_toNat]
  · simp only [decorr, Spec.decorrelate, Spec.red5, Spec.green5, Spec.blue5, Spec.greenLow,
      Nat.reducePow, e1, k1, k2, k3, decorr2_toNat]
  · simp only [decorr, Spec.decorrelate, Spec.red5, Spec.green5, Spec.blue5, Spec.greenLow,
      Nat.reducePow, e1, k1, k2, k3, decorr3_toNat]
  · rfl

/-- Pure blue (R=0, G=0, B=31): `Co = 1`, `t = 31`, `Cg = 1`, `Y = 31`. -/
example : Spec.decorrelate .v1 31 = 31 * 2048 + 1 * 64 + 1 := by decide

end Dlt.Props
