import Verif.Props.Brightness
import Verif.Props.StoredFiles
/-!
# C104 and C118 for files: greys and brightness in a transformed DDS file
-/

namespace Dlt.Props
open Dlt.FileFormats Dlt.Dds Dlt.Embed Spec

variable {σ E : Type}

/-- **C104** and **C118** (DDS files): in a transformed file the colours are those of C104 and C118, with the settings that its tag names,
unless these are without decorrelation. Any bundle, also with estimators; little-endian CPUs, addresses of at least 32 bits. -/
theorem C104_C118_dds (p : Platform) (hu : 2 ^ 32 - 1 ≤ p.env.usizeMax) (hm : p.m.endian = .little) (dbg : E → String) (b : Bundle σ E)
    (input output a : Buf) (st st' : σ) (h : transformBundle p dbg b input output st = some (a, st', .ok ())) :
    ∃ s : ColourSettings,
      (classify input = .bc1 ∧ a.take 4 = to32 .little (Embed.bc1.toHeader s).word ∧ (s.decorr ≠ .none →
        GreyKept s.decorr s.split 8 0 (reportedSize input / 8) (textureIn input input) (textureIn input a) ∧
        BrightnessKept s.decorr s.split 8 0 (reportedSize input / 8) (textureIn input input) (textureIn input a))) ∨
      (classify input = .bc2 ∧ a.take 4 = to32 .little (Embed.bc2.toHeader s).word ∧ (s.decorr ≠ .none →
        GreyKept s.decorr s.split 16 8 (reportedSize input / 16) (textureIn input input) (textureIn input a) ∧
        BrightnessKept s.decorr s.split 16 8 (reportedSize input / 16) (textureIn input input) (textureIn input a))) := by
  obtain ⟨l, o, s, lo, ⟨c, h8, t, e⟩ | ⟨c, h8, t, e⟩⟩ := any_texture hu h
  · refine ⟨s, .inl ⟨c, t, fun hv => ?_⟩⟩
    obtain ⟨u, k, g⟩ := C104_bc1 p.m hm s hv (reportedSize input / 8) (textureIn input input) o (by rw [l]; omega) (by omega)
    obtain ⟨v, k', g'⟩ := C118_bc1 p.m hm s hv (reportedSize input / 8) (textureIn input input) o (by rw [l]; omega) (by omega)
    obtain rfl := Option.some.inj (k.symm.trans e)
    obtain rfl := Option.some.inj (k'.symm.trans e)
    exact ⟨g, g'⟩
  · refine ⟨s, .inr ⟨c, t, fun hv => ?_⟩⟩
    obtain ⟨u, k, g⟩ := C104_bc2 p.m hm s hv (reportedSize input / 16) (textureIn input input) o (by rw [l]; omega) (by omega)
    obtain ⟨v, k', g'⟩ := C118_bc2 p.m hm s hv (reportedSize input / 16) (textureIn input input) o (by rw [l]; omega) (by omega)
    obtain rfl := Option.some.inj (k.symm.trans e)
    obtain rfl := Option.some.inj (k'.symm.trans e)
    exact ⟨g, g'⟩

/-- `mossFile` with the greys 10 and 20. -/
def greyFile : Buf := mossFile.take 128 ++ [0x8A, 0x52, 0x14, 0xA5, 1, 2, 3, 4, 99]

/-- A case: two greys, stored as their luma. -/
example :
    Grey (num16 (textureIn greyFile greyFile) 0) ∧ Grey (num16 (textureIn greyFile greyFile) 2) ∧
    (transformBundle somePlatform (fun _ : Unit => "") (choose .v2) greyFile (List.replicate 137 7) ()).map (fun (o, _, r) =>
      (r.toOption, luma .v2 (num16 (textureIn greyFile o) 0), luma .v2 (num16 (textureIn greyFile o) 2))) = some (some (), 10, 20) := by
  refine ⟨?_, ?_, by decide +kernel⟩ <;> (unfold Grey; decide +kernel)

end Dlt.Props
