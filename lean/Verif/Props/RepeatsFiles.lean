import Verif.Props.Repeats
import Verif.Props.VariantFiles
/-!
# C120 for files: the colours of a transformed DDS file repeat where those of the file did
-/

namespace Dlt.Props
open Dlt.FileFormats Dlt.Dds Dlt.Embed

variable {σ E : Type}

/-- **C120** (DDS files), whatever the caller chose: settings, or estimators that find some. -/
theorem C120_dds (p : Platform) (hu : 2 ^ 32 - 1 ≤ p.env.usizeMax) (dbg : E → String) (b : Bundle σ E) (input output a : Buf) (st st' : σ)
    (h : transformBundle p dbg b input output st = some (a, st', .ok ())) :
    ∃ split n,
      (classify input = .bc1 ∧ reportedSize input = n * 8 ∧
        RepeatsKept split 8 0 n (slice input (headerSize input) (reportedSize input)) (slice a (headerSize input) (reportedSize input))) ∨
      (classify input = .bc2 ∧ reportedSize input = n * 16 ∧
        RepeatsKept split 16 8 n (slice input (headerSize input) (reportedSize input)) (slice a (headerSize input) (reportedSize input))) := by
  obtain ⟨info, f, tex, w, hp, hi, ha, hio, hf, hd, hd1, heq, ho⟩ := transform_ok hu h
  have hrep : info = reported input := by
    have := hp
    rw [parseDds_spec] at this
    split at this
    · split at this
      · simp at this
      · simpa using this.symm
    · simp at this
  subst hrep
  have hle := parse_offset_le (parseDds_some hp).1
  rw [reported_offset, reported_length] at hi ha hd heq ho
  rw [reported_length] at hd1
  rw [reported_offset] at hle
  have x := assemble_tex (magic := to32 .little w.word) (input := input) (tex := tex)
    (rest := if headerSize input + reportedSize input < input.length then input.drop (headerSize input + reportedSize input)
      else output.drop (headerSize input + reportedSize input)) (off := headerSize input) (to32_length _ _) (by omega) (by omega)
  rw [← ho, hd1] at x
  rw [x]
  have hfm : (reported input).format = classify input := rfl
  rw [hfm] at hf
  have l1 : (slice input (headerSize input) (reportedSize input)).length = reportedSize input := slice_length_of_le (by omega)
  have l2 : (slice output (headerSize input) (reportedSize input)).length = reportedSize input := slice_length_of_le (by omega)
  obtain ⟨o, s', r, e, _, _, k⟩ := dispatchTransform_spec p.env p.m dbg b f (slice input (headerSize input) (reportedSize input))
    (slice output (headerSize input) (reportedSize input)) st
  rw [hd] at e
  simp only [Option.some.injEq, Prod.mk.injEq] at e
  obtain ⟨rfl, rfl, rfl⟩ := e
  obtain ⟨_, s, ⟨rfl, _, _, h8, e⟩ | ⟨rfl, _, _, h8, e⟩⟩ := k w rfl
  · obtain ⟨o', e', h'⟩ := C120_bc1 p.m (reportedSize input / 8) (slice input (headerSize input) (reportedSize input))
      (slice output (headerSize input) (reportedSize input)) s (by omega) (by omega)
    obtain rfl := Option.some.inj (e'.symm.trans e)
    refine ⟨s.split, _, .inl ⟨?_, by omega, h'⟩⟩
    revert hf
    cases classify input <;> simp [toTransformFormat]
  · obtain ⟨o', e', h'⟩ := C120_bc2 p.m (reportedSize input / 16) (slice input (headerSize input) (reportedSize input))
      (slice output (headerSize input) (reportedSize input)) s (by omega) (by omega)
    obtain rfl := Option.some.inj (e'.symm.trans e)
    refine ⟨s.split, _, .inr ⟨?_, by omega, h'⟩⟩
    revert hf
    cases classify input <;> simp [toTransformFormat]

/-- A 4 x 8 BC1 texture (`chainData`) and one more byte. -/
def chainFile : Buf := ddsHeader 0x1007#32 4#32 8#32 1#32 4#32 "DXT1" [] ++ chainData ++ [99]

/-- Its three colours, one of them twice, in the file and in the transformed one. -/
example :
    reportedSize chainFile = 16 ∧ headerSize chainFile = 128 ∧ classify chainFile = .bc1 ∧
    (endsOf 2).map (colourIn 8 0 (slice chainFile 128 16)) = [[0xA3, 0x51], [0x87, 0x72], [0x00, 0xF8], [0xA3, 0x51]] ∧
    (transformBundle somePlatform (fun _ : Unit => "") (choose .v1) chainFile (List.replicate 145 7) ()).map
      (fun (o, _, r) => (r.toOption, (endsOf 2).map (colourAfter 0 false 2 (slice o 128 16)))) =
      some (some (), [[0xE0, 0x31], [0xC0, 0x51], [0xD1, 0xBF], [0xE0, 0x31]]) := by decide +kernel

end Dlt.Props
