import Verif.Model.Isa
import Verif.Props.Bc1
import Verif.Props.Bc2
import Verif.Props.Bc3
import Verif.Lemmas.SplitEndpoints
/-!
# C102: no kernel runs on a CPU without its instructions

The dispatchers choose a kernel by asking the CPU.  Here the CPU is a set of extensions that obeys the
implications of the instruction set reference, and a kernel fails on a CPU that lacks an extension it needs.
-/

namespace Dlt
open Spec

/-- The implications every x86 CPU obeys: AVX512VBMI comes with AVX512BW, that with AVX512F, that with AVX2,
that with SSE2; nothing implies AVX512VL. -/
structure Sane (cpu : Ext → Bool) : Prop where
  vbmi : cpu .avx512vbmi = true → cpu .avx512bw = true
  bw : cpu .avx512bw = true → cpu .avx512f = true
  f : cpu .avx512f = true → cpu .avx2 = true
  avx2 : cpu .avx2 = true → cpu .sse2 = true

/-- The answers the program goes by claim nothing the CPU lacks: detection at run time (`detect`) or the target
features the program was compiled for.  A 64-bit program runs on CPUs with SSE2. -/
structure Honest (cpu : Ext → Bool) (f : Features) : Prop where
  x64 : f.x64 = true → cpu .sse2 = true
  sse2 : f.sse2 = true → cpu .sse2 = true
  avx2 : f.avx2 = true → cpu .avx2 = true
  avx512f : f.avx512f = true → cpu .avx512f = true
  avx512bw : f.avx512bw = true → cpu .avx512bw = true
  avx512vbmi : f.avx512vbmi = true → cpu .avx512vbmi = true

/-- Detection at run time is honest. -/
theorem detect_honest (cpu : Ext → Bool) (x64 : Bool) (undef : Nat → Byte) (h : x64 = true → cpu .sse2 = true) :
    Honest cpu (detect cpu x64 undef) where
  x64 := h
  sse2 := by
    intro hs
    rcases Bool.or_eq_true _ _ |>.mp hs with h1 | h1
    · exact h h1
    · exact h1
  avx2 := id
  avx512f := id
  avx512bw := id
  avx512vbmi := id

/-- A kernel whose extensions are there runs. -/
theorem on_eq {cpu : Ext → Bool} {needs : List Ext} {k : Option Buf} (h : ∀ e ∈ needs, cpu e = true) :
    on cpu needs k = k := if_pos (List.all_eq_true.mpr h)

/-- A kernel in the branch where its extensions are there. -/
theorem ite_on {cpu : Ext → Bool} {needs : List Ext} {b : Bool} (h : b = true → ∀ e ∈ needs, cpu e = true)
    (k r : Option Buf) : (if b = true then on cpu needs k else r) = if b = true then k else r := by
  by_cases hb : b = true
  · rw [if_pos hb, if_pos hb, on_eq (h hb)]
  · rw [if_neg hb, if_neg hb]

/-- The same with two kernels, by the width of the machine. -/
theorem ite_on2 {cpu : Ext → Bool} {needs : List Ext} {b x : Bool} (h : b = true → ∀ e ∈ needs, cpu e = true)
    (k l r : Option Buf) :
    (if b = true then (if x = true then on cpu needs k else on cpu needs l) else r) =
      if b = true then (if x = true then k else l) else r := by
  by_cases hb : b = true
  · rw [if_pos hb, if_pos hb, on_eq (h hb), on_eq (h hb)]
  · rw [if_neg hb, if_neg hb]

section
variable {cpu : Ext → Bool} {f : Features} (hs : Sane cpu) (hf : Honest cpu f)
include hs hf

theorem has_sse2 (h : f.sse2 = true) : ∀ e ∈ [Ext.sse2], cpu e = true := by simpa using hf.sse2 h
theorem has_avx2 (h : f.avx2 = true) : ∀ e ∈ [Ext.avx2], cpu e = true := by simpa using hf.avx2 h
theorem has_f (h : f.avx512f = true) : ∀ e ∈ [Ext.avx512f], cpu e = true := by simpa using hf.avx512f h
theorem has_bw (h : f.avx512bw = true) : ∀ e ∈ [Ext.avx512bw, .avx512f], cpu e = true := by
  simpa using ⟨hf.avx512bw h, hs.bw (hf.avx512bw h)⟩
theorem has_vbmi (h : f.avx512vbmi = true) : ∀ e ∈ [Ext.avx512vbmi, .avx512f], cpu e = true := by
  simpa using ⟨hf.avx512vbmi h, hs.bw (hs.vbmi (hf.avx512vbmi h))⟩
theorem has_vbmi_bw (h : f.avx512vbmi = true) : ∀ e ∈ [Ext.avx512vbmi, .avx512bw, .avx512f], cpu e = true := by
  simpa using ⟨hf.avx512vbmi h, hs.vbmi (hf.avx512vbmi h), hs.bw (hs.vbmi (hf.avx512vbmi h))⟩
theorem has_vbmi_avx2 (h : f.avx512vbmi = true) : ∀ e ∈ [Ext.avx512vbmi, .avx512f, .avx2], cpu e = true := by
  simpa using ⟨hf.avx512vbmi h, hs.bw (hs.vbmi (hf.avx512vbmi h)), hs.f (hs.bw (hs.vbmi (hf.avx512vbmi h)))⟩
theorem has_x64 (h : f.x64 = true) : ∀ e ∈ [Ext.sse2], cpu e = true := by simpa using hf.x64 h

/-- Closes the equality of a dispatcher with needs and one without. -/
local macro "dispatch" : tactic => `(tactic|
  simp only [↓ite_on2 (has_sse2 hs hf), ↓ite_on2 (has_vbmi hs hf), ↓ite_on2 (has_vbmi_bw hs hf),
    ite_on (has_sse2 hs hf), ite_on (has_avx2 hs hf), ite_on (has_f hs hf), ite_on (has_bw hs hf),
    ite_on (has_vbmi hs hf), ite_on (has_vbmi_bw hs hf), ite_on (has_vbmi_avx2 hs hf), ite_on (has_x64 hs hf)])

theorem Bc1.transformOn_eq (inp out : Buf) (len : Nat) (s : ColourSettings) :
    Bc1.transformWithSettingsOn cpu f inp out len s = Bc1.transformWithSettings (.x86 f) inp out len s := by
  unfold Bc1.transformWithSettingsOn Bc1.transformWithSettings
  unfold Bc1.transformWithSplitColourOn Bc1.transformWithSplitColourAndRecorrOn Bc1.stdTransformOn
    Bc1.transformWithDecorrelateOn Bc1.transformWithSplitColour Bc1.transformWithSplitColourAndRecorr
    Bc1.stdTransform Bc1.transformWithDecorrelate
  dispatch

theorem Bc1.untransformOn_eq (inp out : Buf) (len : Nat) (s : ColourSettings) :
    Bc1.untransformWithSettingsOn cpu f inp out len s = Bc1.untransformWithSettings (.x86 f) inp out len s := by
  unfold Bc1.untransformWithSettingsOn Bc1.untransformWithSettings
  unfold Bc1.untransformWithSplitColourOn Bc1.untransformWithSplitColourAndRecorrOn Bc1.stdUntransformOn
    Bc1.untransformWithRecorrelateOn Bc1.untransformWithSplitColour Bc1.untransformWithSplitColourAndRecorr
    Bc1.stdUntransform Bc1.untransformWithRecorrelate
  dispatch

theorem Bc2.untransformOn_eq (inp out : Buf) (len : Nat) (s : ColourSettings) :
    Bc2.untransformWithSettingsOn cpu f inp out len s = Bc2.untransformWithSettings (.x86 f) inp out len s := by
  unfold Bc2.untransformWithSettingsOn Bc2.untransformWithSettings
  unfold Bc2.untransformWithSplitColourOn Bc2.untransformWithSplitColourAndRecorrOn Bc2.stdUntransformOn
    Bc2.untransformWithRecorrelateOn Bc2.untransformWithSplitColour Bc2.untransformWithSplitColourAndRecorr
    Bc2.stdUntransform Bc2.untransformWithRecorrelate
  dispatch

theorem Bc3.transformOn_eq (inp out : Buf) (len : Nat) (s : Bc3.Settings) :
    Bc3.transformWithSettingsOn cpu f inp out len s = Bc3.transformWithSettings (.x86 f) inp out len s := by
  unfold Bc3.transformWithSettingsOn Bc3.transformWithSettings
  unfold Bc3.stdTransformOn Bc3.transformWithDecorrelateOn Bc3.transformWithSplitAlphasOn Bc3.stdTransform
    Bc3.transformWithDecorrelate Bc3.transformWithSplitAlphas
  dispatch
  rfl

theorem Bc3.untransformOn_eq (inp out : Buf) (len : Nat) (s : Bc3.Settings) :
    Bc3.untransformWithSettingsOn cpu f inp out len s = Bc3.untransformWithSettings (.x86 f) inp out len s := by
  unfold Bc3.untransformWithSettingsOn Bc3.untransformWithSettings
  unfold Bc3.stdUntransformOn Bc3.untransformWithRecorrelateOn Bc3.untransformWithSplitAlphasOn
    Bc3.stdUntransform Bc3.untransformWithRecorrelate Bc3.untransformWithSplitAlphas
  dispatch
  rfl

theorem Split.splitOn_eq (inp out : Buf) (len : Nat) :
    Split.splitColorEndpointsOn cpu f inp out len = Split.splitColorEndpoints (.x86 f) inp out len := by
  unfold Split.splitColorEndpointsOn Split.splitColorEndpoints
  dispatch

/-- The BC2 transforms on a CPU, whatever it has: with a claim of AVX512BW and without AVX512VL the three that load
their tables with `_mm_loadu_epi8` fail, the rest does what the dispatcher without needs does. -/
theorem Bc2.transformOn_eq (inp out : Buf) (len : Nat) (s : ColourSettings) :
    Bc2.transformWithSettingsOn cpu f inp out len s =
      if f.avx512bw = true ∧ cpu .avx512vl = false ∧ (s.split = true ∨ s.decorr ≠ .none) then none
      else Bc2.transformWithSettings (.x86 f) inp out len s := by
  have hvl : ∀ k r : Option Buf,
      (if f.avx512bw = true then on cpu [.avx512vl, .avx512bw, .avx512f] k else r) =
        if f.avx512bw = true ∧ cpu .avx512vl = false then none else if f.avx512bw = true then k else r := by
    intro k r
    by_cases hb : f.avx512bw = true
    · rw [if_pos hb, if_pos hb]
      cases hv : cpu .avx512vl
      · rw [if_pos ⟨hb, rfl⟩]
        exact if_neg (by simp [hv])
      · rw [if_neg (by simp), on_eq (by simpa using ⟨hv, hf.avx512bw hb, hs.bw (hf.avx512bw hb)⟩)]
    · rw [if_neg hb, if_neg hb, if_neg (fun h => hb h.1)]
  unfold Bc2.transformWithSettingsOn Bc2.transformWithSettings
  unfold Bc2.transformWithSplitColourOn Bc2.transformWithSplitColourAndRecorrOn Bc2.stdTransformOn
    Bc2.transformWithDecorrelateOn Bc2.transformWithSplitColour Bc2.transformWithSplitColourAndRecorr
    Bc2.stdTransform Bc2.transformWithDecorrelate
  simp only [hvl]
  dispatch
  by_cases h1 : s.split = true
  · simp only [h1, if_true, true_or, and_true]
    by_cases h2 : s.decorr = .none
    · simp only [h2, if_true]
    · simp only [h2, if_false]
  · by_cases h2 : s.decorr = .none
    · simp only [h1, h2, if_true, if_false, ne_eq, not_true_eq_false, or_self, and_false, Bool.false_eq_true]
    · simp only [h1, h2, if_false, ne_eq, not_false_eq_true, or_true, and_true, Bool.false_eq_true]

end

namespace Props

/-- **C102** (BC1).  On any x86 CPU, going by answers that claim nothing the CPU lacks, a transform runs to the end
and writes the documented layout, and on any other such CPU the untransform gives the texture back. -/
theorem C102_bc1 {cpu cpu' : Ext → Bool} {f f' : Features} (hs : Sane cpu) (hf : Honest cpu f)
    (hs' : Sane cpu') (hf' : Honest cpu' f') (s : ColourSettings) (data out out' : Buf)
    (h8 : data.length % 8 = 0) (ho : data.length ≤ out.length) (ho' : data.length ≤ out'.length) :
    ∃ t r, Bc1.transformWithSettingsOn cpu f data out data.length s = some t ∧
      t = columns 8 (bc1Fields (colour s.decorr) s.split) data ++ out.drop data.length ∧
      Bc1.untransformWithSettingsOn cpu' f' (t.take data.length) out' data.length s = some r ∧
      r.take data.length = data := by
  obtain ⟨t, r, h1, h2, h3⟩ := C01_bc1_lossless (.x86 f) (.x86 f') rfl s data out out' h8 ho ho'
  have h4 := C05_bc1_layout (.x86 f) rfl s data out h8 ho
  refine ⟨t, r, ?_, ?_, ?_, h3⟩
  · rw [Bc1.transformOn_eq hs hf, h1]
  · exact Option.some.inj (h1.symm.trans h4)
  · rw [Bc1.untransformOn_eq hs' hf', h2]

/-- **C102** (BC3). -/
theorem C102_bc3 {cpu cpu' : Ext → Bool} {f f' : Features} (hs : Sane cpu) (hf : Honest cpu f)
    (hs' : Sane cpu') (hf' : Honest cpu' f') (s : Bc3.Settings) (data out out' : Buf)
    (h16 : data.length % 16 = 0) (ho : data.length ≤ out.length) (ho' : data.length ≤ out'.length) :
    ∃ t r, Bc3.transformWithSettingsOn cpu f data out data.length s = some t ∧
      t = columns 16 (bc3Fields (colour s.decorr) s.splitAlpha s.splitColour) data ++ out.drop data.length ∧
      Bc3.untransformWithSettingsOn cpu' f' (t.take data.length) out' data.length s = some r ∧
      r.take data.length = data := by
  obtain ⟨t, r, h1, h2, h3⟩ := C03_bc3_lossless (.x86 f) (.x86 f') rfl s data out out' h16 ho ho'
  have h4 := C07_bc3_layout (.x86 f) rfl s data out h16 ho
  refine ⟨t, r, ?_, ?_, ?_, h3⟩
  · rw [Bc3.transformOn_eq hs hf, h1]
  · exact Option.some.inj (h1.symm.trans h4)
  · rw [Bc3.untransformOn_eq hs' hf', h2]

/-- **C102** (BC2), for CPUs that have AVX512VL if AVX512BW is claimed.  What is missing: the three transforms that
use `_mm_loadu_epi8` are chosen without asking for AVX512VL, see `C102_bc2_exact` and `C102_bc2_needs_vl`. -/
theorem C102_bc2_partial {cpu cpu' : Ext → Bool} {f f' : Features} (hs : Sane cpu) (hf : Honest cpu f)
    (hv : f.avx512bw = true → cpu .avx512vl = true) (hs' : Sane cpu') (hf' : Honest cpu' f')
    (s : ColourSettings) (data out out' : Buf)
    (h16 : data.length % 16 = 0) (ho : data.length ≤ out.length) (ho' : data.length ≤ out'.length) :
    ∃ t r, Bc2.transformWithSettingsOn cpu f data out data.length s = some t ∧
      t = columns 16 (bc2Fields (colour s.decorr) s.split) data ++ out.drop data.length ∧
      Bc2.untransformWithSettingsOn cpu' f' (t.take data.length) out' data.length s = some r ∧
      r.take data.length = data := by
  obtain ⟨t, r, h1, h2, h3⟩ := C02_bc2_lossless (.x86 f) (.x86 f') rfl s data out out' h16 ho ho'
  have h4 := C06_bc2_layout (.x86 f) rfl s data out h16 ho
  refine ⟨t, r, ?_, ?_, ?_, h3⟩
  · rw [Bc2.transformOn_eq hs hf, if_neg, h1]
    rintro ⟨hb, hl, -⟩
    rw [hv hb] at hl
    cases hl
  · exact Option.some.inj (h1.symm.trans h4)
  · rw [Bc2.untransformOn_eq hs' hf', h2]

/-- **C102** (BC2), exactly: a BC2 transform reaches an instruction the CPU lacks if and only if AVX512BW is claimed,
AVX512VL is absent and the settings ask for anything but the plain rearrangement; the size of the texture plays
no part. -/
theorem C102_bc2_exact {cpu : Ext → Bool} {f : Features} (hs : Sane cpu) (hf : Honest cpu f)
    (s : ColourSettings) (data out : Buf) (h16 : data.length % 16 = 0) (ho : data.length ≤ out.length) :
    Bc2.transformWithSettingsOn cpu f data out data.length s = none ↔
      f.avx512bw = true ∧ cpu .avx512vl = false ∧ (s.split = true ∨ s.decorr ≠ .none) := by
  rw [Bc2.transformOn_eq hs hf, C06_bc2_layout (.x86 f) rfl s data out h16 ho]
  by_cases h : f.avx512bw = true ∧ cpu .avx512vl = false ∧ (s.split = true ∨ s.decorr ≠ .none)
  · rw [if_pos h]
    exact ⟨fun _ => h, fun _ => rfl⟩
  · rw [if_neg h]
    exact ⟨fun h1 => (nomatch h1), fun h1 => absurd h1 h⟩

/-- A CPU with everything but AVX512VL. -/
def noVl : Ext → Bool
  | .avx512vl => false
  | _ => true

theorem noVl_sane : Sane noVl := ⟨fun _ => rfl, fun _ => rfl, fun _ => rfl, fun _ => rfl⟩

/-- **C102**, the full statement is false for BC2: on a CPU with AVX512BW and without AVX512VL, the features
detected at run time, the default settings' colour split of a BC2 texture fails. -/
theorem C102_bc2_needs_vl :
    ∃ (cpu : Ext → Bool) (f : Features), Sane cpu ∧ Honest cpu f ∧ f = detect cpu true (fun _ => 0) ∧
      Bc2.transformWithSettingsOn cpu f (List.replicate 16 0xAB#8) (List.replicate 16 0#8) 16 ⟨.v1, true⟩ = none := by
  refine ⟨noVl, _, noVl_sane, detect_honest _ _ _ (fun _ => rfl), rfl, ?_⟩
  exact (C102_bc2_exact noVl_sane (detect_honest _ _ _ (fun _ => rfl)) ⟨.v1, true⟩ (List.replicate 16 0xAB#8)
    (List.replicate 16 0#8) (by decide) (by decide)).mpr ⟨rfl, rfl, Or.inl rfl⟩

/-- **C102** (separating the two endpoint colours, which normalization calls). -/
theorem C102_split {cpu : Ext → Bool} {f : Features} (hs : Sane cpu) (hf : Honest cpu f) (n : Nat)
    (data out : Buf) (hd : data.length = n * 4) (ho : n * 4 ≤ out.length) :
    Split.splitColorEndpointsOn cpu f data out (n * 4) =
      some (columns 4 [fun b => slice b 0 2, fun b => slice b 2 2] data ++ out.drop (n * 4)) := by
  rw [Split.splitOn_eq hs hf]
  exact Split.split_eq (.x86 f) hd ho

/-- C102 on a CPU without AVX-512 transforming and a 32-bit one without any extension untransforming: BC1 and BC3,
two blocks. -/
example :
    (∃ t r, Bc1.transformWithSettingsOn (fun e => e = .sse2 || e = .avx2)
        (detect (fun e => e = .sse2 || e = .avx2) true (fun _ => 0)) (List.replicate 16 0xAB#8)
        (List.replicate 16 0#8) 16 ⟨.v1, true⟩ = some t ∧
      t = columns 8 (bc1Fields (colour .v1) true) (List.replicate 16 0xAB#8) ++ [] ∧
      Bc1.untransformWithSettingsOn (fun _ => false) (detect (fun _ => false) false (fun _ => 0)) (t.take 16)
        (List.replicate 20 1#8) 16 ⟨.v1, true⟩ = some r ∧ r.take 16 = List.replicate 16 0xAB#8) ∧
    (∃ t r, Bc3.transformWithSettingsOn (fun e => e = .sse2 || e = .avx2)
        (detect (fun e => e = .sse2 || e = .avx2) true (fun _ => 0)) (List.replicate 32 0xAB#8)
        (List.replicate 32 0#8) 32 ⟨.v1, false, false⟩ = some t ∧
      t = columns 16 (bc3Fields (colour .v1) false false) (List.replicate 32 0xAB#8) ++ [] ∧
      Bc3.untransformWithSettingsOn (fun _ => false) (detect (fun _ => false) false (fun _ => 0)) (t.take 32)
        (List.replicate 40 1#8) 32 ⟨.v1, false, false⟩ = some r ∧ r.take 32 = List.replicate 32 0xAB#8) :=
  have h : Sane (fun e => e = .sse2 || e = .avx2) := ⟨by decide, by decide, by decide, by decide⟩
  have h' : Sane (fun _ => false) := ⟨by decide, by decide, by decide, by decide⟩
  ⟨C102_bc1 h (detect_honest _ _ _ (fun _ => rfl)) h' (detect_honest _ _ _ (by decide)) _ _ _ _
      (by decide) (by decide) (by decide),
    C102_bc3 h (detect_honest _ _ _ (fun _ => rfl)) h' (detect_honest _ _ _ (by decide)) _ _ _ _
      (by decide) (by decide) (by decide)⟩

end Props
end Dlt
