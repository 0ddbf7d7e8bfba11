import Verif.Props.VariantBits
import Verif.Props.DdsPanics
/-!
# C119 for files: DDS files transformed with different decorrelation variants

The choice among the variants decides neither whether a file can be transformed nor anything of the result but the tag at its
start and the bit order of the colours.
-/

namespace Dlt.Props
open Dlt.FileFormats Dlt.Dds Dlt.Embed

variable {σ E : Type}

/-- The settings that the caller chose for both formats. -/
def ChosenSettings (bundle : Bundle σ E) (s : ColourSettings) : Prop :=
  (∃ k : Bc1.ManualBuilder, bundle.bc1 = some (.manual k) ∧ k.getSettings = s) ∧
  ∃ k : Bc2.ManualBuilder, bundle.bc2 = some (.manual k) ∧ k.getSettings = s

theorem chosen_bc1 {bundle : Bundle σ E} {s : ColourSettings} (hb : ChosenSettings bundle s) (env : Env) (m : Machine) (dbg : E → String)
    (tex out : Buf) (st : σ) (ho : tex.length ≤ out.length) :
    (tex.length % 8 ≠ 0 → ∃ e, bundle.dispatchTransform env m dbg .bc1 tex out st = some (out, st, .error e)) ∧
    (tex.length % 8 = 0 → ∃ o, Bc1.transformWithSettings m tex out tex.length s = some o ∧
      bundle.dispatchTransform env m dbg .bc1 tex out st = some (o, st, .ok (Embed.bc1.toHeader s))) := by
  obtain ⟨⟨k, hk, rfl⟩, _⟩ := hb
  obtain ⟨h1, _, h3⟩ := C42_bc1_manual_transform m k tex out
  unfold Bundle.dispatchTransform
  rw [if_neg (by omega), hk]
  refine ⟨fun h => ?_, fun h => ?_⟩
  · simp only [Bc1Builder.transformSliceWithDetails, h1 h]
    exact ⟨_, rfl⟩
  · obtain ⟨o, e1, e2⟩ := h3 h ho
    refine ⟨o, e1, ?_⟩
    simp only [Bc1Builder.transformSliceWithDetails, e2]
    rfl

theorem chosen_bc2 {bundle : Bundle σ E} {s : ColourSettings} (hb : ChosenSettings bundle s) (env : Env) (m : Machine) (dbg : E → String)
    (tex out : Buf) (st : σ) (ho : tex.length ≤ out.length) :
    (tex.length % 16 ≠ 0 → ∃ e, bundle.dispatchTransform env m dbg .bc2 tex out st = some (out, st, .error e)) ∧
    (tex.length % 16 = 0 → ∃ o, Bc2.transformWithSettings m tex out tex.length s = some o ∧
      bundle.dispatchTransform env m dbg .bc2 tex out st = some (o, st, .ok (Embed.bc2.toHeader s))) := by
  obtain ⟨_, k, hk, rfl⟩ := hb
  obtain ⟨h1, _, h3⟩ := C42_bc2_manual_transform m k tex out
  unfold Bundle.dispatchTransform
  rw [if_neg (by omega), hk]
  refine ⟨fun h => ?_, fun h => ?_⟩
  · simp only [Bc2Builder.transformSliceWithDetails, h1 h]
    exact ⟨_, rfl⟩
  · obtain ⟨o, e1, e2⟩ := h3 h ho
    refine ⟨o, e1, ?_⟩
    simp only [Bc2Builder.transformSliceWithDetails, e2]
    rfl

/-- The part of a texture that the variants differ in: format, start of the colours in a block, number of blocks. -/
def TextureOf (input : Buf) (c n : Nat) : Prop :=
  (classify input = .bc1 ∧ c = 0 ∧ reportedSize input = n * 8) ∨ (classify input = .bc2 ∧ c = 8 ∧ reportedSize input = n * 16)

/-- Both textures come from the same one with different variants. -/
theorem dispatch_variants {b b' : Bundle σ E} {u v : Variant} (hv1 : u ≠ .none) (hv : v ≠ .none) {split : Bool} (hb : ChosenSettings b ⟨u, split⟩)
    (hb' : ChosenSettings b' ⟨v, split⟩) (env : Env) {m : Machine} (hm : m.endian = .little) (dbg : E → String) {f : TransformFormat}
    {tex out o : Buf} {st st' : σ} {w : TransformHeader} (ho : tex.length = out.length)
    (h : b.dispatchTransform env m dbg f tex out st = some (o, st', .ok w)) :
    ∃ o' w' c n, b'.dispatchTransform env m dbg f tex out st = some (o', st', .ok w') ∧
      ((f = .bc1 ∧ c = 0 ∧ tex.length = n * 8) ∨ (f = .bc2 ∧ c = 8 ∧ tex.length = n * 16)) ∧ SameBits u v split c n o o' := by
  by_cases h1 : f = .bc1
  · subst h1
    obtain ⟨g1, g2⟩ := chosen_bc1 hb env m dbg tex out st (by omega)
    by_cases ha : tex.length % 8 = 0
    swap
    · obtain ⟨e, he⟩ := g1 ha
      rw [he] at h
      simp at h
    obtain ⟨o1, e1, e2⟩ := g2 ha
    rw [e2] at h
    simp only [Option.some.injEq, Prod.mk.injEq] at h
    obtain ⟨rfl, rfl, _⟩ := h
    obtain ⟨o2, e3, e4⟩ := (chosen_bc1 hb' env m dbg tex out st (by omega)).2 ha
    obtain ⟨a, x, k1, k2, k3⟩ := C119_bc1 m hm (tex.length / 8) tex out u v hv1 hv split (by omega) (by omega)
    obtain rfl := Option.some.inj (k1.symm.trans e1)
    obtain rfl := Option.some.inj (k2.symm.trans e3)
    exact ⟨_, _, 0, _, e4, .inl ⟨rfl, rfl, by omega⟩, k3⟩
  by_cases h2 : f = .bc2
  · subst h2
    obtain ⟨g1, g2⟩ := chosen_bc2 hb env m dbg tex out st (by omega)
    by_cases ha : tex.length % 16 = 0
    swap
    · obtain ⟨e, he⟩ := g1 ha
      rw [he] at h
      simp at h
    obtain ⟨o1, e1, e2⟩ := g2 ha
    rw [e2] at h
    simp only [Option.some.injEq, Prod.mk.injEq] at h
    obtain ⟨rfl, rfl, _⟩ := h
    obtain ⟨o2, e3, e4⟩ := (chosen_bc2 hb' env m dbg tex out st (by omega)).2 ha
    obtain ⟨a, x, k1, k2, k3⟩ := C119_bc2 m hm (tex.length / 16) tex out u v hv1 hv split (by omega) (by omega)
    obtain rfl := Option.some.inj (k1.symm.trans e1)
    obtain rfl := Option.some.inj (k2.symm.trans e3)
    exact ⟨_, _, 8, _, e4, .inr ⟨rfl, rfl, by omega⟩, k3⟩
  · unfold Bundle.dispatchTransform at h
    rw [if_neg (by omega)] at h
    cases f <;> simp at h h1 h2

/-- **C119** (DDS files): a file that is transformed with one variant is transformed with any other; the results agree but for the tag
at the start and the bit order of the colours. -/
theorem C119_dds (p : Platform) (hu : 2 ^ 32 - 1 ≤ p.env.usizeMax) (hm : p.m.endian = .little) (dbg : E → String) {b b' : Bundle σ E}
    {u v : Variant} (hv1 : u ≠ .none) (hv : v ≠ .none) {split : Bool} (hb : ChosenSettings b ⟨u, split⟩) (hb' : ChosenSettings b' ⟨v, split⟩)
    (input output a : Buf) (st st' : σ) (h : transformBundle p dbg b input output st = some (a, st', .ok ())) :
    ∃ o c n, transformBundle p dbg b' input output st = some (o, st', .ok ()) ∧ o.length = a.length ∧
      (∀ k, 4 ≤ k → k < headerSize input ∨ headerSize input + reportedSize input ≤ k → o[k]? = a[k]?) ∧ TextureOf input c n ∧
      SameBits u v split c n (slice a (headerSize input) (reportedSize input)) (slice o (headerSize input) (reportedSize input)) := by
  obtain ⟨info, f, tex, w, hp, hi, ha, hio, hf, hd, hd1, heq, ho⟩ := transform_ok hu h
  have hrep : info = reported input := by
    have := hp
    rw [parseDds_spec] at this
    split at this
    · split at this
      · simp at this
      · simpa using this.symm
    · simp at this
  subst hrep
  have hle := parse_offset_le (parseDds_some hp).1
  rw [reported_offset, reported_length] at hi ha hd heq ho
  rw [reported_length] at hd1
  rw [reported_offset] at hle
  obtain ⟨tex', w', c, n, e1, e2, e3⟩ := dispatch_variants hv1 hv hb hb' p.env hm dbg
    (by rw [slice_length_of_le (by omega), slice_length_of_le (by omega)]) hd
  rw [slice_length_of_le (by omega)] at e2
  have e : ∃ o, transformBundle p dbg b' input output st = some (o, st', .ok ()) := by
    rw [transform_eq p dbg b' input output st hp (reported_offset input) (reported_length input) (by omega) hio ha, hf]
    simp only [e1]
    by_cases hr : headerSize input + reportedSize input < input.length
    · rw [if_pos hr, if_pos (heq hr)]
      exact ⟨_, rfl⟩
    · rw [if_neg hr]
      exact ⟨_, rfl⟩
  obtain ⟨o, ho'⟩ := e
  obtain ⟨info', f', t', w'', hp', _, _, _, hf', hd', hd1', _, hoo⟩ := transform_ok hu ho'
  rw [hp] at hp'
  simp only [Option.some.injEq] at hp'
  subst hp'
  rw [hf] at hf'
  cases hf'
  rw [reported_offset, reported_length] at hd' hoo
  rw [reported_length] at hd1'
  rw [e1] at hd'
  simp only [Option.some.injEq, Prod.mk.injEq, Except.ok.injEq] at hd'
  obtain ⟨rfl, _, rfl⟩ := hd'
  obtain ⟨_, l1, r1, s1⟩ := C28_dds_rest_exact p hu dbg b input output a st st' h
  obtain ⟨_, l2, r2, s2⟩ := C28_dds_rest_exact p hu dbg b' input output o st st' ho'
  refine ⟨o, c, n, ho', l2.trans l1.symm, fun k h4 hk => ?_, ?_, ?_⟩
  · by_cases hki : k < input.length
    · rcases r1 k hki with x | x | x
      · rcases r2 k hki with y | y | y
        · rw [x, y]
        · omega
        · omega
      · omega
      · omega
    · rw [s1 k (by omega), s2 k (by omega)]
  · have hfm : (reported input).format = classify input := rfl
    rw [hfm] at hf
    rcases e2 with ⟨rfl, hc, hn⟩ | ⟨rfl, hc, hn⟩
    · refine .inl ⟨?_, hc, hn⟩
      revert hf
      cases classify input <;> simp [toTransformFormat]
    · refine .inr ⟨?_, hc, hn⟩
      revert hf
      cases classify input <;> simp [toTransformFormat]
  · have x1 := assemble_tex (magic := to32 .little w.word) (input := input) (tex := tex)
      (rest := if headerSize input + reportedSize input < input.length then input.drop (headerSize input + reportedSize input)
        else output.drop (headerSize input + reportedSize input)) (off := headerSize input) (to32_length _ _) (by omega) (by omega)
    have x2 := assemble_tex (magic := to32 .little w'.word) (input := input) (tex := tex')
      (rest := if headerSize input + reportedSize input < input.length then input.drop (headerSize input + reportedSize input)
        else output.drop (headerSize input + reportedSize input)) (off := headerSize input) (to32_length _ _) (by omega) (by omega)
    rw [← ho, hd1] at x1
    rw [← hoo, hd1'] at x2
    rw [x1, x2]
    exact e3

/-! ## A concrete file -/

/-- A 4 x 4 BC1 texture (`mossData`) and one more byte. -/
def mossFile : Buf := ddsHeader 0x1007#32 4#32 4#32 1#32 4#32 "DXT1" [] ++ mossData ++ [99]

/-- The caller's choice of a variant. -/
def choose (v : Variant) : Bundle Unit Unit := ⟨some (.manual ⟨⟨v, false⟩⟩), some (.manual ⟨⟨v, false⟩⟩)⟩

example (v : Variant) : ChosenSettings (choose v) ⟨v, false⟩ := ⟨⟨_, rfl, rfl⟩, ⟨_, rfl, rfl⟩⟩

/-- The file with the variants 1 and 2: tag and colours differ, the rest is the same. -/
example :
    ([Variant.v1, .v2].map fun v => (transformBundle somePlatform (fun _ : Unit => "") (choose v) mossFile (List.replicate 137 7) ()).map
      fun (o, _, r) => (o.take 4, o.drop 128, r.toOption)) =
    [some ([0, 0, 0, 0], [0xE0, 0x31, 0xC0, 0x51, 1, 2, 3, 4, 99], some ()), some ([128, 0, 0, 0], [0xE0, 0x98, 0xE0, 0x28, 1, 2, 3, 4, 99], some ())] ∧
    headerSize mossFile = 128 ∧ reportedSize mossFile = 8 := by decide +kernel

end Dlt.Props
