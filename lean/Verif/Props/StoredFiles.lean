import Verif.Props.StoredAlike
import Verif.Props.RepeatsFiles
/-!
# C121 for files: how a block of a DDS file is stored depends on the block alone
-/

namespace Dlt.Props
open Dlt.FileFormats Dlt.Dds Dlt.Embed Spec

variable {σ E : Type}

/-- What the handler makes of the texture of a file, if the caller chose the settings. -/
theorem file_texture {p : Platform} (hu : 2 ^ 32 - 1 ≤ p.env.usizeMax) {dbg : E → String} {b : Bundle σ E} {s : ColourSettings}
    (hb : ChosenSettings b s) {input output a : Buf} {st st' : σ} (h : transformBundle p dbg b input output st = some (a, st', .ok ())) :
    (textureIn input input).length = reportedSize input ∧ ∃ out : Buf, out.length = reportedSize input ∧
      ((classify input = .bc1 ∧ reportedSize input % 8 = 0 ∧
        Bc1.transformWithSettings p.m (textureIn input input) out (textureIn input input).length s = some (textureIn input a)) ∨
      (classify input = .bc2 ∧ reportedSize input % 16 = 0 ∧
        Bc2.transformWithSettings p.m (textureIn input input) out (textureIn input input).length s = some (textureIn input a))) := by
  obtain ⟨info, f, tex, w, hp, hi, ha, hio, hf, hd, hd1, heq, ho⟩ := transform_ok hu h
  have hrep : info = reported input := by
    have := hp
    rw [parseDds_spec] at this
    split at this
    · split at this
      · simp at this
      · simpa using this.symm
    · simp at this
  subst hrep
  have hle := parse_offset_le (parseDds_some hp).1
  rw [reported_offset, reported_length] at hi ha hd heq ho
  rw [reported_length] at hd1
  rw [reported_offset] at hle
  have x := assemble_tex (magic := to32 .little w.word) (input := input) (tex := tex)
    (rest := if headerSize input + reportedSize input < input.length then input.drop (headerSize input + reportedSize input)
      else output.drop (headerSize input + reportedSize input)) (off := headerSize input) (to32_length _ _) (by omega) (by omega)
  rw [← ho, hd1] at x
  have hfm : (reported input).format = classify input := rfl
  rw [hfm] at hf
  have l1 : (textureIn input input).length = reportedSize input := slice_length_of_le (by omega)
  have l2 : (textureIn input output).length = reportedSize input := slice_length_of_le (by omega)
  refine ⟨l1, textureIn input output, l2, ?_⟩
  change b.dispatchTransform p.env p.m dbg f (textureIn input input) (textureIn input output) st = _ at hd
  rw [show textureIn input a = tex from x]
  cases hc : classify input <;> rw [hc] at hf <;> simp [toTransformFormat] at hf
  case bc1 =>
    subst hf
    obtain ⟨g1, g2⟩ := chosen_bc1 hb p.env p.m dbg (textureIn input input) (textureIn input output) st (by omega)
    by_cases h8 : (textureIn input input).length % 8 = 0
    · obtain ⟨o, e1, e2⟩ := g2 h8
      rw [e2] at hd
      simp only [Option.some.injEq, Prod.mk.injEq] at hd
      obtain ⟨rfl, _, _⟩ := hd
      exact .inl ⟨rfl, by omega, e1⟩
    · obtain ⟨e, he⟩ := g1 h8
      rw [he] at hd
      simp at hd
  case bc2 =>
    subst hf
    obtain ⟨g1, g2⟩ := chosen_bc2 hb p.env p.m dbg (textureIn input input) (textureIn input output) st (by omega)
    by_cases h8 : (textureIn input input).length % 16 = 0
    · obtain ⟨o, e1, e2⟩ := g2 h8
      rw [e2] at hd
      simp only [Option.some.injEq, Prod.mk.injEq] at hd
      obtain ⟨rfl, _, _⟩ := hd
      exact .inr ⟨rfl, by omega, e1⟩
    · obtain ⟨e, he⟩ := g1 h8
      rw [he] at hd
      simp at hd
  all_goals
    subst hf
    exfalso
    unfold Bundle.dispatchTransform at hd
    rw [if_neg (by omega)] at hd
    simp at hd

/-- **C121** (DDS files): the blocks of two BC1 files, or two BC2 files, that are transformed with the same settings, whatever the sizes of
the textures and the headers. -/
theorem C121_dds (p p' : Platform) (hu : 2 ^ 32 - 1 ≤ p.env.usizeMax) (hu' : 2 ^ 32 - 1 ≤ p'.env.usizeMax) (hm : p.m.endian = p'.m.endian)
    (dbg dbg' : E → String) (b b' : Bundle σ E) (s : ColourSettings) (hb : ChosenSettings b s) (hb' : ChosenSettings b' s)
    (input output x input' output' y : Buf) (st st1 st' st1' : σ) (h : transformBundle p dbg b input output st = some (x, st1, .ok ()))
    (h' : transformBundle p' dbg' b' input' output' st' = some (y, st1', .ok ())) (hc : classify input = classify input') :
    ∃ n n',
      (classify input = .bc1 ∧ reportedSize input = n * 8 ∧ reportedSize input' = n' * 8 ∧ ∀ i j, i < n → j < n' →
        (StoredAlike (sections1 s.split) n i (textureIn input x) n' j (textureIn input' y) ↔
          block 8 (textureIn input input) i = block 8 (textureIn input' input') j)) ∨
      (classify input = .bc2 ∧ reportedSize input = n * 16 ∧ reportedSize input' = n' * 16 ∧ ∀ i j, i < n → j < n' →
        (StoredAlike (sections2 s.split) n i (textureIn input x) n' j (textureIn input' y) ↔
          block 16 (textureIn input input) i = block 16 (textureIn input' input') j)) := by
  obtain ⟨l, o, lo, ⟨c, h8, e⟩ | ⟨c, h8, e⟩⟩ := file_texture hu hb h <;>
    obtain ⟨l', o', lo', ⟨c', h8', e'⟩ | ⟨c', h8', e'⟩⟩ := file_texture hu' hb' h'
  · obtain ⟨⟨u, v, k1, k2, k⟩, -⟩ := C121_bc1 p.m p'.m hm s (reportedSize input / 8) (reportedSize input' / 8) _ _ o o'
      (by rw [l]; omega) (by rw [l']; omega) (by omega) (by omega)
    obtain rfl := Option.some.inj (k1.symm.trans e)
    obtain rfl := Option.some.inj (k2.symm.trans e')
    exact ⟨_, _, .inl ⟨c, by omega, by omega, k⟩⟩
  · rw [c, c'] at hc
    simp at hc
  · rw [c, c'] at hc
    simp at hc
  · obtain ⟨⟨u, v, k1, k2, k⟩, -⟩ := C121_bc2 p.m p'.m hm s (reportedSize input / 16) (reportedSize input' / 16) _ _ o o'
      (by rw [l]; omega) (by rw [l']; omega) (by omega) (by omega)
    obtain rfl := Option.some.inj (k1.symm.trans e)
    obtain rfl := Option.some.inj (k2.symm.trans e')
    exact ⟨_, _, .inr ⟨c, by omega, by omega, k⟩⟩

/-- The tag at the start of a transformed file says whether the colours are split (C24): bit 6 of the first byte. -/
def tagSplit (x : Buf) : Bool := (x.headD 0).getLsbD 6

/-- What the handler makes of the texture of a file, whatever the caller chose: the settings are those of the tag. -/
theorem any_texture {p : Platform} (hu : 2 ^ 32 - 1 ≤ p.env.usizeMax) {dbg : E → String} {b : Bundle σ E}
    {input output a : Buf} {st st' : σ} (h : transformBundle p dbg b input output st = some (a, st', .ok ())) :
    (textureIn input input).length = reportedSize input ∧ ∃ (out : Buf) (s : ColourSettings), out.length = reportedSize input ∧
      ((classify input = .bc1 ∧ reportedSize input % 8 = 0 ∧ a.take 4 = to32 .little (Embed.bc1.toHeader s).word ∧
        Bc1.transformWithSettings p.m (textureIn input input) out (textureIn input input).length s = some (textureIn input a)) ∨
      (classify input = .bc2 ∧ reportedSize input % 16 = 0 ∧ a.take 4 = to32 .little (Embed.bc2.toHeader s).word ∧
        Bc2.transformWithSettings p.m (textureIn input input) out (textureIn input input).length s = some (textureIn input a))) := by
  obtain ⟨info, f, tex, w, hp, hi, ha, hio, hf, hd, hd1, heq, ho⟩ := transform_ok hu h
  have hrep : info = reported input := by
    have := hp
    rw [parseDds_spec] at this
    split at this
    · split at this
      · simp at this
      · simpa using this.symm
    · simp at this
  subst hrep
  have hle := parse_offset_le (parseDds_some hp).1
  rw [reported_offset, reported_length] at hi ha hd heq ho
  rw [reported_length] at hd1
  rw [reported_offset] at hle
  have x := assemble_tex (magic := to32 .little w.word) (input := input) (tex := tex)
    (rest := if headerSize input + reportedSize input < input.length then input.drop (headerSize input + reportedSize input)
      else output.drop (headerSize input + reportedSize input)) (off := headerSize input) (to32_length _ _) (by omega) (by omega)
  have x0 := assemble_magic (magic := to32 .little w.word) (input := input) (tex := tex)
    (rest := if headerSize input + reportedSize input < input.length then input.drop (headerSize input + reportedSize input)
      else output.drop (headerSize input + reportedSize input)) (off := headerSize input) (to32_length _ _)
  rw [← ho, hd1] at x
  rw [← ho, slice, List.drop_zero] at x0
  have hfm : (reported input).format = classify input := rfl
  rw [hfm] at hf
  have l1 : (textureIn input input).length = reportedSize input := slice_length_of_le (by omega)
  have l2 : (textureIn input output).length = reportedSize input := slice_length_of_le (by omega)
  obtain ⟨o, s', r, e, _, _, k⟩ := dispatchTransform_spec p.env p.m dbg b f (textureIn input input) (textureIn input output) st
  change b.dispatchTransform p.env p.m dbg f (textureIn input input) (textureIn input output) st = _ at hd
  rw [hd] at e
  simp only [Option.some.injEq, Prod.mk.injEq] at e
  obtain ⟨rfl, rfl, rfl⟩ := e
  rw [show textureIn input a = tex from x, x0]
  obtain ⟨_, s, k⟩ := k w rfl
  refine ⟨l1, textureIn input output, s, l2, ?_⟩
  rcases k with ⟨rfl, _, rfl, h8, e⟩ | ⟨rfl, _, rfl, h8, e⟩
  · refine .inl ⟨?_, by omega, rfl, e⟩
    revert hf
    cases classify input <;> simp [toTransformFormat]
  · refine .inr ⟨?_, by omega, rfl, e⟩
    revert hf
    cases classify input <;> simp [toTransformFormat]

/-- **C121** (DDS files with the same tag): whatever the callers chose, settings or estimators that found some, if the results begin with
the same four bytes, the files have one format and equal blocks are stored alike. -/
theorem C121_tags (p p' : Platform) (hu : 2 ^ 32 - 1 ≤ p.env.usizeMax) (hu' : 2 ^ 32 - 1 ≤ p'.env.usizeMax) (hm : p.m.endian = p'.m.endian)
    {σ' E' : Type} (dbg : E → String) (dbg' : E' → String) (b : Bundle σ E) (b' : Bundle σ' E')
    (input output x input' output' y : Buf) (st st1 : σ) (st' st1' : σ') (h : transformBundle p dbg b input output st = some (x, st1, .ok ()))
    (h' : transformBundle p' dbg' b' input' output' st' = some (y, st1', .ok ())) (ht : x.take 4 = y.take 4) :
    ∃ n n',
      (classify input = .bc1 ∧ classify input' = .bc1 ∧ reportedSize input = n * 8 ∧ reportedSize input' = n' * 8 ∧ ∀ i j, i < n → j < n' →
        (StoredAlike (sections1 (tagSplit x)) n i (textureIn input x) n' j (textureIn input' y) ↔
          block 8 (textureIn input input) i = block 8 (textureIn input' input') j)) ∨
      (classify input = .bc2 ∧ classify input' = .bc2 ∧ reportedSize input = n * 16 ∧ reportedSize input' = n' * 16 ∧ ∀ i j, i < n → j < n' →
        (StoredAlike (sections2 (tagSplit x)) n i (textureIn input x) n' j (textureIn input' y) ↔
          block 16 (textureIn input input) i = block 16 (textureIn input' input') j)) := by
  have hs : tagSplit x = tagSplit (x.take 4) := by
    unfold tagSplit
    cases x <;> rfl
  obtain ⟨l, o, s, lo, ⟨c, h8, t, e⟩ | ⟨c, h8, t, e⟩⟩ := any_texture hu h <;>
    obtain ⟨l', o', s', lo', ⟨c', h8', t', e'⟩ | ⟨c', h8', t', e'⟩⟩ := any_texture hu' h' <;> rw [t, t'] at ht <;> rw [hs, t]
  · have : s' = s := by
      revert ht
      obtain ⟨v, q⟩ := s
      obtain ⟨v', q'⟩ := s'
      cases v <;> cases q <;> cases v' <;> cases q' <;> decide
    subst this
    have hsp : tagSplit (to32 .little (Embed.bc1.toHeader s').word) = s'.split := by
      obtain ⟨v, q⟩ := s'
      cases v <;> cases q <;> decide
    rw [hsp]
    obtain ⟨⟨u, v, k1, k2, k⟩, -⟩ := C121_bc1 p.m p'.m hm s' (reportedSize input / 8) (reportedSize input' / 8) _ _ o o'
      (by rw [l]; omega) (by rw [l']; omega) (by omega) (by omega)
    obtain rfl := Option.some.inj (k1.symm.trans e)
    obtain rfl := Option.some.inj (k2.symm.trans e')
    exact ⟨_, _, .inl ⟨c, c', by omega, by omega, k⟩⟩
  · exfalso
    revert ht
    obtain ⟨v, q⟩ := s
    obtain ⟨v', q'⟩ := s'
    cases v <;> cases q <;> cases v' <;> cases q' <;> decide
  · exfalso
    revert ht
    obtain ⟨v, q⟩ := s
    obtain ⟨v', q'⟩ := s'
    cases v <;> cases q <;> cases v' <;> cases q' <;> decide
  · have : s' = s := by
      revert ht
      obtain ⟨v, q⟩ := s
      obtain ⟨v', q'⟩ := s'
      cases v <;> cases q <;> cases v' <;> cases q' <;> decide
    subst this
    have hsp : tagSplit (to32 .little (Embed.bc2.toHeader s').word) = s'.split := by
      obtain ⟨v, q⟩ := s'
      cases v <;> cases q <;> decide
    rw [hsp]
    obtain ⟨⟨u, v, k1, k2, k⟩, -⟩ := C121_bc2 p.m p'.m hm s' (reportedSize input / 16) (reportedSize input' / 16) _ _ o o'
      (by rw [l]; omega) (by rw [l']; omega) (by omega) (by omega)
    obtain rfl := Option.some.inj (k1.symm.trans e)
    obtain rfl := Option.some.inj (k2.symm.trans e')
    exact ⟨_, _, .inr ⟨c, c', by omega, by omega, k⟩⟩

/-- The only block of `mossFile` and the first of `chainFile` are equal and stored alike. -/
example :
    block 8 (textureIn mossFile mossFile) 0 = block 8 (textureIn chainFile chainFile) 0 ∧
    ((transformBundle somePlatform (fun _ : Unit => "") (choose .v1) mossFile (List.replicate 137 7) ()).map fun (o, _, r) =>
      (r.toOption, storedOf (sections1 false) 1 0 (textureIn mossFile o))) = some (some (), [[0xE0, 0x31, 0xC0, 0x51], [1, 2, 3, 4]]) ∧
    ((transformBundle somePlatform (fun _ : Unit => "") (choose .v1) chainFile (List.replicate 145 7) ()).map fun (o, _, r) =>
      (r.toOption, storedOf (sections1 false) 2 0 (textureIn chainFile o))) = some (some (), [[0xE0, 0x31, 0xC0, 0x51], [1, 2, 3, 4]]) := by
  decide +kernel

/-- The two results begin with the same tag, which says that the colours are not split. -/
example :
    ((transformBundle somePlatform (fun _ : Unit => "") (choose .v1) mossFile (List.replicate 137 7) ()).map fun (o, _, r) =>
      (r.toOption, o.take 4, tagSplit o)) =
    ((transformBundle somePlatform (fun _ : Unit => "") (choose .v1) chainFile (List.replicate 145 7) ()).map fun (o, _, r) =>
      (r.toOption, o.take 4, tagSplit o)) ∧
    ((transformBundle somePlatform (fun _ : Unit => "") (choose .v1) mossFile (List.replicate 137 7) ()).map fun (o, _, r) =>
      (r.toOption, tagSplit o)) = some (some (), false) := by
  decide +kernel

end Dlt.Props
